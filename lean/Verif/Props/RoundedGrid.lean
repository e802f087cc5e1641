import Verif.Proof.RoundedGrid
import Verif.Proof.RoundNearest
/-
Property C117: lookups in grids and coefficients of the ocean pole tide deformation at sites in double precision.
-/
namespace Verif.RoundedGrid
open Verif Verif.Rounded Verif.Grid Verif.DesaiGrid Verif.PoleTide Verif.Rounding

variable {fl : Arith} {r2d : ℝ → ℝ}

theorem degY_err (hr : RadToDeg r2d) {lat : ℝ} (h : |degY lat| ≤ 720) : |r2d lat - degY lat| ≤ 4.5e-13 := by
  have hu := u_le
  have h1 : 4 * u * |degY lat| ≤ 4 * 1.1103e-16 * 720 := mul_le_mul (by linarith) h (abs_nonneg _) (by norm_num)
  refine (hr lat).trans (h1.trans (by norm_num))

theorem degX_err (hf : Faithful fl) (hr : RadToDeg r2d) {lon : ℝ} (h : |degX lon| ≤ 720) : |lonDeg fl r2d lon - degX lon| ≤ 4.5e-13 := by
  have hu := u_le
  have u0 := u_pos
  have hp := Real.pi_pos
  unfold lonDeg
  set k := 180 / Real.pi with hk
  have k0 : 0 < k := by positivity
  have kp : k * Real.pi = 180 := by rw [hk]; field_simp
  have hX : degX lon = k * (lon + Real.pi) := by unfold degX; rw [mul_add, kp, ← hk]; ring
  have d1 : |k * (DPI fl - Real.pi)| ≤ u * 180 := by
    have := hf.rel Real.pi
    rw [abs_of_pos hp] at this
    rw [abs_mul, abs_of_pos k0]
    have := mul_le_mul_of_nonneg_left this k0.le
    have e : k * (u * Real.pi) = u * 180 := by rw [← kp]; ring
    rw [e] at this
    exact this
  set s := fl (lon + DPI fl) with hs
  have e1 : k * (lon + DPI fl) = degX lon + k * (DPI fl - Real.pi) := by rw [hX]; ring
  have d2 : |k * (lon + DPI fl)| ≤ 720.1 := by
    rw [e1]
    refine (abs_add_le _ _).trans ?_
    linarith
  have d3 : |k * (s - (lon + DPI fl))| ≤ u * 720.1 := by
    rw [abs_mul, abs_of_pos k0]
    have := mul_le_mul_of_nonneg_left (hf.rel (lon + DPI fl)) k0.le
    rw [← hs] at this
    refine this.trans ?_
    have e : k * (u * |lon + DPI fl|) = u * |k * (lon + DPI fl)| := by rw [abs_mul, abs_of_pos k0]; ring
    rw [e]
    exact mul_le_mul_of_nonneg_left d2 u0.le
  have e2 : s * k = degX lon + k * (DPI fl - Real.pi) + k * (s - (lon + DPI fl)) := by rw [hX]; ring
  have d4 : |s * k - degX lon| ≤ u * 900.1 := by
    rw [e2]
    have : degX lon + k * (DPI fl - Real.pi) + k * (s - (lon + DPI fl)) - degX lon = k * (DPI fl - Real.pi) + k * (s - (lon + DPI fl)) := by ring
    rw [this]
    refine (abs_add_le _ _).trans ?_
    linarith
  have d5 : |s * k| ≤ 720.1 := by
    have := abs_add_le (s * k - degX lon) (degX lon)
    rw [sub_add_cancel] at this
    linarith
  have d6 := hr s
  rw [← hk] at d6
  have d7 : 4 * u * |s * k| ≤ 4 * u * 720.1 := mul_le_mul_of_nonneg_left d5 (by positivity)
  have := abs_add_le (r2d s - s * k) (s * k - degX lon)
  rw [sub_add_sub_cancel] at this
  linarith

/-- The point is between -360 and 720 degrees. -/
theorem inside_range {start step : ℚ} {pts i : Int} (ha : Axis.Usual start step pts) (hi : 0 ≤ i) (hi' : i < pts) {x : ℝ}
    (h1 : (start : ℝ) + i * step + 1e-12 ≤ x) (h2 : x ≤ start + (i + 1) * step - 1e-12) : |x| ≤ 720 := by
  obtain ⟨a1, a2, a3⟩ := ha
  have a1 : (-360 : ℝ) ≤ start := by exact_mod_cast a1
  have a2 : (start : ℝ) + pts * step ≤ 720 := by exact_mod_cast a2
  have a3 : (1 / 1000 : ℝ) ≤ step := by
    have : ((1 / 1000 : ℚ) : ℝ) ≤ step := by exact_mod_cast a3
    simpa using this
  have i0 : (0 : ℝ) ≤ i := by exact_mod_cast hi
  have i1 : (i : ℝ) + 1 ≤ pts := by exact_mod_cast hi'
  have s0 : (0 : ℝ) < step := by linarith
  have hm := mul_le_mul_of_nonneg_right i1 s0.le
  have hm0 := mul_nonneg i0 s0.le
  exact abs_le.mpr ⟨by linarith, by linarith⟩

theorem inside_iff {g : G} {i j : Int} {x y : ℝ} : Inside g i j x y ↔ ((g.xstart : ℝ) + i * g.xstep + 1e-12 ≤ x ∧ x ≤ g.xstart + (i + 1) * g.xstep - 1e-12) ∧
    ((g.ystart : ℝ) + j * g.ystep + 1e-12 ≤ y ∧ y ≤ g.ystart + (j + 1) * g.ystep - 1e-12) := by
  unfold Inside
  simp only [G.pos]
  push_cast
  tauto

/-- C117, a lookup: the line number of a point in a cell, at least 1e-12 degrees from its sides and known up to 4.5e-13 degrees, is that of exact
arithmetic. -/
theorem line_rounded (hf : Faithful fl) (a : Axis) {g : G} (hg : Usual g) {i j : Int} (hn : g.IsNode i j) {x y x' y' : ℝ} (hi : Inside g i j x y)
    (hx : |x' - x| ≤ 4.5e-13) (hy : |y' - y| ≤ 4.5e-13) : line fl a g x' y' = g.lineOf a i j := by
  obtain ⟨⟨x1, x2⟩, y1, y2⟩ := inside_iff.mp hi
  obtain ⟨n1, n2, n3, n4⟩ := hn
  obtain ⟨p1, p2⟩ := index_ok hf hg.1 n1 n2 hx x1 x2
  obtain ⟨q1, q2⟩ := index_ok hf hg.2 n3 n4 hy y1 y2
  unfold line
  rw [if_pos ⟨p2, q2⟩, p1, q1]
  cases a <;> rfl

/-- C117: so are the four nodes around it (in grids led by the y axis, as the ocean pole tide's; `surrounding_x_fails` for the others). -/
theorem surrounding_rounded (hf : Faithful fl) {g : G} (hg : Usual g) {i j : Int} (hn : g.IsNode i j) {x y x' y' : ℝ} (hi : Inside g i j x y)
    (hx : |x' - x| ≤ 4.5e-13) (hy : |y' - y| ≤ 4.5e-13) :
    surrounding fl .Y g x' y' = ⟨g.lineOf .Y i j, g.lineOf .Y (i + 1) j, g.lineOf .Y i (j + 1), g.lineOf .Y (i + 1) (j + 1)⟩ := by
  have h0 := (grid_lines_distinct .Y hn).1
  unfold surrounding
  rw [line_rounded hf .Y hg hn hi hx hy]
  simp only
  rw [if_neg (by omega)]
  simp only [G.neighbours, G.lineOf, Corners.mk.injEq]
  refine ⟨trivial, by ring, by ring, by ring⟩

/-- The record of a node. -/
def recOf (g : G) (v : Int → Int → SiteCoeffs ℚ) (i j : Int) : Rec := ⟨g.lineOf .Y i j, (g.pos i j).1, (g.pos i j).2, v i j⟩

/-- The nodes around a site are those of the cell `(i, j)`. -/
def Nodes (fl : Arith) (r2d : ℝ → ℝ) (g : G) (s : ℝ × ℝ) (i j : Int) : Prop :=
  g.IsNode i j ∧ g.IsNode (i + 1) (j + 1) ∧ surrounding fl .Y g (lonDeg fl r2d s.1) (r2d s.2) =
    ⟨g.lineOf .Y i j, g.lineOf .Y (i + 1) j, g.lineOf .Y i (j + 1), g.lineOf .Y (i + 1) (j + 1)⟩

/-- What is read from the file. -/
theorem read_all {g : G} {hs data : List (List Char)} (hh : HeaderIs g hs) {v : Int → Int → SiteCoeffs ℚ} (hd : DataIs g v data) (sta : List (ℝ × ℝ))
    (hsta : ∀ s ∈ sta, ∃ i j, Nodes fl r2d g s i j) :
    ∃ recs, coeffs fl r2d (some (hs ++ data)) sta = sites fl r2d recs g sta ∧ ∀ s ∈ sta, ∀ i j, Nodes fl r2d g s i j →
      lowerBound recs (g.lineOf .Y i j) = some (recOf g v i j) ∧ lowerBound recs (g.lineOf .Y (i + 1) j) = some (recOf g v (i + 1) j) ∧
      lowerBound recs (g.lineOf .Y i (j + 1)) = some (recOf g v i (j + 1)) ∧
      lowerBound recs (g.lineOf .Y (i + 1) (j + 1)) = some (recOf g v (i + 1) (j + 1)) := by
  have corner : ∀ {i j}, g.IsNode i j → g.IsNode (i + 1) (j + 1) → g.IsNode (i + 1) j ∧ g.IsNode i (j + 1) :=
    fun ⟨a1, a2, a3, a4⟩ ⟨b1, b2, b3, b4⟩ => ⟨⟨b1, b2, a3, a4⟩, ⟨a1, a2, b3, b4⟩⟩
  set ns := sta.map fun s => surrounding fl .Y g (lonDeg fl r2d s.1) (r2d s.2) with hns
  have nodeOf : ∀ k ∈ indexes ns, ∃ i j, g.IsNode i j ∧ k = j * g.xpts + i := by
    intro k hk
    obtain ⟨n, hn, hk⟩ := (mem_indexes _ _).mp hk
    obtain ⟨s, hs, rfl⟩ := List.mem_map.mp hn
    obtain ⟨i, j, n1, n2, hc⟩ := hsta s hs
    obtain ⟨n3, n4⟩ := corner n1 n2
    rw [hc] at hk
    simp only [G.lineOf] at hk
    rcases hk with rfl | rfl | rfl | rfl
    · exact ⟨i, j, n1, rfl⟩
    · exact ⟨i + 1, j, n3, rfl⟩
    · exact ⟨i, j + 1, n4, rfl⟩
    · exact ⟨i + 1, j + 1, n2, rfl⟩
  obtain ⟨recs, hr1, hr2, hr3⟩ := readRecs_ok data (nodeRec g v) _ 0 (sorted_indexes ns) (by
    intro k hk
    obtain ⟨i, j, hn, rfl⟩ := nodeOf k hk
    have := (line_nat hn).1
    exact ⟨by omega, _, this.symm, data_line hd hn⟩)
  have hsort : (recs.map (·.index)).Pairwise (· ≤ ·) := by rw [hr2]; exact sorted_indexes _
  refine ⟨recs, ?_, ?_⟩
  · unfold coeffs
    simp only
    rw [header_ok hh data]
    simp only [Res.bind]
    have hr1' : readRecs (indexes ns) (nextLine data).1 0 (nextLine data).2 = some recs := hr1
    rw [← hns, hr1']
  · intro s hs i j ⟨n1, n2, hsur⟩
    obtain ⟨n3, n4⟩ := corner n1 n2
    have get : ∀ {i' j'}, g.IsNode i' j' → (g.lineOf .Y i' j' ∈ [g.lineOf .Y i j, g.lineOf .Y (i + 1) j, g.lineOf .Y i (j + 1), g.lineOf .Y (i + 1) (j + 1)]) →
        lowerBound recs (g.lineOf .Y i' j') = some (recOf g v i' j') := by
      intro i' j' hn hm
      have hmem : g.lineOf .Y i' j' ∈ recs.map (·.index) := by
        rw [hr2, mem_indexes]
        refine ⟨_, List.mem_map.mpr ⟨s, hs, rfl⟩, ?_⟩
        rw [hsur]
        simpa using hm
      obtain ⟨r, m, l, e⟩ := lowerBound_ok recs _ hsort hmem
      rw [l]
      have := hr3 r m
      rw [e] at this
      simp only [G.lineOf] at this ⊢
      rw [nodeRec_line v hn] at this
      rw [this]
      rfl
    exact ⟨get n1 (by simp), get n3 (by simp), get n4 (by simp), get n2 (by simp)⟩

theorem node_err (hf : Faithful fl) {q : ℚ} (h1 : -360 ≤ q) (h2 : q ≤ 720) : |fl (q : ℝ) - q| ≤ 8.1e-14 := by
  have h1 : (-360 : ℝ) ≤ q := by exact_mod_cast h1
  have h2 : (q : ℝ) ≤ 720 := by exact_mod_cast h2
  have hq : |(q : ℝ)| ≤ 720 := abs_le.mpr ⟨by linarith, h2⟩
  exact (hf.rel _).trans ((mul_le_mul u_le hq (abs_nonneg _) (by norm_num)).trans (by norm_num))

/-- Both ends of a cell. -/
theorem cell_ends {start step : ℚ} {pts i : Int} (ha : Axis.Usual start step pts) (hi : 0 ≤ i) (hi' : i + 1 < pts) :
    -360 ≤ start + i * step ∧ start + ((i + 1 : Int) : ℚ) * step ≤ 720 ∧ step ≤ 1080 := by
  obtain ⟨a1, a2, a3⟩ := ha
  have i0 : (0 : ℚ) ≤ i := by exact_mod_cast hi
  have i1 : ((i + 1 : Int) : ℚ) + 1 ≤ pts := by exact_mod_cast hi'
  have s0 : (0 : ℚ) < step := by linarith
  have hm := mul_le_mul_of_nonneg_right i1 s0.le
  have hm0 := mul_nonneg i0 s0.le
  push_cast at hm ⊢
  refine ⟨by linarith, by linarith, by linarith⟩

theorem site_rounded (hf : Faithful fl) {g : G} (hg : Usual g) {v : Int → Int → SiteCoeffs ℚ} {recs : List Rec} {i j : Int} (hn : g.IsNode i j)
    (hn' : g.IsNode (i + 1) (j + 1)) {x y x' y' : ℝ} (hi : Inside g i j x y) (hx : |x' - x| ≤ 4.5e-13) (hy : |y' - y| ≤ 4.5e-13)
    (hb : lowerBound recs (g.lineOf .Y i j) = some (recOf g v i j) ∧ lowerBound recs (g.lineOf .Y (i + 1) j) = some (recOf g v (i + 1) j) ∧
      lowerBound recs (g.lineOf .Y i (j + 1)) = some (recOf g v i (j + 1)) ∧
      lowerBound recs (g.lineOf .Y (i + 1) (j + 1)) = some (recOf g v (i + 1) (j + 1))) :
    ∃ c, site fl recs ⟨g.lineOf .Y i j, g.lineOf .Y (i + 1) j, g.lineOf .Y i (j + 1), g.lineOf .Y (i + 1) (j + 1)⟩ x' y' = .ok (some c) ∧
      At g v i j x y c := by
  obtain ⟨b1, b2, b3, b4⟩ := hb
  obtain ⟨⟨x1, x2⟩, y1, y2⟩ := inside_iff.mp hi
  obtain ⟨n1, n2, n3, n4⟩ := hn
  obtain ⟨m1, m2, m3, m4⟩ := hn'
  obtain ⟨cx1, cx2, cx3⟩ := cell_ends hg.1 n1 m2
  obtain ⟨cy1, cy2, cy3⟩ := cell_ends hg.2 n3 m4
  have sx : (1 / 1000 : ℚ) ≤ g.xstep := hg.1.2.2
  have sy : (1 / 1000 : ℚ) ≤ g.ystep := hg.2.2.2
  have ex1 := node_err hf cx1 (by push_cast at cx2; linarith)
  have ex2 := node_err hf (by push_cast; linarith) cx2
  have ey1 := node_err hf cy1 (by push_cast at cy2; linarith)
  have ey2 := node_err hf (by push_cast; linarith) cy2
  have sx' : ((1 / 1000 : ℚ) : ℝ) ≤ g.xstep := by exact_mod_cast sx
  have sy' : ((1 / 1000 : ℚ) : ℝ) ≤ g.ystep := by exact_mod_cast sy
  have tx' : (g.xstep : ℝ) ≤ ((1080 : ℚ) : ℝ) := by exact_mod_cast cx3
  have ty' : (g.ystep : ℝ) ≤ ((1080 : ℚ) : ℝ) := by exact_mod_cast cy3
  norm_num at sx' sy' tx' ty'
  have key := fun bl br tl tr : ℝ => bilinear_err hf (x1 := ((g.pos i j).1 : ℝ)) (x2 := ((g.pos (i + 1) j).1 : ℝ)) (y1 := ((g.pos i j).2 : ℝ))
    (y2 := ((g.pos i (j + 1)).2 : ℝ)) (x := x) (y := y) (x' := x') (y' := y')
    ⟨by simp only [G.pos]; push_cast; linarith, by simp only [G.pos]; push_cast; linarith⟩
    ⟨by simp only [G.pos]; push_cast; linarith, by simp only [G.pos]; push_cast; linarith⟩
    ⟨by simp only [G.pos]; push_cast; linarith, by simp only [G.pos]; push_cast; linarith⟩
    ⟨by simp only [G.pos]; push_cast; linarith, by simp only [G.pos]; push_cast; linarith⟩
    ex1 ex2 ey1 ey2 hx hy bl br tl tr
  have dx : ((g.pos (i + 1) j).1 : ℝ) - (g.pos i j).1 = g.xstep := by simp only [G.pos]; push_cast; ring
  have dy : ((g.pos i (j + 1)).2 : ℝ) - (g.pos i j).2 = g.ystep := by simp only [G.pos]; push_cast; ring
  have nx : ((g.pos i j).1 : ℝ) ≠ (g.pos (i + 1) j).1 := by intro h; rw [← h] at dx; linarith
  have ny : ((g.pos i j).2 : ℝ) ≠ (g.pos i (j + 1)).2 := by intro h; rw [← h] at dy; linarith
  unfold site
  simp only [b1, b2, b3, b4]
  rw [if_neg (by simp [recOf]), if_neg (by simp [recOf, G.pos])]
  obtain ⟨hx1, hx2⟩ := abs_le.mp hx
  obtain ⟨hy1, hy2⟩ := abs_le.mp hy
  obtain ⟨hx3, hx4⟩ := abs_le.mp ex1
  obtain ⟨hy3, hy4⟩ := abs_le.mp ey1
  rw [if_neg (by
    rw [not_not]
    simp only [recOf, G.pos]
    push_cast at hx4 hy4 ⊢
    exact ⟨by linarith, by linarith⟩)]
  refine ⟨_, rfl, ?_⟩
  have fin : ∀ f : SiteCoeffs ℚ → ℚ, ∃ w, Interpolates (g.pos i j).1 (g.pos (i + 1) j).1 (g.pos i j).2 (g.pos i (j + 1)).2
      (f (v i j)) (f (v (i + 1) j)) (f (v i (j + 1))) (f (v (i + 1) (j + 1))) x y w ∧
      |bilinear fl (fl (recOf g v i j).lon) (fl (recOf g v (i + 1) j).lon) (fl (recOf g v i j).lat) (fl (recOf g v i (j + 1)).lat) x' y'
          (fl (f (recOf g v i j).c)) (fl (f (recOf g v (i + 1) j).c)) (fl (f (recOf g v i (j + 1)).c)) (fl (f (recOf g v (i + 1) (j + 1)).c)) - w| ≤
        2e-12 * (1 / g.xstep + 1 / g.ystep) *
        (|(f (v i j) : ℝ)| + |(f (v (i + 1) j) : ℝ)| + |(f (v i (j + 1)) : ℝ)| + |(f (v (i + 1) (j + 1)) : ℝ)|) := by
    intro f
    refine ⟨_, exactValue_ok _ _ _ _ x y _ _ _ _ nx ny, ?_⟩
    have := key (f (v i j)) (f (v (i + 1) j)) (f (v i (j + 1))) (f (v (i + 1) (j + 1)))
    rw [dx, dy] at this
    exact this
  intro f hf'
  simp only [Comp, List.mem_cons, List.not_mem_nil, or_false] at hf'
  rcases hf' with rfl | rfl | rfl | rfl | rfl | rfl
  · exact fin (·.rR)
  · exact fin (·.rI)
  · exact fin (·.nR)
  · exact fin (·.nI)
  · exact fin (·.eR)
  · exact fin (·.eI)

theorem axis_unique {start step : ℚ} {i i' : Int} (hs : (0 : ℝ) < step) {x : ℝ} (h1 : (start : ℝ) + i * step + 1e-12 ≤ x) (h2 : x ≤ start + (i + 1) * step - 1e-12)
    (h3 : (start : ℝ) + i' * step + 1e-12 ≤ x) (h4 : x ≤ start + (i' + 1) * step - 1e-12) : i = i' := by
  have a : (i : ℝ) < i' + 1 := lt_of_mul_lt_mul_right (a := (step : ℝ)) (by linarith) hs.le
  have b : (i' : ℝ) < i + 1 := lt_of_mul_lt_mul_right (a := (step : ℝ)) (by linarith) hs.le
  have a' : i < i' + 1 := by exact_mod_cast a
  have b' : i' < i + 1 := by exact_mod_cast b
  omega

theorem inside_unique {g : G} (hg : Usual g) {i j i' j' : Int} {x y : ℝ} (h : Inside g i j x y) (h' : Inside g i' j' x y) : i = i' ∧ j = j' := by
  obtain ⟨⟨x1, x2⟩, y1, y2⟩ := inside_iff.mp h
  obtain ⟨⟨x3, x4⟩, y3, y4⟩ := inside_iff.mp h'
  have sx' : ((1 / 1000 : ℚ) : ℝ) ≤ g.xstep := by exact_mod_cast hg.1.2.2
  have sy' : ((1 / 1000 : ℚ) : ℝ) ≤ g.ystep := by exact_mod_cast hg.2.2.2
  norm_num at sx' sy'
  exact ⟨axis_unique (by linarith) x1 x2 x3 x4, axis_unique (by linarith) y1 y2 y3 y4⟩

/-- C117, for sites whose cell (after a shift of the longitude by 180°) has its four corners in the grid, at least 1e-12 degrees from the sides of the cell:
in double precision success is reported and every coefficient of every site is the bilinear interpolation at the exact position of the site, up to
2e-12 (1/dx + 1/dy) times the values at the corners, where dx and dy are the steps of the grid in degrees. Missing: sites closer to a side
(`desai_rounded_fails`), and what C48 lacks (`desai_longitude_fails`, `desai_seam_fails`). -/
theorem desai_rounded_partial (hf : Faithful fl) (hr : RadToDeg r2d) {g : G} (hg : Usual g) {hs data : List (List Char)} (hh : HeaderIs g hs)
    {v : Int → Int → SiteCoeffs ℚ} (hd : DataIs g v data) (sta : List (ℝ × ℝ))
    (hsta : ∀ s ∈ sta, ∃ i j, g.IsNode i j ∧ g.IsNode (i + 1) (j + 1) ∧ Inside g i j (degX s.1) (degY s.2)) :
    ∃ cs, coeffs fl r2d (some (hs ++ data)) sta = .ok (0, cs) ∧
      List.Forall₂ (fun s c => ∀ i j, Inside g i j (degX s.1) (degY s.2) → At g v i j (degX s.1) (degY s.2) c) sta cs := by
  have errs : ∀ s ∈ sta, ∀ i j, g.IsNode i j → Inside g i j (degX s.1) (degY s.2) →
      |lonDeg fl r2d s.1 - degX s.1| ≤ 4.5e-13 ∧ |r2d s.2 - degY s.2| ≤ 4.5e-13 := by
    intro s hs i j ⟨n1, n2, n3, n4⟩ hi
    obtain ⟨⟨x1, x2⟩, y1, y2⟩ := inside_iff.mp hi
    exact ⟨degX_err hf hr (inside_range hg.1 n1 n2 x1 x2), degY_err hr (inside_range hg.2 n3 n4 y1 y2)⟩
  have nodes : ∀ s ∈ sta, ∀ i j, g.IsNode i j → g.IsNode (i + 1) (j + 1) → Inside g i j (degX s.1) (degY s.2) → Nodes fl r2d g s i j := by
    intro s hs i j n1 n2 hi
    obtain ⟨e1, e2⟩ := errs s hs i j n1 hi
    exact ⟨n1, n2, surrounding_rounded hf hg n1 hi e1 e2⟩
  obtain ⟨recs, h1, h2⟩ := read_all (fl := fl) (r2d := r2d) hh hd sta (fun s hs => by
    obtain ⟨i, j, n1, n2, hi⟩ := hsta s hs
    exact ⟨i, j, nodes s hs i j n1 n2 hi⟩)
  rw [h1]
  have one : ∀ s ∈ sta, ∃ c, site fl recs (surrounding fl .Y g (lonDeg fl r2d s.1) (r2d s.2)) (lonDeg fl r2d s.1) (r2d s.2) = .ok (some c) ∧
      ∀ i j, Inside g i j (degX s.1) (degY s.2) → At g v i j (degX s.1) (degY s.2) c := by
    intro s hs
    obtain ⟨i, j, n1, n2, hi⟩ := hsta s hs
    obtain ⟨e1, e2⟩ := errs s hs i j n1 hi
    have hN := nodes s hs i j n1 n2 hi
    obtain ⟨c, c1, c2⟩ := site_rounded hf hg n1 n2 hi e1 e2 (h2 s hs i j hN)
    rw [hN.2.2]
    refine ⟨c, c1, ?_⟩
    intro i' j' hi'
    obtain ⟨rfl, rfl⟩ := inside_unique hg hi hi'
    exact c2
  clear h1 h2 errs nodes hsta
  induction sta with
  | nil => exact ⟨[], rfl, .nil⟩
  | cons s sta ih =>
    obtain ⟨c, h1, h2⟩ := one s (by simp)
    obtain ⟨cs, h3, h4⟩ := ih (fun s hs => one s (by simp [hs]))
    refine ⟨c :: cs, ?_, .cons h2 h4⟩
    obtain ⟨lon, lat⟩ := s
    unfold sites
    rw [h1]
    simp only [Res.bind, h3]

/-! ### Files -/

theorem exUsual : Usual exGrid := by
  refine ⟨⟨?_, ?_, ?_⟩, ?_, ?_, ?_⟩ <;> norm_num [exGrid]

theorem degX_deg (d : ℝ) : degX (d * (Real.pi / 180)) = d + 180 := by
  have := Real.pi_pos
  unfold degX
  field_simp

theorem degY_deg (d : ℝ) : degY (d * (Real.pi / 180)) = d := by
  have := Real.pi_pos
  unfold degY
  field_simp

/-- An exact conversion will do. -/
theorem exact_r2d : RadToDeg fun x => x * (180 / Real.pi) := by
  intro x
  simp only [sub_self, abs_zero]
  have := u_pos
  positivity

/-- The hypotheses can be met: two sites. The first coefficient, the longitude (shifted by 180°), is obtained with its first ten digits. -/
example (s : ℕ → Bool) : ∃ c c', coeffs (rnArith s) (fun x => x * (180 / Real.pi)) (some (exHeader ++ exData))
    [(100 * (Real.pi / 180), 0 * (Real.pi / 180)), (-100 * (Real.pi / 180), 10 * (Real.pi / 180))] = .ok (0, [c, c']) ∧
      |c.rR - 280| ≤ 1e-10 ∧ |c'.rI - 10| ≤ 1e-10 := by
  have hi : Inside exGrid 2 0 (degX (100 * (Real.pi / 180))) (degY (0 * (Real.pi / 180))) := by
    rw [degX_deg, degY_deg, inside_iff]; norm_num [exGrid]
  have hi' : Inside exGrid 0 0 (degX (-100 * (Real.pi / 180))) (degY (10 * (Real.pi / 180))) := by
    rw [degX_deg, degY_deg, inside_iff]; norm_num [exGrid]
  obtain ⟨cs, h1, h2⟩ := desai_rounded_partial (rn_faithful s) exact_r2d exUsual exHeader_is exData_is
    [(100 * (Real.pi / 180), 0 * (Real.pi / 180)), (-100 * (Real.pi / 180), 10 * (Real.pi / 180))] (by
      intro s hs
      simp only [List.mem_cons, List.not_mem_nil, or_false] at hs
      rcases hs with rfl | rfl
      · exact ⟨2, 0, ⟨by decide, by decide, by decide, by decide⟩, ⟨by decide, by decide, by decide, by decide⟩, hi⟩
      · exact ⟨0, 0, ⟨by decide, by decide, by decide, by decide⟩, ⟨by decide, by decide, by decide, by decide⟩, hi'⟩)
  obtain _ | ⟨q1, q2⟩ := h2
  obtain _ | ⟨q2, q3⟩ := q2
  cases q3
  refine ⟨_, _, h1, ?_, ?_⟩
  · obtain ⟨w, ⟨a, b, p, q, e1, e2, e3, e4, e5⟩, he⟩ := q1 2 0 hi ((·.rR), (·.rR)) (by simp [Comp])
    simp only [degX_deg, degY_deg, exVals, G.pos, exGrid] at e1 e2 e3 e4 e5 he
    norm_num at e1 e2 e3 e4 e5 he
    have : w = 280 := by linarith
    rw [this] at he
    refine he.trans (by norm_num)
  · obtain ⟨w, ⟨a, b, p, q, e1, e2, e3, e4, e5⟩, he⟩ := q2 0 0 hi' ((·.rI), (·.rI)) (by simp [Comp])
    simp only [degX_deg, degY_deg, exVals, G.pos, exGrid] at e1 e2 e3 e4 e5 he
    norm_num at e1 e2 e3 e4 e5 he
    have : w = 10 := by linarith
    rw [this] at he
    refine he.trans (by norm_num)

/-- The hypotheses of a lookup can be met. -/
example (s : ℕ → Bool) : line (rnArith s) .X exGrid 279.9999999999996 1 = 4 ∧
    surrounding (rnArith s) .Y exGrid 279.9999999999996 1 = ⟨2, 3, 6, 7⟩ := by
  have hi : Inside exGrid 2 0 280 1 := by rw [inside_iff]; norm_num [exGrid]
  have hn : exGrid.IsNode 2 0 := ⟨by decide, by decide, by decide, by decide⟩
  exact ⟨line_rounded (rn_faithful s) .X exUsual hn hi (by norm_num [abs_le]) (by norm_num),
    surrounding_rounded (rn_faithful s) exUsual hn hi (by norm_num [abs_le]) (by norm_num)⟩

/-! ### Close to a side -/

/-- A whole number less next to nothing is rounded to the whole number. -/
theorem fl_near (hf : Faithful fl) {n : ℕ} (h2 : 2 ≤ n) (hn : n < 2 ^ 53) {e : ℝ} (e0 : 0 ≤ e) (he : e ≤ 1 / 2 ^ 54) : fl (n - e) = n := by
  have hd : IsDouble (n : ℝ) := ⟨n, 0, by rw [Nat.abs_cast]; exact_mod_cast hn, by simp⟩
  have hle : fl (n - e) ≤ n := fl_le hf hd (by linarith)
  have hnear := hf.nearest (n - e) n hd
  rw [show (n : ℝ) - (n - e) = e from by ring, abs_of_nonneg e0] at hnear
  obtain ⟨h3, _⟩ := abs_le.mp hnear
  have hn2 : (2 : ℝ) ≤ n := by exact_mod_cast h2
  have he1 : e ≤ 1 / 4 := he.trans (by norm_num)
  obtain ⟨m, k, hm, hx⟩ := hf.isDouble (n - e)
  set r := fl.rd (n - e) with hr
  have r1 : (1 : ℝ) ≤ r := by linarith
  have hm' : (m : ℝ) < 2 ^ 53 := by
    have := (abs_lt.mp hm).2
    exact_mod_cast this
  have hk : -52 ≤ k := by
    by_contra hk
    have hk' : k ≤ -53 := by omega
    have : (2 : ℝ) ^ k ≤ 2 ^ (-53 : ℤ) := zpow_le_zpow_right₀ (by norm_num) hk'
    have hp : (0 : ℝ) < 2 ^ k := by positivity
    have : (m : ℝ) * 2 ^ k < 2 ^ 53 * 2 ^ k := mul_lt_mul_of_pos_right hm' hp
    have e3 : (2 : ℝ) ^ 53 * 2 ^ (-53 : ℤ) = 1 := by norm_num
    have : (2 : ℝ) ^ 53 * 2 ^ k ≤ 2 ^ 53 * 2 ^ (-53 : ℤ) := by gcongr
    linarith
  obtain ⟨t, ht⟩ : ∃ t : ℕ, k = t - 52 := ⟨(k + 52).toNat, by omega⟩
  have e4 : r * 2 ^ 52 = ((m * 2 ^ t : ℤ) : ℝ) := by
    rw [hx, ht, zpow_sub₀ (by norm_num)]
    push_cast
    rw [zpow_natCast]
    norm_num
    ring
  have e5 : (n : ℝ) * 2 ^ 52 = ((n * 2 ^ 52 : ℤ) : ℝ) := by push_cast; ring
  have l1 : ((m * 2 ^ t : ℤ) : ℝ) ≤ ((n * 2 ^ 52 : ℤ) : ℝ) := by
    rw [← e4, ← e5]
    have : r ≤ n := hle
    gcongr
  have l2 : ((n * 2 ^ 52 : ℤ) : ℝ) < ((m * 2 ^ t : ℤ) : ℝ) + 1 := by
    rw [← e4, ← e5]
    have : (n : ℝ) - 2 * (1 / 2 ^ 54) ≤ r := by linarith
    nlinarith
  have l3 : m * 2 ^ t = n * 2 ^ 52 := by
    have a1 : m * 2 ^ t ≤ (n : ℤ) * 2 ^ 52 := by exact_mod_cast l1
    have a2 : (n : ℤ) * 2 ^ 52 < m * 2 ^ t + 1 := by exact_mod_cast l2
    omega
  have : r * 2 ^ 52 = n * 2 ^ 52 := by rw [e4, e5, l3]
  exact mul_right_cancel₀ (by norm_num) this

theorem fl_self (hf : Faithful fl) {n : ℕ} (h2 : 2 ≤ n) (hn : n < 2 ^ 53) : fl (n : ℝ) = n := by
  have := fl_near hf h2 hn le_rfl (by norm_num)
  simpa using this

theorem fl_int (hf : Faithful fl) {m : ℤ} (hm : |m| < 2 ^ 53) : fl (m : ℝ) = m := by
  have := hf.nearest m m ⟨m, 0, hm, by simp⟩
  rw [sub_self, abs_zero] at this
  have := abs_nonpos_iff.mp this
  linarith

/-- C117 fails closer to a side, whichever way products and sums are fused: on a grid with the 90 latitudes from -90 to -1 the point less
than 1e-18 degrees south of the equator is between the last latitude and the end of the range, so its row is number 89. Its line number is that of
row 90, behind the last line of the file. -/
theorem grid_rounded_outside_fails : ∃ g : G, g.Ok ∧ Usual g ∧ ∃ x y : ℚ, g.InCell 0 89 x y ∧ g.IsNode 0 89 ∧ g.line .Y x y = 89 * g.xpts ∧
    ∀ fl, Faithful fl → line fl .Y g x y = 90 * g.xpts ∧ ∀ i j, g.IsNode i j → g.lineOf .Y i j < 90 * g.xpts := by
  set g : G := ⟨360, 90, 0, 1, -90, 1⟩ with hg
  have hok : g.Ok := by refine ⟨?_, ?_, ?_, ?_⟩ <;> norm_num [hg]
  have hc : g.InCell 0 89 0 (-(1 / 2 ^ 61)) := by norm_num [G.InCell, G.pos, hg]
  have hn : g.IsNode 0 89 := ⟨by decide, by decide, by decide, by decide⟩
  refine ⟨g, hok, ⟨⟨?_, ?_, ?_⟩, ?_, ?_, ?_⟩, 0, -(1 / 2 ^ 61), hc, hn, ?_, ?_⟩
  · norm_num [hg]
  · norm_num [hg]
  · norm_num [hg]
  · norm_num [hg]
  · norm_num [hg]
  · norm_num [hg]
  · have := grid_line .Y hok hn hc
    rw [this]
    simp [G.lineOf]
  · intro fl hf
    have f1 : fl 1 = 1 := by simpa using fl_int hf (m := 1) (by norm_num)
    have f0 : fl 0 = 0 := by simpa using fl_int hf (m := 0) (by norm_num)
    have f90 : fl (-90) = -90 := by simpa using fl_int hf (m := -90) (by norm_num)
    have f90' : fl 90 = 90 := by simpa using fl_int hf (m := 90) (by norm_num)
    have f360 : fl 360 = 360 := by simpa using fl_int hf (m := 360) (by norm_num)
    have p90 : fl.pr 0 90 = 90 := by rcases hf.fused 0 90 with h | h <;> rw [h]; exact f90'
    have p360 : fl.pr 0 360 = 360 := by rcases hf.fused 0 360 with h | h <;> rw [h]; exact f360
    have hnear : fl (90 - 1 / 2 ^ 61) = 90 := by
      have := fl_near hf (n := 90) (by norm_num) (by norm_num) (e := 1 / 2 ^ 61) (by norm_num) (by norm_num)
      simpa using this
    refine ⟨?_, ?_⟩
    · have hx : InRange fl g.xstart g.xstep g.xpts ((0 : ℚ) : ℝ) := by
        unfold InRange stop
        simp only [hg]
        push_cast
        rw [f0, f1, mul_one, p360, zero_add, f360]
        norm_num
      have hy : InRange fl g.ystart g.ystep g.ypts ((-(1 / 2 ^ 61) : ℚ) : ℝ) := by
        unfold InRange stop
        simp only [hg]
        push_cast
        rw [f90, f1, mul_one, p90, show (-90 : ℝ) + 90 = 0 from by norm_num, f0]
        norm_num
      have ix : index fl g.xstart g.xstep ((0 : ℚ) : ℝ) = 0 := by
        unfold index
        simp only [hg]
        push_cast
        rw [f0, f1, sub_zero, f0, div_one, f0]
        simp
      have iy : index fl g.ystart g.ystep ((-(1 / 2 ^ 61) : ℚ) : ℝ) = 90 := by
        unfold index
        simp only [hg]
        push_cast
        rw [f90, f1, show (-(1 / 2 ^ 61) : ℝ) - -90 = 90 - 1 / 2 ^ 61 from by ring, hnear, div_one, f90']
        norm_num
      unfold line
      rw [if_pos ⟨hx, hy⟩, ix, iy]
      simp
    · rintro i j ⟨n1, n2, n3, n4⟩
      simp only [hg, G.lineOf] at n2 n4 ⊢
      omega

open Verif.Chars

/-- Two longitudes, three latitudes: one of them is the equator. -/
def eqGrid : G := ⟨2, 3, 225, 90, -45, 45⟩

def zeroVals (_ _ : Int) : SiteCoeffs ℚ := ⟨0, 0, 0, 0, 0, 0⟩

def eqHeader : List (List Char) :=
  ["Ocean pole load tide".toList, [], [], "Number_longitude_Grid_Points = 2".toList, "First_longitude_degrees = 225".toList,
   "Last_longitude_degrees = 315".toList, "Longitude_step_degrees = 90".toList, "Number_latitude_grid_points = 3".toList,
   "First_latitude_degrees = -45".toList, "Last_latitude_degrees = 45".toList, "Latitude_step_degrees = 45".toList,
   "Longitude   Latitude   u_r^R       u_r^I       u_n^R       u_n^I       u_e^R       u_e^I".toList,
   "(degrees)  (degrees)  (        )  (        )  (        )  (        )  (        )  (        )".toList, "---".toList]

def eqData : List (List Char) :=
  [" 225 -45 0 0 0 0 0 0".toList,
   " 315 -45 0 0 0 0 0 0".toList,
   " 225 0 0 0 0 0 0 0".toList,
   " 315 0 0 0 0 0 0 0".toList,
   " 225 45 0 0 0 0 0 0".toList,
   " 315 45 0 0 0 0 0 0".toList]

theorem eqGrid_ok : eqGrid.Ok := by refine ⟨?_, ?_, ?_, ?_⟩ <;> norm_num [eqGrid]

theorem eqUsual : Usual eqGrid := by
  refine ⟨⟨?_, ?_, ?_⟩, ?_, ?_, ?_⟩ <;> norm_num [eqGrid]

theorem eqHeader_is : HeaderIs eqGrid eqHeader := by
  refine ⟨by decide, _, _, _, _, _, _, _, _, _, _, _, _, _, _, rfl, ?_, ?_, ⟨315, ?_⟩, ?_, ?_, ?_, ⟨45, ?_⟩, ?_, ?_, ?_⟩
  · exact ⟨" ".toList, " 2".toList, by decide, by decide, [], 1, ⟨false, ['2']⟩, ⟨by decide, by decide⟩, rfl, by decide, by decide, by decide, by decide⟩
  · exact ⟨" ".toList, " 225".toList, by decide, by decide, [], ⟨1, ⟨false, ['2', '2', '5'], none, none⟩, Dec.ok_of (by decide), by decide +kernel, by decide⟩, by unfold Ends; decide⟩
  · exact ⟨" ".toList, " 315".toList, by decide, by decide, [], ⟨1, ⟨false, ['3', '1', '5'], none, none⟩, Dec.ok_of (by decide), by decide +kernel, by decide⟩, by unfold Ends; decide⟩
  · exact ⟨" ".toList, " 90".toList, by decide, by decide, [], ⟨1, ⟨false, ['9', '0'], none, none⟩, Dec.ok_of (by decide), by decide +kernel, by decide⟩, by unfold Ends; decide⟩
  · exact ⟨" ".toList, " 3".toList, by decide, by decide, [], 1, ⟨false, ['3']⟩, ⟨by decide, by decide⟩, rfl, by decide, by decide, by decide, by decide⟩
  · exact ⟨" ".toList, " -45".toList, by decide, by decide, [], ⟨1, ⟨true, ['4', '5'], none, none⟩, Dec.ok_of (by decide), by decide +kernel, by decide⟩, by unfold Ends; decide⟩
  · exact ⟨" ".toList, " 45".toList, by decide, by decide, [], ⟨1, ⟨false, ['4', '5'], none, none⟩, Dec.ok_of (by decide), by decide +kernel, by decide⟩, by unfold Ends; decide⟩
  · exact ⟨" ".toList, " 45".toList, by decide, by decide, [], ⟨1, ⟨false, ['4', '5'], none, none⟩, Dec.ok_of (by decide), by decide +kernel, by decide⟩, by unfold Ends; decide⟩
  · exact ⟨[], by decide⟩
  · exact ⟨[], by decide⟩

theorem eqData_is : DataIs eqGrid zeroVals eqData := by
  rintro i j ⟨h1, h2, h3, h4⟩
  simp only [eqGrid] at h2 h4
  interval_cases j <;> interval_cases i
  · exact ⟨_, rfl, by decide, lineOf_vals (ds := [⟨false, ['2', '2', '5'], none, none⟩, ⟨true, ['4', '5'], none, none⟩, ⟨false, ['0'], none, none⟩, ⟨false, ['0'], none, none⟩, ⟨false, ['0'], none, none⟩, ⟨false, ['0'], none, none⟩, ⟨false, ['0'], none, none⟩, ⟨false, ['0'], none, none⟩]) (by decide) (by decide) (by simp only [eqGrid, zeroVals, G.pos]; decide +kernel)⟩
  · exact ⟨_, rfl, by decide, lineOf_vals (ds := [⟨false, ['3', '1', '5'], none, none⟩, ⟨true, ['4', '5'], none, none⟩, ⟨false, ['0'], none, none⟩, ⟨false, ['0'], none, none⟩, ⟨false, ['0'], none, none⟩, ⟨false, ['0'], none, none⟩, ⟨false, ['0'], none, none⟩, ⟨false, ['0'], none, none⟩]) (by decide) (by decide) (by simp only [eqGrid, zeroVals, G.pos]; decide +kernel)⟩
  · exact ⟨_, rfl, by decide, lineOf_vals (ds := [⟨false, ['2', '2', '5'], none, none⟩, ⟨false, ['0'], none, none⟩, ⟨false, ['0'], none, none⟩, ⟨false, ['0'], none, none⟩, ⟨false, ['0'], none, none⟩, ⟨false, ['0'], none, none⟩, ⟨false, ['0'], none, none⟩, ⟨false, ['0'], none, none⟩]) (by decide) (by decide) (by simp only [eqGrid, zeroVals, G.pos]; decide +kernel)⟩
  · exact ⟨_, rfl, by decide, lineOf_vals (ds := [⟨false, ['3', '1', '5'], none, none⟩, ⟨false, ['0'], none, none⟩, ⟨false, ['0'], none, none⟩, ⟨false, ['0'], none, none⟩, ⟨false, ['0'], none, none⟩, ⟨false, ['0'], none, none⟩, ⟨false, ['0'], none, none⟩, ⟨false, ['0'], none, none⟩]) (by decide) (by decide) (by simp only [eqGrid, zeroVals, G.pos]; decide +kernel)⟩
  · exact ⟨_, rfl, by decide, lineOf_vals (ds := [⟨false, ['2', '2', '5'], none, none⟩, ⟨false, ['4', '5'], none, none⟩, ⟨false, ['0'], none, none⟩, ⟨false, ['0'], none, none⟩, ⟨false, ['0'], none, none⟩, ⟨false, ['0'], none, none⟩, ⟨false, ['0'], none, none⟩, ⟨false, ['0'], none, none⟩]) (by decide) (by decide) (by simp only [eqGrid, zeroVals, G.pos]; decide +kernel)⟩
  · exact ⟨_, rfl, by decide, lineOf_vals (ds := [⟨false, ['3', '1', '5'], none, none⟩, ⟨false, ['4', '5'], none, none⟩, ⟨false, ['0'], none, none⟩, ⟨false, ['0'], none, none⟩, ⟨false, ['0'], none, none⟩, ⟨false, ['0'], none, none⟩, ⟨false, ['0'], none, none⟩, ⟨false, ['0'], none, none⟩]) (by decide) (by decide) (by simp only [eqGrid, zeroVals, G.pos]; decide +kernel)⟩

/-- C117 fails closer to a side, whichever way products and sums are fused: with nodes on the equator,
a site less than 1e-19 radians south of it is taken to lie in the cell north of the equator, and the program is aborted by an assertion. In exact arithmetic its
coefficients are interpolated. -/
theorem desai_rounded_fails : ∃ (g : G) (hs data : List (List Char)) (v : Int → Int → SiteCoeffs ℚ), g.Ok ∧ Usual g ∧ HeaderIs g hs ∧ DataIs g v data ∧
    (∀ lat : ℚ, -1 ≤ lat → lat < 0 → ∃ c, DesaiGrid.coeffs (some (hs ++ data)) [(100, lat)] = .ok (0, [c])) ∧
    ∀ fl r2d, Faithful fl → RadToDeg r2d → ∀ lat : ℝ, -1e-19 ≤ lat → lat < 0 →
      coeffs fl r2d (some (hs ++ data)) [(100 * (Real.pi / 180), lat)] = .abort := by
  refine ⟨eqGrid, eqHeader, eqData, zeroVals, eqGrid_ok, eqUsual, eqHeader_is, eqData_is, ?_, ?_⟩
  · intro lat h1 h2
    obtain ⟨cs, h3, h4⟩ := desai_grid_partial eqGrid_ok eqHeader_is eqData_is [(100, lat)] (by
      intro s hs
      simp only [List.mem_cons, List.not_mem_nil, or_false] at hs
      subst hs
      refine ⟨0, 0, ⟨by decide, by decide, by decide, by decide⟩, ⟨by decide, by decide, by decide, by decide⟩, ?_⟩
      simp only [G.InCell, G.pos, eqGrid]
      norm_num
      exact ⟨by linarith, h2⟩)
    obtain _ | ⟨_, hr⟩ := h4
    cases hr
    exact ⟨_, h3⟩
  · intro fl r2d hf hr lat h1 h2
    have hp := Real.pi_pos
    have hp3 := Real.pi_gt_three
    have hx : |lonDeg fl r2d (100 * (Real.pi / 180)) - 280| ≤ 4.5e-13 := by
      have := degX_err hf hr (lon := 100 * (Real.pi / 180)) (by rw [degX_deg]; norm_num)
      rw [degX_deg] at this
      norm_num at this ⊢
      exact this
    -- the latitude in degrees
    have hk : 180 / Real.pi ≤ 60 := by rw [div_le_iff₀ hp]; linarith
    have hk0 : 0 < 180 / Real.pi := by positivity
    have hd := hr lat
    have hneg : lat * (180 / Real.pi) < 0 := mul_neg_of_neg_of_pos h2 hk0
    have hlow : -6e-18 ≤ lat * (180 / Real.pi) := by nlinarith
    rw [abs_of_neg hneg] at hd
    generalize lat * (180 / Real.pi) = d at hd hneg hlow
    have hu := u_le
    have hud : 4 * u * -d ≤ 1 / 2 * -d := mul_le_mul_of_nonneg_right (by linarith) (by linarith)
    obtain ⟨d1, d2⟩ := abs_le.mp hd
    have y0 : r2d lat < 0 := by linarith
    have y1 : -9e-18 ≤ r2d lat := by linarith
    -- its row
    have f45 : fl 45 = 45 := by simpa using fl_int hf (m := 45) (by norm_num)
    have f1 : fl 1 = 1 := by simpa using fl_int hf (m := 1) (by norm_num)
    have fm45 : fl (-45) = -45 := by simpa using fl_int hf (m := -45) (by norm_num)
    have f135 : fl 135 = 135 := by simpa using fl_int hf (m := 135) (by norm_num)
    have f90 : fl 90 = 90 := by simpa using fl_int hf (m := 90) (by norm_num)
    have f0 : fl 0 = 0 := by simpa using fl_int hf (m := 0) (by norm_num)
    have p135 : fl.pr 0 135 = 135 := by rcases hf.fused 0 135 with h | h <;> rw [h]; exact f135
    have hnear : fl (45 - -r2d lat) = 45 := by
      have := fl_near hf (n := 45) (by norm_num) (by norm_num) (e := -r2d lat) (by linarith) (by norm_num; linarith)
      simpa using this
    have iy : index fl eqGrid.ystart eqGrid.ystep (r2d lat) = 1 := by
      unfold index
      simp only [eqGrid]
      push_cast
      rw [fm45, f45, show r2d lat - -45 = 45 - -r2d lat from by ring, hnear, show (45 : ℝ) / 45 = 1 from by norm_num, f1]
      norm_num
    have hy : InRange fl eqGrid.ystart eqGrid.ystep eqGrid.ypts (r2d lat) := by
      unfold InRange stop
      simp only [eqGrid]
      push_cast
      rw [fm45, f45, show (3 : ℝ) * 45 = 135 from by norm_num, p135, show (-45 : ℝ) + 135 = 90 from by norm_num, f90]
      exact ⟨by linarith, by linarith⟩
    obtain ⟨ix, hxr⟩ := index_ok hf eqUsual.1 (i := 0) (by decide) (by decide) hx (by norm_num [eqGrid]) (by norm_num [eqGrid])
    have hsur : surrounding fl .Y eqGrid (lonDeg fl r2d (100 * (Real.pi / 180))) (r2d lat) = ⟨2, 3, 4, 5⟩ := by
      unfold surrounding line
      rw [if_pos ⟨hxr, hy⟩, ix, iy]
      rfl
    have hN : Nodes fl r2d eqGrid (100 * (Real.pi / 180), lat) 0 1 :=
      ⟨⟨by decide, by decide, by decide, by decide⟩, ⟨by decide, by decide, by decide, by decide⟩, hsur⟩
    obtain ⟨recs, h3, h4⟩ := read_all (fl := fl) (r2d := r2d) eqHeader_is eqData_is [(100 * (Real.pi / 180), lat)] (by
      intro s hs
      simp only [List.mem_cons, List.not_mem_nil, or_false] at hs
      subst hs
      exact ⟨0, 1, hN⟩)
    rw [h3]
    obtain ⟨b1, b2, b3, b4⟩ := h4 _ (by simp) 0 1 hN
    have hs : site fl recs ⟨2, 3, 4, 5⟩ (lonDeg fl r2d (100 * (Real.pi / 180))) (r2d lat) = .abort := by
      have c1 : lowerBound recs 2 = some (recOf eqGrid zeroVals 0 1) := b1
      have c2 : lowerBound recs 3 = some (recOf eqGrid zeroVals 1 1) := b2
      have c3 : lowerBound recs 4 = some (recOf eqGrid zeroVals 0 2) := b3
      have c4 : lowerBound recs 5 = some (recOf eqGrid zeroVals 1 2) := b4
      unfold site
      simp only [c1, c2, c3, c4]
      rw [if_neg (by decide), if_neg (by simp [recOf, G.pos]), if_pos]
      rintro ⟨_, h⟩
      simp only [recOf, G.pos, eqGrid] at h
      norm_num at h
      rw [f0] at h
      linarith
    unfold sites
    rw [hsur, hs]
    rfl

end Verif.RoundedGrid
