import Verif.Spec.Grid
import Mathlib.Tactic.Linarith
import Mathlib.Tactic.Ring
import Mathlib.Tactic.NormNum
import Mathlib.Tactic.FieldSimp
import Mathlib.Tactic.Positivity
import Mathlib.Tactic.LinearCombination
/-
C49, C50: grids.
-/
namespace Verif.Grid

/-! ### Lemmas -/

theorem floor_cell {s d x : ℚ} {i : Int} (hd : 0 < d) :
    ⌊(x - s) / d⌋ = i ↔ s + i * d ≤ x ∧ x < s + (i + 1) * d := by
  rw [Int.floor_eq_iff, le_div_iff₀ hd, div_lt_iff₀ hd]
  constructor
  · rintro ⟨h1, h2⟩; exact ⟨by linarith, by linarith⟩
  · rintro ⟨h1, h2⟩; exact ⟨by linarith, by linarith⟩

theorem in_range {s d x : ℚ} {n i : Int} (hd : 0 < d) (hi : 0 ≤ i) (hn : i < n) (h1 : s + i * d ≤ x)
    (h2 : x < s + (i + 1) * d) : s ≤ x ∧ x < s + n * d := by
  have a1 : (0 : ℚ) ≤ i := by exact_mod_cast hi
  have a2 : (i : ℚ) + 1 ≤ n := by exact_mod_cast hn
  constructor
  · have := mul_nonneg a1 hd.le; linarith
  · have := mul_le_mul_of_nonneg_right a2 hd.le; linarith

theorem tdiv_line {n i j : Int} (hn : 0 < n) (hj : 0 ≤ j) (hi : 0 ≤ i) (hin : i < n) :
    (j * n + i).tdiv n = j := by
  rw [Int.tdiv_eq_ediv_of_nonneg (by positivity)]
  rw [add_comm, Int.add_mul_ediv_right _ _ (by omega), Int.ediv_eq_zero_of_lt hi hin]
  omega

/-! ### C49 -/

/-- C49: a point in the cell of node `(i, j)` has the line number of that node, on both leading axes. -/
theorem grid_line (a : Axis) {g : G} (hg : g.Ok) {i j : Int} (hn : g.IsNode i j) {x y : ℚ}
    (hc : g.InCell i j x y) : g.line a x y = g.lineOf a i j := by
  obtain ⟨_, _, hx, hy⟩ := hg
  obtain ⟨h1, h2, h3, h4⟩ := hn
  obtain ⟨c1, c2, c3, c4⟩ := hc
  simp only [G.pos] at c1 c2 c3 c4
  push_cast at c2 c4
  have ex : g.xindex x = i := (floor_cell hx).mpr ⟨c1, c2⟩
  have ey : g.yindex y = j := (floor_cell hy).mpr ⟨c3, c4⟩
  have rx := in_range hx h1 h2 c1 c2
  have ry := in_range hy h3 h4 c3 c4
  have ox : g.outX x = false := by simp [G.outX, G.xstop, rx.1, rx.2]
  have oy : g.outY y = false := by simp [G.outY, G.ystop, ry.1, ry.2]
  unfold G.line
  rw [ox, oy]
  cases a <;> simp [G.xyindex, G.lineOf, ex, ey]

/-- C49: the line number of a node is that of the node itself. -/
theorem grid_line_node (a : Axis) {g : G} (hg : g.Ok) {i j : Int} (hn : g.IsNode i j) :
    g.line a (g.pos i j).1 (g.pos i j).2 = g.lineOf a i j := by
  apply grid_line a hg hn
  obtain ⟨_, _, hx, hy⟩ := hg
  simp only [G.InCell, G.pos]
  push_cast
  refine ⟨le_refl _, by linarith, le_refl _, by linarith⟩

/-- C49: every point of the grid's extent lies in the cell of a node. -/
theorem grid_cell_exists {g : G} (hg : g.Ok) {x y : ℚ} (hx1 : g.xstart ≤ x) (hx2 : x < g.xstop)
    (hy1 : g.ystart ≤ y) (hy2 : y < g.ystop) : ∃ i j, g.IsNode i j ∧ g.InCell i j x y := by
  obtain ⟨_, _, hx, hy⟩ := hg
  have key : ∀ {s d x : ℚ} {n : Int}, 0 < d → s ≤ x → x < s + n * d →
      ∃ i : Int, 0 ≤ i ∧ i < n ∧ s + i * d ≤ x ∧ x < s + (i + 1) * d := by
    intro s d x n hd h1 h2
    obtain ⟨c1, c2⟩ := (floor_cell (s := s) (x := x) hd).mp rfl
    refine ⟨⌊(x - s) / d⌋, ?_, ?_, c1, c2⟩
    · exact Int.floor_nonneg.mpr (div_nonneg (by linarith) hd.le)
    · rw [Int.floor_lt, div_lt_iff₀ hd]; linarith
  obtain ⟨i, i1, i2, i3, i4⟩ := key hx hx1 hx2
  obtain ⟨j, j1, j2, j3, j4⟩ := key hy hy1 hy2
  refine ⟨i, j, ⟨i1, i2, j1, j2⟩, ?_⟩
  simp only [G.InCell, G.pos]
  push_cast
  exact ⟨i3, i4, j3, j4⟩

/-- C49: line numbers are within the number of nodes, and different nodes have different ones. -/
theorem grid_lines_distinct (a : Axis) {g : G} {i j : Int} (hn : g.IsNode i j) :
    0 ≤ g.lineOf a i j ∧ g.lineOf a i j < g.xpts * g.ypts ∧
    ∀ i' j', g.IsNode i' j' → g.lineOf a i j = g.lineOf a i' j' → i = i' ∧ j = j' := by
  obtain ⟨h1, h2, h3, h4⟩ := hn
  cases a with
  | X =>
    refine ⟨by simp only [G.lineOf]; have := Int.mul_nonneg (a:=i) (b:=g.ypts) (by omega) (by omega); omega, by simp only [G.lineOf]; nlinarith, ?_⟩
    rintro i' j' ⟨k1, k2, k3, k4⟩ h
    have e1 := tdiv_line (n := g.ypts) (by omega) h1 h3 h4
    have e2 := tdiv_line (n := g.ypts) (by omega) k1 k3 k4
    simp only [G.lineOf] at h
    rw [h, e2] at e1
    subst e1
    exact ⟨rfl, by linarith⟩
  | Y =>
    refine ⟨by simp only [G.lineOf]; have := Int.mul_nonneg (a:=j) (b:=g.xpts) (by omega) (by omega); omega, by simp only [G.lineOf]; nlinarith, ?_⟩
    rintro i' j' ⟨k1, k2, k3, k4⟩ h
    have e1 := tdiv_line (n := g.xpts) (by omega) h3 h1 h2
    have e2 := tdiv_line (n := g.xpts) (by omega) k3 k1 k2
    simp only [G.lineOf] at h
    rw [h, e2] at e1
    subst e1
    exact ⟨by linarith, rfl⟩

/-- C49 (partial): on grids led by the y axis, and on square grids led by the x axis, the node of a line
number is the node it belongs to. Missing: grids led by the x axis in general (`grid_node_fails`). -/
theorem grid_node_partial (a : Axis) {g : G} {i j : Int} (hn : g.IsNode i j)
    (ha : a = .Y ∨ g.xpts = g.ypts) : g.node a (g.lineOf a i j) = g.pos i j := by
  obtain ⟨h1, h2, h3, h4⟩ := hn
  cases a with
  | Y =>
    simp only [G.node, G.lineOf]
    rw [tdiv_line (by omega) h3 h1 h2]
    simp only [G.pos]
    congr 1 <;> push_cast <;> ring
  | X =>
    have e : g.xpts = g.ypts := by rcases ha with h | h; cases h; exact h
    simp only [G.node, G.lineOf]
    rw [tdiv_line (by omega) h1 h3 h4, e]
    simp only [G.pos]
    congr 1 <;> push_cast <;> ring

/-- C49: on grids led by the x axis at least the x coordinate is right. -/
theorem grid_node_x {g : G} {i j : Int} (hn : g.IsNode i j) :
    (g.node .X (g.lineOf .X i j)).1 = (g.pos i j).1 := by
  obtain ⟨h1, h2, h3, h4⟩ := hn
  simp only [G.node, G.lineOf]
  rw [tdiv_line (by omega) h1 h3 h4]
  simp only [G.pos]
  ring

/-- C49 fails: on a 2 x 3 grid led by the x axis, the node of line 3, i.e. (1, 0), is reported at
y index 1. -/
theorem grid_node_fails : ∃ g : G, g.Ok ∧ g.IsNode 1 0 ∧
    g.node .X (g.line .X (g.pos 1 0).1 (g.pos 1 0).2) ≠ g.pos 1 0 := by
  refine ⟨⟨2, 3, 0, 1, 0, 1⟩, ?_, ?_, ?_⟩
  · refine ⟨?_, ?_, ?_, ?_⟩ <;> norm_num
  · refine ⟨?_, ?_, ?_, ?_⟩ <;> norm_num
  · decide +kernel

/-- C49 fails for descending axes: with a negative step every point is out of range. -/
theorem grid_negative_step_fails (a : Axis) {g : G} (h : 0 < g.xpts) (hs : g.xstep < 0) (x y : ℚ) :
    g.line a x y = -1 := by
  have hp : (0 : ℚ) < g.xpts := by exact_mod_cast h
  have : g.outX x = true := by
    simp only [G.outX, G.xstop, Bool.not_eq_true', Bool.and_eq_false_iff, decide_eq_false_iff_not]
    by_cases hx : x ≥ g.xstart
    · right
      have := mul_neg_of_pos_of_neg hp hs
      exact decide_eq_false (by linarith)
    · exact Or.inl hx
  simp [G.line, this]

/-- Hypotheses of C49: the 1-degree global grid of the Desai coefficients, node (10, 20). -/
example : ∃ g : G, g.Ok ∧ g.IsNode 10 20 ∧ g.InCell 10 20 10.75 (-69.25) :=
  ⟨⟨360, 180, 0.25, 1, -89.75, 1⟩, by refine ⟨?_, ?_, ?_, ?_⟩ <;> norm_num,
    by refine ⟨?_, ?_, ?_, ?_⟩ <;> norm_num, by refine ⟨?_, ?_, ?_, ?_⟩ <;> simp [G.pos] <;> norm_num⟩

/-! ### C50 -/

/-- C50 (partial): on grids led by the y axis, for a point in a cell all of whose corners are nodes,
the four corners are returned. Missing: grids led by the x axis, cells of the last column or row, and
points outside (`surrounding_x_fails`, `surrounding_edge_fails`, `surrounding_outside_fails`). -/
theorem surrounding_partial {g : G} (hg : g.Ok) {i j : Int} (hn : g.IsNode i j)
    (_hn' : g.IsNode (i + 1) (j + 1)) {x y : ℚ} (hc : g.InCell i j x y) :
    g.surrounding .Y x y =
      ⟨g.lineOf .Y i j, g.lineOf .Y (i + 1) j, g.lineOf .Y i (j + 1), g.lineOf .Y (i + 1) (j + 1)⟩ := by
  have h0 := (grid_lines_distinct .Y hn).1
  unfold G.surrounding
  rw [grid_line .Y hg hn hc]
  simp only
  rw [if_neg (by omega)]
  simp only [G.neighbours, G.lineOf, Corners.mk.injEq]
  refine ⟨trivial, by ring, by ring, by ring⟩

/-- C50 (partial): on grids led by the x axis three of the four corners are right. -/
theorem surrounding_x_partial {g : G} (hg : g.Ok) {i j : Int} (hn : g.IsNode i j)
    (_hn' : g.IsNode (i + 1) (j + 1)) {x y : ℚ} (hc : g.InCell i j x y) :
    (g.surrounding .X x y).bl = g.lineOf .X i j ∧ (g.surrounding .X x y).br = g.lineOf .X (i + 1) j ∧
      (g.surrounding .X x y).tl = g.lineOf .X i (j + 1) := by
  have h0 := (grid_lines_distinct .X hn).1
  unfold G.surrounding
  rw [grid_line .X hg hn hc]
  simp only
  rw [if_neg (by omega)]
  simp only [G.neighbours, G.lineOf]
  refine ⟨trivial, by ring, by ring⟩

/-- C50 fails on every grid led by the x axis: the fourth corner is wrong unless the grid has a single
row (in which there is no such cell). -/
theorem surrounding_x_fails {g : G} (hg : g.Ok) {i j : Int} (hn : g.IsNode i j)
    (hn' : g.IsNode (i + 1) (j + 1)) {x y : ℚ} (hc : g.InCell i j x y) :
    (g.surrounding .X x y).tr ≠ g.lineOf .X (i + 1) (j + 1) := by
  have h0 := (grid_lines_distinct .X hn).1
  obtain ⟨_, _, _, k4⟩ := hn'
  obtain ⟨_, _, k3, _⟩ := hn
  unfold G.surrounding
  rw [grid_line .X hg ⟨by assumption, by assumption, by assumption, by omega⟩ hc]
  simp only
  rw [if_neg (by omega)]
  simp only [G.neighbours, G.lineOf, ne_eq]
  intro h
  have : g.ypts = 1 := by linarith
  omega

/-- C50 fails: in the last column the "bottom right" corner is the first node of the next row. -/
theorem surrounding_edge_fails : ∃ g : G, g.Ok ∧ g.IsNode 2 0 ∧ g.InCell 2 0 2.5 0.5 ∧
    (g.surrounding .Y 2.5 0.5).br = g.lineOf .Y 0 1 := by
  refine ⟨⟨3, 3, 0, 1, 0, 1⟩, by refine ⟨?_, ?_, ?_, ?_⟩ <;> norm_num,
    by refine ⟨?_, ?_, ?_, ?_⟩ <;> norm_num, by refine ⟨?_, ?_, ?_, ?_⟩ <;> simp [G.pos] <;> norm_num,
    by decide +kernel⟩

/-- C50 fails: for a point outside, only the first of the four is -1. -/
theorem surrounding_outside_fails : ∃ g : G, g.Ok ∧ g.surrounding .Y 17 0 = ⟨-1, 0, 2, 3⟩ := by
  refine ⟨⟨3, 3, 0, 1, 0, 1⟩, by refine ⟨?_, ?_, ?_, ?_⟩ <;> norm_num, by decide +kernel⟩

example : ∃ g : G, g.Ok ∧ g.IsNode 1 1 ∧ g.IsNode (1 + 1) (1 + 1) ∧ g.InCell 1 1 1.5 1.5 := by
  refine ⟨⟨3, 4, 0, 1, 0, 1⟩, by refine ⟨?_, ?_, ?_, ?_⟩ <;> norm_num,
    by refine ⟨?_, ?_, ?_, ?_⟩ <;> norm_num, by refine ⟨?_, ?_, ?_, ?_⟩ <;> norm_num,
    by refine ⟨?_, ?_, ?_, ?_⟩ <;> simp [G.pos] <;> norm_num⟩

end Verif.Grid
