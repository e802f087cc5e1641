import Verif.Spec.DesaiGrid
import Verif.Props.Grid
import Verif.Proof.Chars
import Verif.Proof.CharsLine
import Mathlib.Tactic.IntervalCases
import Mathlib.Tactic.Ring
import Mathlib.Tactic.Linarith
import Mathlib.Tactic.FieldSimp
import Mathlib.Tactic.SplitIfs
/-
Property C48: coefficients of the ocean pole tide deformation at sites.
-/
namespace Verif.DesaiGrid
open Verif Verif.Grid Verif.Chars Verif.PoleTide

theorem bilinear_ok (x1 x2 y1 y2 x y bl br tl tr : ℚ) (hx : x1 ≠ x2) (hy : y1 ≠ y2) :
    Interpolates x1 x2 y1 y2 bl br tl tr x y (bilinear x1 x2 y1 y2 x y bl br tl tr) := by
  have hx' : x2 - x1 ≠ 0 := sub_ne_zero.mpr (Ne.symm hx)
  have hy' : y2 - y1 ≠ 0 := sub_ne_zero.mpr (Ne.symm hy)
  refine ⟨(bl * x2 * y2 - br * x1 * y2 - tl * x2 * y1 + tr * x1 * y1) / ((x2 - x1) * (y2 - y1)),
    (-bl * y2 + br * y2 + tl * y1 - tr * y1) / ((x2 - x1) * (y2 - y1)),
    (-bl * x2 + br * x1 + tl * x2 - tr * x1) / ((x2 - x1) * (y2 - y1)),
    (bl - br - tl + tr) / ((x2 - x1) * (y2 - y1)), ?_, ?_, ?_, ?_, ?_⟩
  · field_simp; ring
  · field_simp; ring
  · field_simp; ring
  · field_simp; ring
  · unfold bilinear; field_simp; ring

/-- What the buffer holds after `k + 1` reads. -/
def lineAt : List (List Char) → Nat → List Char
  | ls, 0 => (nextLine ls).1
  | ls, k + 1 => lineAt (nextLine ls).2 k

theorem lineAt_nil (k : Nat) : lineAt [] k = [] := by
  induction k with
  | zero => rfl
  | succ k ih => exact ih

theorem lineAt_short (ls : List (List Char)) : ∀ k, (∀ i, i < k → ∀ l, ls[i]? = some l → l.length < 256) → ∀ l, ls[k]? = some l →
    l.length < 256 → lineAt ls k = l := by
  induction ls with
  | nil => intro k _ l hl; simp at hl
  | cons a ls ih =>
    intro k hk l hl hlen
    cases k with
    | zero =>
      simp at hl
      subst hl
      simp only [lineAt, nextLine]
      rw [if_neg (by omega)]
    | succ k =>
      have : a.length < 256 := hk 0 (by omega) a rfl
      simp only [lineAt, nextLine]
      rw [if_neg (by omega)]
      exact ih k (fun i hi l hl => hk (i + 1) (by omega) l (by simpa using hl)) l (by simpa using hl) hlen

theorem lineAt_some (ls : List (List Char)) : ∀ k, lineAt ls k ≠ [] → ∃ l, ls[k]? = some l ∧ lineAt ls k = l.take 255 := by
  induction ls with
  | nil => intro k h; exact absurd (lineAt_nil k) h
  | cons a ls ih =>
    intro k h
    cases k with
    | zero =>
      simp only [lineAt, nextLine]
      split_ifs with hl
      · exact ⟨a, rfl, rfl⟩
      · exact ⟨a, rfl, by rw [List.take_of_length_le (by omega)]⟩
    | succ k =>
      simp only [lineAt, nextLine] at h ⊢
      split_ifs at h ⊢ with hl
      · exact absurd (lineAt_nil k) h
      · simpa using ih k h

/-- The stream after `k` reads. -/
def restAt : List (List Char) → Nat → List (List Char)
  | ls, 0 => (nextLine ls).2
  | ls, k + 1 => restAt (nextLine ls).2 k

theorem lineAt_restAt (ls : List (List Char)) : ∀ a b, lineAt (restAt ls a) b = lineAt ls (a + 1 + b) ∧ restAt (restAt ls a) b = restAt ls (a + 1 + b) := by
  intro a
  induction a generalizing ls with
  | zero => intro b; rw [show 0 + 1 + b = b + 1 from by omega]; exact ⟨rfl, rfl⟩
  | succ a ih =>
    intro b
    obtain ⟨h1, h2⟩ := ih (nextLine ls).2 b
    rw [show a + 1 + 1 + b = (a + 1 + b) + 1 from by omega]
    exact ⟨h1, h2⟩

theorem advance_at (ls : List (List Char)) : ∀ k c, advance k (lineAt ls c) (restAt ls c) = (lineAt ls (c + k), restAt ls (c + k)) := by
  intro k
  induction k with
  | zero => intro c; rfl
  | succ k ih =>
    intro c
    unfold advance
    have e1 : (nextLine (restAt ls c)).1 = lineAt ls (c + 1) := by
      have := (lineAt_restAt ls c 0).1
      rwa [show c + 1 + 0 = c + 1 from rfl] at this
    have e2 : (nextLine (restAt ls c)).2 = restAt ls (c + 1) := by
      have := (lineAt_restAt ls c 0).2
      rwa [show c + 1 + 0 = c + 1 from rfl] at this
    rw [e1, e2, ih (c + 1), show c + 1 + k = c + (k + 1) from by omega]

theorem parseLine_ok {i : Int} {l : List Char} {x y : ℚ} {c : SiteCoeffs ℚ} (h : LineIs l [x, y, c.rR, c.rI, c.nR, c.nI, c.eR, c.eI]) :
    parseLine i l = some ⟨i, x, y, c⟩ := by
  unfold parseLine
  rw [readFields_ok _ _ _ (by simp) h]
  rfl

theorem parseLine_sound {i : Int} {l : List Char} {r : Rec} (h : parseLine i l = some r) :
    r.index = i ∧ LineHas l [r.lon, r.lat, r.c.rR, r.c.rI, r.c.nR, r.c.nI, r.c.eR, r.c.eI] := by
  unfold parseLine at h
  cases hr : readFields (List.replicate 8 0) l with
  | mk vs e =>
    rw [hr] at h
    split at h
    · rename_i a b c d e' f g hh heq
      cases heq
      cases h
      exact ⟨rfl, (readFields_sound _ _ _ hr).1⟩
    · cases h

/-- Every record comes from the line with its number. -/
theorem readRecs_sound (ls : List (List Char)) : ∀ (is : List Int) (c : Nat) (recs : List Rec),
    readRecs is (lineAt ls c) c (restAt ls c) = some recs →
    ∀ r ∈ recs, 0 ≤ r.index ∧ LineHas (lineAt ls r.index.toNat) [r.lon, r.lat, r.c.rR, r.c.rI, r.c.nR, r.c.nI, r.c.eR, r.c.eI] := by
  intro is
  induction is with
  | nil => intro c recs h r hr; cases h; simp at hr
  | cons i is ih =>
    intro c recs h r hr
    unfold readRecs at h
    simp only [advance_at] at h
    cases hp : parseLine (c + (i - c).toNat) (lineAt ls (c + (i - c).toNat)) with
    | none => rw [hp] at h; cases h
    | some r0 =>
      rw [hp] at h
      simp only at h
      have e : (c : Int) + ((i - c).toNat : Int) = ((c + (i - c).toNat : Nat) : Int) := by push_cast; rfl
      rw [e] at h hp
      cases hq : readRecs is (lineAt ls (c + (i - c).toNat)) ((c + (i - c).toNat : Nat) : Int) (restAt ls (c + (i - c).toNat)) with
      | none => rw [hq] at h; cases h
      | some recs' =>
        rw [hq] at h
        simp only [Option.map_some, Option.some.injEq] at h
        subst h
        rcases List.mem_cons.mp hr with rfl | hr
        · obtain ⟨p1, p2⟩ := parseLine_sound hp
          rw [p1, Int.toNat_natCast]
          exact ⟨by omega, p2⟩
        · exact ih _ recs' hq r hr

/-- With increasing numbers of lines that can be read, the records are these lines. -/
theorem readRecs_ok (ls : List (List Char)) (R : Nat → Rec) : ∀ (is : List Int) (c : Nat),
    is.Pairwise (· ≤ ·) → (∀ i ∈ is, (c : Int) ≤ i ∧ ∃ k : Nat, i = k ∧ ∀ ix, parseLine ix (lineAt ls k) = some { R k with index := ix }) →
    ∃ recs, readRecs is (lineAt ls c) c (restAt ls c) = some recs ∧ recs.map (·.index) = is ∧
      ∀ r ∈ recs, r = { R r.index.toNat with index := r.index } := by
  intro is
  induction is with
  | nil => intro c _ _; exact ⟨[], rfl, rfl, by simp⟩
  | cons i is ih =>
    intro c hs h
    obtain ⟨hc, k, rfl, hk⟩ := h i (by simp)
    have e : ((k : Int) - c).toNat = k - c := by omega
    have e' : c + (k - c) = k := by omega
    have e'' : (c : Int) + ((k - c : Nat) : Int) = (k : Int) := by omega
    obtain ⟨recs, h1, h2, h3⟩ := ih k hs.of_cons (fun i hi => ⟨List.rel_of_pairwise_cons hs hi, (h i (by simp [hi])).2⟩)
    refine ⟨{ R k with index := k } :: recs, ?_, by simp [h2], ?_⟩
    · unfold readRecs
      simp only [advance_at]
      rw [e, e', e'', hk]
      simp only [h1, Option.map_some]
    · intro r hr
      rcases List.mem_cons.mp hr with rfl | hr
      · simp
      · exact h3 r hr

theorem lowerBound_ok (recs : List Rec) (i : Int) (hs : (recs.map (·.index)).Pairwise (· ≤ ·)) (hi : i ∈ recs.map (·.index)) :
    ∃ r ∈ recs, lowerBound recs i = some r ∧ r.index = i := by
  induction recs with
  | nil => simp at hi
  | cons a recs ih =>
    rw [List.map_cons] at hs hi
    unfold lowerBound
    rw [List.find?_cons]
    by_cases ha : a.index < i
    · simp only [ha, decide_true, Bool.not_true]
      have : i ∈ recs.map (·.index) := by
        rcases List.mem_cons.mp hi with rfl | h
        · omega
        · exact h
      obtain ⟨r, h1, h2, h3⟩ := ih hs.of_cons this
      exact ⟨r, by simp [h1], h2, h3⟩
    · simp only [ha, decide_false, Bool.not_false]
      refine ⟨a, by simp, rfl, ?_⟩
      rcases List.mem_cons.mp hi with h | h
      · exact h.symm
      · have := List.rel_of_pairwise_cons hs h
        omega

theorem mem_indexes (nodes : List Corners) (i : Int) : i ∈ indexes nodes ↔ ∃ n ∈ nodes, i = n.bl ∨ i = n.br ∨ i = n.tl ∨ i = n.tr := by
  unfold indexes
  rw [List.mem_mergeSort]
  simp

theorem sorted_indexes (nodes : List Corners) : (indexes nodes).Pairwise (· ≤ ·) := by
  have := List.pairwise_mergeSort (le := fun a b : Int => decide (a ≤ b)) (by intro a b c; simp; omega) (by intro a b; simp; omega)
    (nodes.flatMap fun n => [n.bl, n.br, n.tl, n.tr])
  simpa [indexes] using this

theorem afterEq_ok {pad rest : List Char} (h : '=' ∉ pad) : afterEq (pad ++ '=' :: rest) = .ok (skipWs rest) := by
  have := (takeWhile_run (p := fun c : Char => decide (c ≠ '=')) (a := pad) (b := '=' :: rest)
    (by intro c hc; simp; rintro rfl; exact h hc) (by simp)).2
  unfold afterEq
  simp only [ne_eq] at this ⊢
  rw [this]

theorem headerNum_ok {α : Type} {read : List Char → Option (α × List Char)} {key : String} (hk : '=' ∉ key.toList) {value : List Char → Prop}
    {l : List Char} {v : α} (h : KeyLine key value l) (hv : ∀ s, value s → ∃ rest, read (skipWs s) = some (v, rest)) :
    headerNum read key l = .ok (some v) := by
  obtain ⟨pad, rest, rfl, hp, hr⟩ := h
  obtain ⟨rest', hr⟩ := hv _ hr
  unfold headerNum
  rw [if_neg (by simp), ← List.append_assoc, afterEq_ok (by simp [hk, hp])]
  simp [Res.bind, hr]

theorem nextLine_short {l : List Char} {ls : List (List Char)} (h : l.length < 256) : nextLine (l :: ls) = (l, ls) := by
  simp only [nextLine]
  rw [if_neg (by omega)]

theorem header_ok {g : G} {hs : List (List Char)} (h : HeaderIs g hs) (data : List (List Char)) :
    header (hs ++ data) = .ok (some (g, data)) := by
  obtain ⟨hlen, c1, c2, c3, xn, xf, xl, xs, yn, yf, yl, ys, t1, t2, t3, rfl, h1, h2, ⟨v3, h3⟩, h4, h5, h6, ⟨v7, h7⟩, h8, h9, h10⟩ := h
  have hI : ∀ (v : Int) s, IntVal v s → ∃ rest, fromCharsInt (skipWs s) = some (v, rest) := fun v s ⟨r, hr⟩ => ⟨r, fromCharsInt_text hr⟩
  have hN : ∀ (v : ℚ) s, NumVal v s → ∃ rest, fromCharsDouble (skipWs s) = some (v, rest) := fun v s ⟨r, hr, he⟩ => ⟨r, fromCharsDouble_begins hr he⟩
  simp only [List.cons_append, List.nil_append]
  unfold header
  simp only [nextLine_short (hlen c1 (by simp)), nextLine_short (hlen c2 (by simp)), nextLine_short (hlen c3 (by simp)),
    nextLine_short (hlen xn (by simp)), nextLine_short (hlen xf (by simp)), nextLine_short (hlen xl (by simp)), nextLine_short (hlen xs (by simp)),
    nextLine_short (hlen yn (by simp)), nextLine_short (hlen yf (by simp)), nextLine_short (hlen yl (by simp)), nextLine_short (hlen ys (by simp)),
    nextLine_short (hlen t1 (by simp)), nextLine_short (hlen t2 (by simp)), nextLine_short (hlen t3 (by simp))]
  rw [headerNum_ok (by decide) h1 (hI _)]
  simp only [Res.bind]
  rw [headerNum_ok (by decide) h2 (hN _)]
  simp only
  rw [headerNum_ok (by decide) h3 (hN _)]
  simp only
  rw [headerNum_ok (by decide) h4 (hN _)]
  simp only
  rw [headerNum_ok (by decide) h5 (hI _)]
  simp only
  rw [headerNum_ok (by decide) h6 (hN _)]
  simp only
  rw [headerNum_ok (by decide) h7 (hN _)]
  simp only
  rw [headerNum_ok (by decide) h8 (hN _)]
  simp only
  rw [if_neg (by rw [List.isPrefixOf_iff_prefix.mpr h9]; decide), if_neg (by rw [List.isPrefixOf_iff_prefix.mpr h10]; decide)]

/-- The loop over the sites, if every site can be interpolated. -/
theorem sites_ok (recs : List Rec) (g : G) (P : ℚ × ℚ → SiteCoeffs ℚ → Prop) (sta : List (ℚ × ℚ))
    (h : ∀ s ∈ sta, ∃ c, site recs (g.surrounding .Y (s.1 + 180) s.2) s.1 s.2 = .ok (some c) ∧ P s c) :
    ∃ cs, sites recs g sta = .ok (0, cs) ∧ List.Forall₂ P sta cs := by
  induction sta with
  | nil => exact ⟨[], rfl, .nil⟩
  | cons s sta ih =>
    obtain ⟨c, h1, h2⟩ := h s (by simp)
    obtain ⟨cs, h3, h4⟩ := ih (fun s hs => h s (by simp [hs]))
    refine ⟨c :: cs, ?_, .cons h2 h4⟩
    obtain ⟨lon, lat⟩ := s
    unfold sites
    rw [h1]
    simp only [Res.bind, h3]

/-- The value of a site from its four records. -/
theorem site_ok (recs : List Rec) (hs : (recs.map (·.index)).Pairwise (· ≤ ·)) (n : Corners) (bl br tl tr : Rec)
    (hin : n.bl ∈ recs.map (·.index) ∧ n.br ∈ recs.map (·.index) ∧ n.tl ∈ recs.map (·.index) ∧ n.tr ∈ recs.map (·.index))
    (hv : ∀ r ∈ recs, (r.index = n.bl → r = bl) ∧ (r.index = n.br → r = br) ∧ (r.index = n.tl → r = tl) ∧ (r.index = n.tr → r = tr))
    (hi : bl.index = n.bl ∧ br.index = n.br ∧ tl.index = n.tl ∧ tr.index = n.tr)
    (hg : bl.lon = tl.lon ∧ br.lon = tr.lon ∧ bl.lat = br.lat ∧ tl.lat = tr.lat) (lon lat : ℚ) (hp : bl.lon ≤ lon + 180 ∧ bl.lat ≤ lat)
    (hne : bl.lon ≠ br.lon ∧ bl.lat ≠ tl.lat) :
    ∃ c, site recs n lon lat = .ok (some c) ∧ ∀ f ∈ Comp, Interpolates bl.lon br.lon bl.lat tl.lat (f bl.c) (f br.c) (f tl.c) (f tr.c) (lon + 180) lat (f c) := by
  obtain ⟨i1, i2, i3, i4⟩ := hin
  obtain ⟨r1, m1, l1, e1⟩ := lowerBound_ok recs _ hs i1
  obtain ⟨r2, m2, l2, e2⟩ := lowerBound_ok recs _ hs i2
  obtain ⟨r3, m3, l3, e3⟩ := lowerBound_ok recs _ hs i3
  obtain ⟨r4, m4, l4, e4⟩ := lowerBound_ok recs _ hs i4
  have q1 := (hv r1 m1).1 e1
  have q2 := (hv r2 m2).2.1 e2
  have q3 := (hv r3 m3).2.2.1 e3
  have q4 := (hv r4 m4).2.2.2 e4
  subst q1 q2 q3 q4
  unfold site
  simp only [l1, l2, l3, l4]
  rw [if_neg (by simp [e1, e2, e3, e4]), if_neg (by simp only [hg, not_true_eq_false, and_self, not_false_eq_true]), if_neg (by simp only [hp, not_true_eq_false, and_self, not_false_eq_true])]
  refine ⟨_, rfl, ?_⟩
  intro f hf
  have key := fun (u : SiteCoeffs ℚ → ℚ) => bilinear_ok r1.lon r2.lon r1.lat r3.lat (lon + 180) lat (u r1.c) (u r2.c) (u r3.c) (u r4.c) hne.1 hne.2
  simp only [Comp, List.mem_cons, List.not_mem_nil, or_false] at hf
  rcases hf with rfl | rfl | rfl | rfl | rfl | rfl
  · exact key (·.rR)
  · exact key (·.rI)
  · exact key (·.nR)
  · exact key (·.nI)
  · exact key (·.eR)
  · exact key (·.eI)

/-- The record of the node on line `k`. -/
def nodeRec (g : G) (v : Int → Int → SiteCoeffs ℚ) (k : Nat) : Rec :=
  ⟨k, (g.pos ((k : Int) % g.xpts) ((k : Int) / g.xpts)).1, (g.pos ((k : Int) % g.xpts) ((k : Int) / g.xpts)).2,
    v ((k : Int) % g.xpts) ((k : Int) / g.xpts)⟩

theorem line_nat {g : G} {i j : Int} (h : g.IsNode i j) : ((j * g.xpts + i).toNat : Int) = j * g.xpts + i ∧
    (j * g.xpts + i) % g.xpts = i ∧ (j * g.xpts + i) / g.xpts = j := by
  obtain ⟨h1, h2, h3, h4⟩ := h
  have hx : 0 < g.xpts := by omega
  have : 0 ≤ j * g.xpts := Int.mul_nonneg h3 hx.le
  refine ⟨by omega, ?_, ?_⟩
  · rw [add_comm, Int.add_mul_emod_self_right, Int.emod_eq_of_lt h1 h2]
  · rw [add_comm, Int.add_mul_ediv_right _ _ (by omega), Int.ediv_eq_zero_of_lt h1 h2]; omega

theorem nodeRec_line {g : G} (v : Int → Int → SiteCoeffs ℚ) {i j : Int} (h : g.IsNode i j) :
    nodeRec g v (j * g.xpts + i).toNat = ⟨j * g.xpts + i, (g.pos i j).1, (g.pos i j).2, v i j⟩ := by
  obtain ⟨h1, h2, h3⟩ := line_nat h
  unfold nodeRec
  rw [h1, h2, h3]

theorem data_line {g : G} {v : Int → Int → SiteCoeffs ℚ} {data : List (List Char)} (hd : DataIs g v data) {i j : Int} (h : g.IsNode i j)
    (ix : Int) : parseLine ix (lineAt data (j * g.xpts + i).toNat) = some { nodeRec g v (j * g.xpts + i).toNat with index := ix } := by
  rw [nodeRec_line v h]
  obtain ⟨l, hl, hlen, his⟩ := hd i j h
  rw [lineAt_short data _ ?_ l hl hlen]
  · exact parseLine_ok his
  · intro k hk l' hl'
    obtain ⟨e1, e2, e3⟩ := line_nat h
    obtain ⟨h1, h2, h3, h4⟩ := h
    have hx : 0 < g.xpts := by omega
    have hk' : (k : Int) < j * g.xpts + i := by omega
    have hq : (k : Int) / g.xpts ≤ j := by
      have := Int.ediv_le_ediv hx hk'.le
      rwa [e3] at this
    have hn : g.IsNode ((k : Int) % g.xpts) ((k : Int) / g.xpts) :=
      ⟨Int.emod_nonneg _ (by omega), Int.emod_lt_of_pos _ hx, Int.ediv_nonneg (by omega) hx.le, by omega⟩
    obtain ⟨l'', hl'', hlen'', _⟩ := hd _ _ hn
    rw [show (k : Int) / g.xpts * g.xpts + (k : Int) % g.xpts = k from by rw [mul_comm]; exact Int.mul_ediv_add_emod _ _, Int.toNat_natCast] at hl''
    rw [hl''] at hl'
    cases hl'
    exact hlen''

theorem cell_unique {g : G} (hg : g.Ok) {i j i' j' : Int} {x y : ℚ} (h : g.InCell i j x y) (h' : g.InCell i' j' x y) : i = i' ∧ j = j' := by
  obtain ⟨_, _, hx, hy⟩ := hg
  obtain ⟨a1, a2, a3, a4⟩ := h
  obtain ⟨b1, b2, b3, b4⟩ := h'
  simp only [G.pos] at a1 a2 a3 a4 b1 b2 b3 b4
  push_cast at a2 a4 b2 b4
  exact ⟨((floor_cell hx).mpr ⟨a1, a2⟩).symm.trans ((floor_cell hx).mpr ⟨b1, b2⟩), ((floor_cell hy).mpr ⟨a3, a4⟩).symm.trans ((floor_cell hy).mpr ⟨b3, b4⟩)⟩

/-- C48, for sites whose cell (after a shift of the longitude by 180°) has its four corners in the grid: the six coefficients of every
site are the bilinear interpolations of the gridded ones, in the order of the sites. Missing: the longitude is shifted, not wrapped, so this is
the point opposite the site (`desai_longitude_fails`), and the cells across the seam (`desai_seam_fails`). -/
theorem desai_grid_partial {g : G} (hg : g.Ok) {hs data : List (List Char)} (hh : HeaderIs g hs) {v : Int → Int → SiteCoeffs ℚ}
    (hd : DataIs g v data) (sta : List (ℚ × ℚ))
    (hsta : ∀ s ∈ sta, ∃ i j, g.IsNode i j ∧ g.IsNode (i + 1) (j + 1) ∧ g.InCell i j (s.1 + 180) s.2) :
    ∃ cs, coeffs (some (hs ++ data)) sta = .ok (0, cs) ∧
      List.Forall₂ (fun s c => ∀ i j, g.InCell i j (s.1 + 180) s.2 → At g v i j (s.1 + 180) s.2 c) sta cs := by
  have corner : ∀ {i j}, g.IsNode i j → g.IsNode (i + 1) (j + 1) → g.IsNode (i + 1) j ∧ g.IsNode i (j + 1) :=
    fun ⟨a1, a2, a3, a4⟩ ⟨b1, b2, b3, b4⟩ => ⟨⟨b1, b2, a3, a4⟩, ⟨a1, a2, b3, b4⟩⟩
  have nodeOf : ∀ k ∈ indexes (sta.map fun s => g.surrounding .Y (s.1 + 180) s.2), ∃ i j, g.IsNode i j ∧ k = j * g.xpts + i := by
    intro k hk
    obtain ⟨n, hn, hk⟩ := (mem_indexes _ _).mp hk
    obtain ⟨s, hs, rfl⟩ := List.mem_map.mp hn
    obtain ⟨i, j, n1, n2, hc⟩ := hsta s hs
    obtain ⟨n3, n4⟩ := corner n1 n2
    rw [surrounding_partial hg n1 n2 hc] at hk
    simp only [G.lineOf] at hk
    rcases hk with rfl | rfl | rfl | rfl
    · exact ⟨i, j, n1, rfl⟩
    · exact ⟨i + 1, j, n3, rfl⟩
    · exact ⟨i, j + 1, n4, rfl⟩
    · exact ⟨i + 1, j + 1, n2, rfl⟩
  obtain ⟨recs, hr1, hr2, hr3⟩ := readRecs_ok data (nodeRec g v) _ 0 (sorted_indexes (sta.map fun s => g.surrounding .Y (s.1 + 180) s.2)) (by
    intro k hk
    obtain ⟨i, j, hn, rfl⟩ := nodeOf k hk
    have := (line_nat hn).1
    exact ⟨by omega, _, this.symm, data_line hd hn⟩)
  have hsort : (recs.map (·.index)).Pairwise (· ≤ ·) := by rw [hr2]; exact sorted_indexes _
  obtain ⟨cs, h1, h2⟩ := sites_ok recs g (fun s c => ∀ i j, g.InCell i j (s.1 + 180) s.2 → At g v i j (s.1 + 180) s.2 c) sta (by
    intro s hs
    obtain ⟨i, j, n1, n2, hc⟩ := hsta s hs
    obtain ⟨n3, n4⟩ := corner n1 n2
    have hsur := surrounding_partial hg n1 n2 hc
    have hmem : ∀ k, (k = j * g.xpts + i ∨ k = j * g.xpts + (i + 1) ∨ k = (j + 1) * g.xpts + i ∨ k = (j + 1) * g.xpts + (i + 1)) →
        k ∈ recs.map (·.index) := by
      intro k hk
      rw [hr2, mem_indexes]
      exact ⟨_, List.mem_map.mpr ⟨s, hs, rfl⟩, by rw [hsur]; exact hk⟩
    have hrec : ∀ {i j}, g.IsNode i j → ∀ r ∈ recs, r.index = j * g.xpts + i → r = ⟨j * g.xpts + i, (g.pos i j).1, (g.pos i j).2, v i j⟩ := by
      intro i j hn r hr hi
      have := hr3 r hr
      rw [hi, nodeRec_line v hn] at this
      exact this
    obtain ⟨c, hc1, hc2⟩ := site_ok recs hsort (g.surrounding .Y (s.1 + 180) s.2)
      ⟨j * g.xpts + i, (g.pos i j).1, (g.pos i j).2, v i j⟩
      ⟨j * g.xpts + (i + 1), (g.pos (i + 1) j).1, (g.pos (i + 1) j).2, v (i + 1) j⟩
      ⟨(j + 1) * g.xpts + i, (g.pos i (j + 1)).1, (g.pos i (j + 1)).2, v i (j + 1)⟩
      ⟨(j + 1) * g.xpts + (i + 1), (g.pos (i + 1) (j + 1)).1, (g.pos (i + 1) (j + 1)).2, v (i + 1) (j + 1)⟩
      (by rw [hsur]; exact ⟨hmem _ (.inl rfl), hmem _ (.inr (.inl rfl)), hmem _ (.inr (.inr (.inl rfl))), hmem _ (.inr (.inr (.inr rfl)))⟩)
      (by rw [hsur]; exact fun r hr => ⟨hrec n1 r hr, hrec n3 r hr, hrec n4 r hr, hrec n2 r hr⟩)
      (by rw [hsur]; exact ⟨rfl, rfl, rfl, rfl⟩)
      ⟨rfl, rfl, rfl, rfl⟩ s.1 s.2 ⟨hc.1, hc.2.2.1⟩
      (by
        obtain ⟨_, _, hx, hy⟩ := hg
        simp only [G.pos]
        push_cast
        exact ⟨by intro h; linarith, by intro h; linarith⟩)
    refine ⟨c, hc1, ?_⟩
    intro i' j' hc'
    obtain ⟨rfl, rfl⟩ := cell_unique hg hc hc'
    exact hc2)
  refine ⟨cs, ?_, h2⟩
  unfold coeffs
  simp only
  rw [header_ok hh data]
  simp only [Res.bind]
  have hr1' : readRecs (indexes (sta.map fun s => g.surrounding .Y (s.1 + 180) s.2)) (nextLine data).1 0 (nextLine data).2 = some recs := hr1
  rw [hr1']
  exact h1

/-- The value of a site comes from four records. -/
theorem site_sound {recs : List Rec} {n : Corners} {lon lat : ℚ} {c : SiteCoeffs ℚ} (h : site recs n lon lat = .ok (some c)) :
    ∃ bl ∈ recs, ∃ br ∈ recs, ∃ tl ∈ recs, ∃ tr ∈ recs, bl.index = n.bl ∧ br.index = n.br ∧ tl.index = n.tl ∧ tr.index = n.tr ∧
      bl.lon = tl.lon ∧ br.lon = tr.lon ∧ bl.lat = br.lat ∧ tl.lat = tr.lat ∧ bl.lon ≤ lon + 180 ∧ bl.lat ≤ lat ∧
      (bl.lon ≠ br.lon → bl.lat ≠ tl.lat → ∀ f ∈ Comp, Interpolates bl.lon br.lon bl.lat tl.lat (f bl.c) (f br.c) (f tl.c) (f tr.c) (lon + 180) lat (f c)) := by
  unfold site at h
  split at h
  · rename_i bl br tl tr h1 h2 h3 h4
    have m := fun {i r} (h : lowerBound recs i = some r) => List.mem_of_find?_eq_some h
    by_cases hi : n.bl ≠ bl.index ∨ n.br ≠ br.index ∨ n.tl ≠ tl.index ∨ n.tr ≠ tr.index
    · rw [if_pos hi] at h; cases h
    rw [if_neg hi] at h
    simp only at h
    by_cases hg : bl.lon = tl.lon ∧ br.lon = tr.lon ∧ bl.lat = br.lat ∧ tl.lat = tr.lat
    swap
    · rw [if_pos hg] at h; cases h
    rw [if_neg (not_not.mpr hg)] at h
    by_cases hp : bl.lon ≤ lon + 180 ∧ bl.lat ≤ lat
    swap
    · rw [if_pos hp] at h; cases h
    rw [if_neg (not_not.mpr hp)] at h
    simp only [Res.ok.injEq, Option.some.injEq] at h
    subst h
    simp only [ne_eq, not_or, not_not] at hi
    refine ⟨bl, m h1, br, m h2, tl, m h3, tr, m h4, hi.1.symm, hi.2.1.symm, hi.2.2.1.symm, hi.2.2.2.symm, hg.1, hg.2.1, hg.2.2.1, hg.2.2.2, hp.1, hp.2, ?_⟩
    intro x1 x2 f hf
    have key := fun (u : SiteCoeffs ℚ → ℚ) => bilinear_ok bl.lon br.lon bl.lat tl.lat (lon + 180) lat (u bl.c) (u br.c) (u tl.c) (u tr.c) x1 x2
    simp only [Comp, List.mem_cons, List.not_mem_nil, or_false] at hf
    rcases hf with rfl | rfl | rfl | rfl | rfl | rfl
    · exact key (·.rR)
    · exact key (·.rI)
    · exact key (·.nR)
    · exact key (·.nI)
    · exact key (·.eR)
    · exact key (·.eI)
  · cases h

/-- The data line with number `k` (from 0) holds the record `r`; of a line of 256 characters or more only 255 are read. -/
def Holds (data : List (List Char)) (k : Int) (r : Rec) : Prop :=
  0 ≤ k ∧ ∃ l, data[k.toNat]? = some l ∧ LineHas (l.take 255) [r.lon, r.lat, r.c.rR, r.c.rI, r.c.nR, r.c.nI, r.c.eR, r.c.eI]

theorem lineHas_ne {l : List Char} {v : ℚ} {vs : List ℚ} (h : LineHas l (v :: vs)) : l ≠ [] := by
  obtain ⟨n, d, rest, hd, _, rfl, _⟩ := h
  have := (text_head d hd rest).2
  simp [this]

/-- C48, whatever the file holds: if success is reported, there is one result for each site, and it is interpolated from four data lines: those
with the numbers of the nodes around the site (shifted by 180°), which form a rectangle. -/
theorem grid_sound_partial {ls : List (List Char)} {sta : List (ℚ × ℚ)} {cs : List (SiteCoeffs ℚ)} (h : coeffs (some ls) sta = .ok (0, cs)) :
    ∃ g data, header ls = .ok (some (g, data)) ∧ List.Forall₂ (fun s c => ∃ bl br tl tr : Rec,
      let n := g.surrounding .Y (s.1 + 180) s.2
      Holds data n.bl bl ∧ Holds data n.br br ∧ Holds data n.tl tl ∧ Holds data n.tr tr ∧
      bl.lon = tl.lon ∧ br.lon = tr.lon ∧ bl.lat = br.lat ∧ tl.lat = tr.lat ∧ bl.lon ≤ s.1 + 180 ∧ bl.lat ≤ s.2 ∧
      (bl.lon ≠ br.lon → bl.lat ≠ tl.lat → ∀ f ∈ Comp,
        Interpolates bl.lon br.lon bl.lat tl.lat (f bl.c) (f br.c) (f tl.c) (f tr.c) (s.1 + 180) s.2 (f c))) sta cs := by
  unfold coeffs at h
  simp only at h
  cases hh : header ls with
  | ok o =>
    rw [hh] at h
    cases o with
    | none => cases h
    | some p =>
      obtain ⟨g, data⟩ := p
      refine ⟨g, data, rfl, ?_⟩
      simp only [Res.bind] at h
      cases hr : readRecs (indexes (sta.map fun s => g.surrounding .Y (s.1 + 180) s.2)) (nextLine data).1 0 (nextLine data).2 with
      | none => rw [hr] at h; cases h
      | some recs =>
        rw [hr] at h
        simp only at h
        have hsnd := readRecs_sound data _ 0 recs hr
        have hold : ∀ r ∈ recs, Holds data r.index r := by
          intro r hr
          obtain ⟨h1, h2⟩ := hsnd r hr
          obtain ⟨l, h3, h4⟩ := lineAt_some data _ (lineHas_ne h2)
          exact ⟨h1, l, h3, h4 ▸ h2⟩
        clear hr hsnd
        induction sta generalizing cs with
        | nil => simp only [sites, Res.ok.injEq, Prod.mk.injEq] at h; rw [← h.2]; exact .nil
        | cons s sta ih =>
          obtain ⟨lon, lat⟩ := s
          unfold sites at h
          cases hsite : site recs (g.surrounding .Y (lon + 180) lat) lon lat with
          | ok o =>
            rw [hsite] at h
            cases o with
            | none => simp [Res.bind] at h
            | some c =>
              simp only [Res.bind] at h
              cases hs' : sites recs g sta with
              | ok p =>
                rw [hs'] at h
                obtain ⟨st, cs'⟩ := p
                simp only [Res.ok.injEq, Prod.mk.injEq] at h
                obtain ⟨rfl, rfl⟩ := h
                refine .cons ?_ (ih hs')
                obtain ⟨bl, b1, br, b2, tl, b3, tr, b4, e1, e2, e3, e4, rest⟩ := site_sound hsite
                exact ⟨bl, br, tl, tr, e1 ▸ hold bl b1, e2 ▸ hold br b2, e3 ▸ hold tl b3, e4 ▸ hold tr b4, rest⟩
              | ub => rw [hs'] at h; cases h
              | abort => rw [hs'] at h; cases h
              | throw => rw [hs'] at h; cases h
          | ub => rw [hsite] at h; cases h
          | abort => rw [hsite] at h; cases h
          | throw => rw [hsite] at h; cases h
  | ub => rw [hh] at h; cases h
  | abort => rw [hh] at h; cases h
  | throw => rw [hh] at h; cases h

/-! ### A file -/

/-- Four longitudes, two latitudes. -/
def exGrid : G := ⟨4, 2, 45, 90, -45, 90⟩

/-- The radial coefficients are longitude and latitude. -/
def exVals (i j : Int) : SiteCoeffs ℚ := ⟨(exGrid.pos i j).1, (exGrid.pos i j).2, 0, 0, 0, 0⟩

def exHeader : List (List Char) :=
  ["Ocean pole load tide".toList, [], [], "Number_longitude_Grid_Points = 4".toList, "First_longitude_degrees = 45".toList,
   "Last_longitude_degrees = 315".toList, "Longitude_step_degrees = 90".toList, "Number_latitude_grid_points = 2".toList,
   "First_latitude_degrees = -45".toList, "Last_latitude_degrees = 45".toList, "Latitude_step_degrees = 90".toList,
   "Longitude   Latitude   u_r^R       u_r^I       u_n^R       u_n^I       u_e^R       u_e^I".toList,
   "(degrees)  (degrees)  (        )  (        )  (        )  (        )  (        )  (        )".toList, "---".toList]

def exData : List (List Char) :=
  [" 45 -45 45 -45 0 0 0 0".toList, " 135 -45 135 -45 0 0 0 0".toList, " 225 -45 225 -45 0 0 0 0".toList, " 315 -45 315 -45 0 0 0 0".toList,
   " 45 45 45 45 0 0 0 0".toList, " 135 45 135 45 0 0 0 0".toList, " 225 45 225 45 0 0 0 0".toList, " 315 45 315 45 0 0 0 0".toList]

theorem exGrid_ok : exGrid.Ok := by refine ⟨?_, ?_, ?_, ?_⟩ <;> norm_num [exGrid]

theorem exHeader_is : HeaderIs exGrid exHeader := by
  refine ⟨by decide, _, _, _, _, _, _, _, _, _, _, _, _, _, _, rfl, ?_, ?_, ⟨315, ?_⟩, ?_, ?_, ?_, ⟨45, ?_⟩, ?_, ?_, ?_⟩
  · exact ⟨" ".toList, " 4".toList, by decide, by decide, [], 1, ⟨false, ['4']⟩, ⟨by decide, by decide⟩, rfl, by decide, by decide, by decide, by decide⟩
  · exact ⟨" ".toList, " 45".toList, by decide, by decide, [], ⟨1, ⟨false, ['4', '5'], none, none⟩, Dec.ok_of (by decide), by decide +kernel, by decide⟩, by unfold Ends; decide⟩
  · exact ⟨" ".toList, " 315".toList, by decide, by decide, [], ⟨1, ⟨false, ['3', '1', '5'], none, none⟩, Dec.ok_of (by decide), by decide +kernel, by decide⟩, by unfold Ends; decide⟩
  · exact ⟨" ".toList, " 90".toList, by decide, by decide, [], ⟨1, ⟨false, ['9', '0'], none, none⟩, Dec.ok_of (by decide), by decide +kernel, by decide⟩, by unfold Ends; decide⟩
  · exact ⟨" ".toList, " 2".toList, by decide, by decide, [], 1, ⟨false, ['2']⟩, ⟨by decide, by decide⟩, rfl, by decide, by decide, by decide, by decide⟩
  · exact ⟨" ".toList, " -45".toList, by decide, by decide, [], ⟨1, ⟨true, ['4', '5'], none, none⟩, Dec.ok_of (by decide), by decide +kernel, by decide⟩, by unfold Ends; decide⟩
  · exact ⟨" ".toList, " 45".toList, by decide, by decide, [], ⟨1, ⟨false, ['4', '5'], none, none⟩, Dec.ok_of (by decide), by decide +kernel, by decide⟩, by unfold Ends; decide⟩
  · exact ⟨" ".toList, " 90".toList, by decide, by decide, [], ⟨1, ⟨false, ['9', '0'], none, none⟩, Dec.ok_of (by decide), by decide +kernel, by decide⟩, by unfold Ends; decide⟩
  · exact ⟨[], by decide⟩
  · exact ⟨[], by decide⟩

theorem exData_is : DataIs exGrid exVals exData := by
  rintro i j ⟨h1, h2, h3, h4⟩
  simp only [exGrid] at h2 h4
  interval_cases j <;> interval_cases i
  · exact ⟨_, rfl, by decide, lineOf_vals (ds := [⟨false, ['4', '5'], none, none⟩, ⟨true, ['4', '5'], none, none⟩, ⟨false, ['4', '5'], none, none⟩, ⟨true, ['4', '5'], none, none⟩, ⟨false, ['0'], none, none⟩, ⟨false, ['0'], none, none⟩, ⟨false, ['0'], none, none⟩, ⟨false, ['0'], none, none⟩]) (by decide) (by decide) (by simp only [exGrid, exVals, G.pos]; decide +kernel)⟩
  · exact ⟨_, rfl, by decide, lineOf_vals (ds := [⟨false, ['1', '3', '5'], none, none⟩, ⟨true, ['4', '5'], none, none⟩, ⟨false, ['1', '3', '5'], none, none⟩, ⟨true, ['4', '5'], none, none⟩, ⟨false, ['0'], none, none⟩, ⟨false, ['0'], none, none⟩, ⟨false, ['0'], none, none⟩, ⟨false, ['0'], none, none⟩]) (by decide) (by decide) (by simp only [exGrid, exVals, G.pos]; decide +kernel)⟩
  · exact ⟨_, rfl, by decide, lineOf_vals (ds := [⟨false, ['2', '2', '5'], none, none⟩, ⟨true, ['4', '5'], none, none⟩, ⟨false, ['2', '2', '5'], none, none⟩, ⟨true, ['4', '5'], none, none⟩, ⟨false, ['0'], none, none⟩, ⟨false, ['0'], none, none⟩, ⟨false, ['0'], none, none⟩, ⟨false, ['0'], none, none⟩]) (by decide) (by decide) (by simp only [exGrid, exVals, G.pos]; decide +kernel)⟩
  · exact ⟨_, rfl, by decide, lineOf_vals (ds := [⟨false, ['3', '1', '5'], none, none⟩, ⟨true, ['4', '5'], none, none⟩, ⟨false, ['3', '1', '5'], none, none⟩, ⟨true, ['4', '5'], none, none⟩, ⟨false, ['0'], none, none⟩, ⟨false, ['0'], none, none⟩, ⟨false, ['0'], none, none⟩, ⟨false, ['0'], none, none⟩]) (by decide) (by decide) (by simp only [exGrid, exVals, G.pos]; decide +kernel)⟩
  · exact ⟨_, rfl, by decide, lineOf_vals (ds := [⟨false, ['4', '5'], none, none⟩, ⟨false, ['4', '5'], none, none⟩, ⟨false, ['4', '5'], none, none⟩, ⟨false, ['4', '5'], none, none⟩, ⟨false, ['0'], none, none⟩, ⟨false, ['0'], none, none⟩, ⟨false, ['0'], none, none⟩, ⟨false, ['0'], none, none⟩]) (by decide) (by decide) (by simp only [exGrid, exVals, G.pos]; decide +kernel)⟩
  · exact ⟨_, rfl, by decide, lineOf_vals (ds := [⟨false, ['1', '3', '5'], none, none⟩, ⟨false, ['4', '5'], none, none⟩, ⟨false, ['1', '3', '5'], none, none⟩, ⟨false, ['4', '5'], none, none⟩, ⟨false, ['0'], none, none⟩, ⟨false, ['0'], none, none⟩, ⟨false, ['0'], none, none⟩, ⟨false, ['0'], none, none⟩]) (by decide) (by decide) (by simp only [exGrid, exVals, G.pos]; decide +kernel)⟩
  · exact ⟨_, rfl, by decide, lineOf_vals (ds := [⟨false, ['2', '2', '5'], none, none⟩, ⟨false, ['4', '5'], none, none⟩, ⟨false, ['2', '2', '5'], none, none⟩, ⟨false, ['4', '5'], none, none⟩, ⟨false, ['0'], none, none⟩, ⟨false, ['0'], none, none⟩, ⟨false, ['0'], none, none⟩, ⟨false, ['0'], none, none⟩]) (by decide) (by decide) (by simp only [exGrid, exVals, G.pos]; decide +kernel)⟩
  · exact ⟨_, rfl, by decide, lineOf_vals (ds := [⟨false, ['3', '1', '5'], none, none⟩, ⟨false, ['4', '5'], none, none⟩, ⟨false, ['3', '1', '5'], none, none⟩, ⟨false, ['4', '5'], none, none⟩, ⟨false, ['0'], none, none⟩, ⟨false, ['0'], none, none⟩, ⟨false, ['0'], none, none⟩, ⟨false, ['0'], none, none⟩]) (by decide) (by decide) (by simp only [exGrid, exVals, G.pos]; decide +kernel)⟩

/-- The hypotheses can be met: two sites. -/
example : ∃ cs, coeffs (some (exHeader ++ exData)) [(100, 0), (-100, 10)] = .ok (0, cs) ∧ cs.length = 2 := by
  obtain ⟨cs, h1, h2⟩ := desai_grid_partial exGrid_ok exHeader_is exData_is [(100, 0), (-100, 10)] (by
    intro s hs
    simp only [List.mem_cons, List.not_mem_nil, or_false] at hs
    rcases hs with rfl | rfl
    · exact ⟨2, 0, ⟨by decide, by decide, by decide, by decide⟩, ⟨by decide, by decide, by decide, by decide⟩, by norm_num [G.InCell, G.pos, exGrid]⟩
    · exact ⟨0, 0, ⟨by decide, by decide, by decide, by decide⟩, ⟨by decide, by decide, by decide, by decide⟩, by norm_num [G.InCell, G.pos, exGrid]⟩)
  exact ⟨cs, h1, h2.length_eq.symm⟩

/-- C48 fails: the longitude is shifted by 180° instead of being brought to 0..360°. At longitude 100°, in the cell between 45° and 135°, the file whose
first coefficient is the longitude gives 280. -/
theorem desai_longitude_fails : ∃ (g : G) (hs data : List (List Char)) (v : Int → Int → SiteCoeffs ℚ) (c : SiteCoeffs ℚ), g.Ok ∧ HeaderIs g hs ∧ DataIs g v data ∧
    g.InCell 0 0 100 0 ∧ g.IsNode 0 0 ∧ g.IsNode 1 1 ∧ coeffs (some (hs ++ data)) [(100, 0)] = .ok (0, [c]) ∧ c.rR = 280 ∧ ¬ At g v 0 0 100 0 c := by
  have hc : exGrid.InCell 2 0 (100 + 180) 0 := by norm_num [G.InCell, G.pos, exGrid]
  obtain ⟨cs, h1, h2⟩ := desai_grid_partial exGrid_ok exHeader_is exData_is [(100, 0)] (by
    intro s hs
    simp only [List.mem_cons, List.not_mem_nil, or_false] at hs
    subst hs
    exact ⟨2, 0, ⟨by decide, by decide, by decide, by decide⟩, ⟨by decide, by decide, by decide, by decide⟩, hc⟩)
  obtain _ | ⟨hcc, hr⟩ := h2
  rename_i c cs
  cases hr
  have hv : c.rR = 280 := by
    obtain ⟨a, b, p, q, e1, e2, e3, e4, e5⟩ := hcc 2 0 hc (·.rR) (by simp [Comp])
    simp only [exVals, G.pos, exGrid] at e1 e2 e3 e4 e5
    norm_num at e1 e2 e3 e4 e5
    linarith
  refine ⟨exGrid, exHeader, exData, exVals, c, exGrid_ok, exHeader_is, exData_is, by norm_num [G.InCell, G.pos, exGrid],
    ⟨by decide, by decide, by decide, by decide⟩, ⟨by decide, by decide, by decide, by decide⟩, h1, hv, ?_⟩
  intro hat
  obtain ⟨a, b, p, q, e1, e2, e3, e4, e5⟩ := hat (·.rR) (by simp [Comp])
  simp only [exVals, G.pos, exGrid] at e1 e2 e3 e4 e5
  rw [hv] at e5
  norm_num at e1 e2 e3 e4 e5
  linarith

/-- Is it an error without results? -/
def isError (r : Res (Nat × List (SiteCoeffs ℚ))) : Bool :=
  match r with
  | .ok (1, []) => true
  | _ => false

/-- The same without sorting, for line numbers that are in order. -/
theorem coeffs_one {g : G} {hs data : List (List Char)} (hh : HeaderIs g hs) (s : ℚ × ℚ) {a b c d : Int}
    (hn : g.surrounding .Y (s.1 + 180) s.2 = ⟨a, b, c, d⟩) (ho : [a, b, c, d].Pairwise (· ≤ ·)) :
    coeffs (some (hs ++ data)) [s] = match readRecs [a, b, c, d] (nextLine data).1 0 (nextLine data).2 with
      | none => .ok (1, [])
      | some recs => sites recs g [s] := by
  unfold coeffs
  simp only
  rw [header_ok hh data]
  have : indexes [⟨a, b, c, d⟩] = [a, b, c, d] := by
    unfold indexes
    exact List.mergeSort_of_pairwise (by simpa using ho)
  simp only [Res.bind, List.map_cons, List.map_nil, hn, this]
  rfl

/-- C48 fails in the cells between the last and the first longitude (here 315° to 405°): whether the shifted longitude is 350° or 20°,
there is no result, although the grid goes around the Earth. -/
theorem desai_seam_fails : ∃ (g : G) (hs data : List (List Char)) (v : Int → Int → SiteCoeffs ℚ), g.Ok ∧ HeaderIs g hs ∧ DataIs g v data ∧
    g.xpts * g.xstep = 360 ∧ isError (coeffs (some (hs ++ data)) [(170, 0)]) ∧ isError (coeffs (some (hs ++ data)) [(-160, 0)]) :=
  ⟨exGrid, exHeader, exData, exVals, exGrid_ok, exHeader_is, exData_is, by norm_num [exGrid],
    by
      rw [coeffs_one exHeader_is (170, 0) (a := 3) (b := 4) (c := 7) (d := 8) (by decide +kernel) (by decide)]
      decide +kernel,
    by
      rw [coeffs_one exHeader_is (-160, 0) (a := -1) (b := 0) (c := 3) (d := 4) (by decide +kernel) (by decide)]
      decide +kernel⟩

end Verif.DesaiGrid
