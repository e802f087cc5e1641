import Verif.Spec.Aod1b
import Verif.Proof.IcgemText
/-
Reading lines and blocks of AOD1B files.
-/
namespace Verif.Aod1b
open Verif.Chars Verif.Icgem

theorem takeWhile_nl {l r : List Char} (h : '\n' ∉ l) :
    (l ++ '\n' :: r).takeWhile (· ≠ '\n') = l ∧ (l ++ '\n' :: r).dropWhile (· ≠ '\n') = '\n' :: r := by
  induction l with
  | nil => simp
  | cons a l ih =>
    simp only [List.mem_cons, not_or] at h
    obtain ⟨h1, h2⟩ := ih h.2
    constructor
    · rw [List.cons_append, List.takeWhile_cons, if_pos (by simpa using fun e => h.1 e.symm), h1]
    · rw [List.cons_append, List.dropWhile_cons, if_pos (by simpa using fun e => h.1 e.symm), h2]

theorem getline_line {l r : List Char} (h : ShortLine l) : (At (l ++ '\n' :: r)).getline 124 = (l, true, At r) := by
  obtain ⟨h1, h2⟩ := takeWhile_nl (r := r) h.1
  simp only [In.getline, At, Bool.or_self, Bool.false_eq_true, if_false, h1, h2, if_pos h.2]

theorem getline_false {s s' : In} {l : List Char} (h : s.getline 124 = (l, false, s')) : s'.good = false := by
  unfold In.getline at h
  split at h
  · simp only [Prod.mk.injEq] at h; rw [← h.2.2]; simp [In.good]
  · dsimp only at h
    split at h
    · split at h
      · simp at h
      · split at h
        · simp only [Prod.mk.injEq] at h; rw [← h.2.2]; rfl
        · simp at h
    · simp only [Prod.mk.injEq] at h; rw [← h.2.2]; rfl

theorem getline_sound {s s' : In} {l : List Char} (h : s.getline 124 = (l, true, s')) (hg : s'.good = true) :
    s = At (l ++ '\n' :: s'.rest) ∧ s' = At s'.rest ∧ ShortLine l := by
  obtain ⟨rest, eof, fail⟩ := s
  unfold In.getline at h
  split at h
  · simp at h
  · rename_i hc
    simp only [Bool.or_eq_true, not_or, Bool.not_eq_true] at hc
    obtain ⟨rfl, rfl⟩ := hc
    dsimp only at h
    split at h
    · rename_i hl
      split at h
      · rename_i c r hd
        simp only [Prod.mk.injEq, true_and] at h
        obtain ⟨rfl, rfl⟩ := h
        have hc : c = '\n' := by
          by_contra hne
          have := List.head?_dropWhile_not (p := fun c : Char => decide (c ≠ '\n')) (l := rest)
          rw [hd] at this
          simp [hne] at this
        subst hc
        refine ⟨?_, rfl, ?_, hl⟩
        · simp only [At, In.mk.injEq, and_true]
          rw [← hd]; exact (List.takeWhile_append_dropWhile).symm
        · intro hm
          have := List.all_takeWhile (p := fun c : Char => decide (c ≠ '\n')) (l := rest)
          rw [List.all_eq_true] at this
          simpa using this _ hm
      · split at h
        · simp at h
        · simp only [Prod.mk.injEq, true_and] at h
          obtain ⟨_, rfl⟩ := h
          simp [In.good] at hg
    · simp at h

theorem unlines_cons (l : List Char) (ls : List (List Char)) (r : List Char) :
    unlines (l :: ls) ++ r = l ++ '\n' :: (unlines ls ++ r) := by simp [unlines]

/-! ### One line -/

/-- The effect of a record on the coefficients. -/
noncomputable def putRow (n m : Int) (co : Coeffs ℝ) (r : Row) : Coeffs ℝ :=
  if r.In n m then { co with C := Coeffs.put co.C r.n.toNat r.m.toNat r.C, S := Coeffs.put co.S r.n.toNat r.m.toNat r.S } else co

theorem putRow_dims (n m : Int) (co : Coeffs ℝ) (r : Row) : (putRow n m co r).rows = co.rows ∧
    (putRow n m co r).deg = co.deg ∧ (putRow n m co r).ord = co.ord ∧ (putRow n m co r).gm = co.gm ∧
    (putRow n m co r).re = co.re ∧ (putRow n m co r).normalized = co.normalized := by
  unfold putRow; split <;> simp

theorem line1_ok {ws : Char → Bool} (hw : SepOk ws) {n m : Int} {line : List Char} {r : Row} (h : RowLine true ws n m line r)
    {co : Coeffs ℝ} (ht : r.In n m → co.Has r.n r.m) :
    line1 ws n m line co = .ok (r.n, r.m, decide (r.In n m), 0, putRow n m co r) := by
  obtain ⟨r1, r2, h1, h2, h3⟩ := h
  unfold line1
  simp only [readInt_ok hw h1, readInt_ok hw h2, Nat.add_zero, and_true]
  by_cases hin : r.In n m
  · obtain ⟨r3, r4, h4, h5⟩ := h3 hin
    have hh := ht hin
    rw [if_pos (show r.n ≤ n ∧ r.m ≤ m from hin)]
    have hh' : ∀ f : Nat → Nat → ℝ, ({ co with C := f } : Coeffs ℝ).Has r.n r.m := fun f => hh
    simp only [readC, if_pos hh, readNum_ok hw h4, Res.bind, if_true, readS, if_pos (hh' _), readNum_ok hw h5]
    simp [putRow, hin]
  · rw [if_neg (show ¬ (r.n ≤ n ∧ r.m ≤ m) from hin)]
    simp [putRow, hin]

theorem line1_sound {ws : Char → Bool} {n m : Int} {line : List Char} {co co' : Coeffs ℝ} {l o : Int} {used : Bool}
    (h : line1 ws n m line co = .ok (l, o, used, 0, co')) :
    ∃ r : Row, RowLine false ws n m line r ∧ r.n = l ∧ r.m = o ∧ used = decide (r.In n m) ∧ co' = putRow n m co r ∧
      (r.In n m → co.Has r.n r.m) := by
  unfold line1 at h
  rcases hr1 : readInt ws 0 line with ⟨l1, s1, e1⟩
  rcases hr2 : readInt ws 0 s1 with ⟨o1, s2, e2⟩
  simp only [hr1, hr2] at h
  split at h
  · rename_i hc
    obtain ⟨c1, c2, c3⟩ := hc
    have he1 : e1 = 0 := by omega
    have he2 : e2 = 0 := by omega
    subst he1 he2
    unfold readC at h
    by_cases hh : co.Has l1 o1
    · rw [if_pos hh] at h
      rcases hr3 : readNum ws 0 s2 with ⟨v, s3, e3⟩
      simp only [hr3, Res.bind] at h
      unfold readS at h
      rw [if_pos (show Coeffs.Has (if e3 = 0 then _ else co) l1 o1 by split <;> exact hh)] at h
      · rcases hr4 : readNum ws 0 s3 with ⟨w, s4, e4⟩
        simp only [hr4, Res.ok.injEq, Prod.mk.injEq] at h
        obtain ⟨rfl, rfl, rfl, he, rfl⟩ := h
        have he3 : e3 = 0 := by omega
        have he4 : e4 = 0 := by omega
        subst he3 he4
        refine ⟨⟨l1, o1, v, w⟩, ⟨s1, s2, readInt_sound hr1, readInt_sound hr2,
          fun _ => ⟨s3, s4, readNum_sound hr3, readNum_sound hr4⟩⟩, rfl, rfl, ?_, ?_, fun _ => hh⟩
        · simp [Row.In, c1, c2]
        · simp [putRow, Row.In, c1, c2]
    · rw [if_neg hh] at h; simp [Res.bind] at h
  · rename_i hc
    simp only [Res.ok.injEq, Prod.mk.injEq] at h
    obtain ⟨rfl, rfl, rfl, he, rfl⟩ := h
    have he1 : e1 = 0 := by omega
    have he2 : e2 = 0 := by omega
    subst he1 he2
    have hni : ¬ (⟨l1, o1, 0, 0⟩ : Row).In n m := by
      intro hi; exact hc ⟨hi.1, hi.2, rfl⟩
    exact ⟨⟨l1, o1, 0, 0⟩, ⟨s1, s2, readInt_sound hr1, readInt_sound hr2, fun hi => absurd hi hni⟩, rfl, rfl,
      by simp [hni], by simp [putRow, hni], fun hi => absurd hi hni⟩

/-! ### The loop -/

/-- The largest of the values of the records within the request, and `d`. -/
def topOf (n m : Int) (f : Row → Int) (d : Int) (rows : List Row) : Int :=
  rows.foldl (fun d r => if r.In n m then max d (f r) else d) d

theorem collectLoop_ok {ws : Char → Bool} (hw : SepOk ws) {n m : Int} {lines : List (List Char)} {rows : List Row}
    (h : List.Forall₂ (RowLine true ws n m) lines rows) (hs : ∀ l ∈ lines, ShortLine l) (rest : List Char) :
    ∀ (co : Coeffs ℝ) (d o : Int), (∀ r ∈ rows, r.In n m → co.Has r.n r.m) →
    collectLoop ws n m lines.length ⟨At (unlines lines ++ rest), co, d, o⟩ =
      .ok (0, ⟨At rest, rows.foldl (putRow n m) co, topOf n m Row.n d rows, topOf n m Row.m o rows⟩) := by
  induction h with
  | nil => intro co d o _; simp [collectLoop, unlines, topOf]
  | @cons line r lines rows h1 h2 ih =>
    intro co d o hh
    rw [unlines_cons, List.length_cons]
    unfold collectLoop
    simp only [getline_line (hs line (by simp)), line1_ok hw h1 (hh r (by simp)), Res.bind]
    rw [if_neg (by simp)]
    rw [ih (fun l hl => hs l (by simp [hl]))]
    · simp [topOf]
    · intro r' hr' hin
      have := hh r' (by simp [hr']) hin
      unfold Coeffs.Has at this ⊢
      rwa [(putRow_dims n m co r).1]

theorem collectLoop_sound {ws : Char → Bool} {n m : Int} : ∀ (k : Nat) (g g' : Got),
    collectLoop ws n m k g = .ok (0, g') → g'.s.good = true →
    ∃ (lines : List (List Char)) (rows : List Row), lines.length = k ∧ List.Forall₂ (RowLine false ws n m) lines rows ∧
      (∀ l ∈ lines, ShortLine l) ∧ g.s = At (unlines lines ++ g'.s.rest) ∧ g'.s = At g'.s.rest ∧
      g'.co = rows.foldl (putRow n m) g.co ∧ g'.d = topOf n m Row.n g.d rows ∧ g'.o = topOf n m Row.m g.o rows ∧
      (∀ r ∈ rows, r.In n m → g.co.Has r.n r.m) := by
  intro k
  induction k with
  | zero =>
    intro g g' h hg
    simp only [collectLoop, Res.ok.injEq, Prod.mk.injEq, true_and] at h
    subst h
    have : g.s = At g.s.rest := by
      obtain ⟨⟨r, e, f⟩, _, _, _⟩ := g
      simp only [In.good, Bool.and_eq_true, Bool.not_eq_true'] at hg
      simp [At, hg]
    exact ⟨[], [], rfl, .nil, by simp, by simpa [unlines] using this, this, rfl, rfl, rfl, by simp⟩
  | succ k ih =>
    intro g g' h hg
    unfold collectLoop at h
    rcases hl : g.s.getline 124 with ⟨line, ok, s⟩
    rw [hl] at h
    cases ok with
    | false =>
      simp only [Res.ok.injEq, Prod.mk.injEq, true_and] at h
      subst h
      have := getline_false hl
      simp only at hg
      rw [this] at hg
      cases hg
    | true =>
      simp only at h
      cases h1 : line1 ws n m line g.co with
      | ok v =>
        obtain ⟨l, o, used, err, co⟩ := v
        simp only [h1, Res.bind] at h
        split at h
        · rename_i he
          simp only [Res.ok.injEq, Prod.mk.injEq] at h
          exact absurd h.1 he
        · rename_i he
          have he : err = 0 := by omega
          subst he
          obtain ⟨lines, rows, a1, a2, a3, a4, a5, a6, a7, a8, a9⟩ := ih _ _ h hg
          obtain ⟨r, b1, b2, b3, b4, b5, b6⟩ := line1_sound h1
          simp only at a4 a6 a7 a8 a9
          have hsg : s.good = true := by rw [a4]; rfl
          obtain ⟨c1, c2, c3⟩ := getline_sound hl hsg
          refine ⟨line :: lines, r :: rows, by simp [a1], .cons b1 a2, ?_, ?_, a5, ?_, ?_, ?_, ?_⟩
          · intro l hl; rcases List.mem_cons.mp hl with rfl | hl
            · exact c3
            · exact a3 l hl
          · rw [c1, unlines_cons]
            rw [a4]; rfl
          · rw [a6, b5]; rfl
          · rw [a7, b4]; subst b2; simp [topOf]
          · rw [a8, b4]; subst b3; simp [topOf]
          · intro r' hr' hin
            rcases List.mem_cons.mp hr' with rfl | hr'
            · exact b6 hin
            · have := a9 r' hr' hin
              unfold Coeffs.Has at this ⊢
              rwa [b5, (putRow_dims n m g.co r).1] at this
      | ub => simp [h1, Res.bind] at h
      | abort => simp [h1, Res.bind] at h
      | throw => simp [h1, Res.bind] at h

/-! ### What the loop leaves -/

theorem foldl_dims (n m : Int) (rows : List Row) : ∀ co : Coeffs ℝ, (rows.foldl (putRow n m) co).rows = co.rows ∧
    (rows.foldl (putRow n m) co).deg = co.deg ∧ (rows.foldl (putRow n m) co).ord = co.ord ∧
    (rows.foldl (putRow n m) co).gm = co.gm ∧
    (rows.foldl (putRow n m) co).re = co.re ∧ (rows.foldl (putRow n m) co).normalized = co.normalized := by
  induction rows with
  | nil => simp
  | cons r rows ih =>
    intro co
    rw [List.foldl_cons]
    obtain ⟨h1, h2, h3, h4, h5, h6⟩ := ih (putRow n m co r)
    obtain ⟨g1, g2, g3, g4, g5, g6⟩ := putRow_dims n m co r
    exact ⟨h1.trans g1, h2.trans g2, h3.trans g3, h4.trans g4, h5.trans g5, h6.trans g6⟩

theorem lastValue_snoc (n m : Int) (f : Row → ℚ) (rows : List Row) (r : Row) (i j : Nat) :
    lastValue n m f (rows ++ [r]) i j = if r.In n m ∧ r.n = (i : Int) ∧ r.m = (j : Int) then (f r : ℝ) else lastValue n m f rows i j := by
  unfold lastValue
  rw [List.filter_append]
  by_cases h : r.In n m ∧ r.n = (i : Int) ∧ r.m = (j : Int)
  · rw [if_pos h]
    simp [h]
  · rw [if_neg h]
    simp [h]

theorem foldl_holds {n m : Int} (rows : List Row) (ht : ∀ r ∈ rows, r.In n m → r.Triangle) (co : Coeffs ℝ) (k : Nat) :
    Holds n m rows k (rows.foldl (putRow n m) co.clear) := by
  induction rows using List.reverseRecOn with
  | nil => intro i j _ _; simp [lastValue, Coeffs.clear]
  | append_singleton rows r ih =>
    intro i j hj hi
    obtain ⟨i1, i2⟩ := ih (fun r hr => ht r (by simp [hr])) i j hj hi
    rw [List.foldl_append, List.foldl_cons, List.foldl_nil, lastValue_snoc, lastValue_snoc]
    unfold putRow
    by_cases hin : r.In n m
    · have := ht r (by simp) hin
      unfold Row.Triangle at this
      rw [if_pos hin]
      simp only [Coeffs.put, hin, true_and]
      have e : (i = r.n.toNat ∧ j = r.m.toNat) ↔ (r.n = (i : Int) ∧ r.m = (j : Int)) := by omega
      simp only [e]
      split
      · simp
      · exact ⟨i1, i2⟩
    · rw [if_neg hin]
      simp only [hin, false_and, if_false]
      exact ⟨i1, i2⟩

theorem topOf_top (n m : Int) (f : Row → Int) (rows : List Row) : Top n m f rows (topOf n m f 0 rows) := by
  induction rows using List.reverseRecOn with
  | nil => simp [Top, topOf]
  | append_singleton rows r ih =>
    obtain ⟨h0, h1, h2⟩ := ih
    have e : topOf n m f 0 (rows ++ [r]) = if r.In n m then max (topOf n m f 0 rows) (f r) else topOf n m f 0 rows := by
      simp [topOf]
    rw [e]
    split
    · rename_i hin
      refine ⟨by omega, ?_, ?_⟩
      · intro r' hr' hin'
        simp only [List.mem_append, List.mem_singleton] at hr'
        rcases hr' with hr' | rfl
        · have := h1 r' hr' hin'; omega
        · omega
      · by_cases hm : topOf n m f 0 rows ≤ f r
        · rw [max_eq_right hm]
          exact Or.inr ⟨r, by simp, hin, rfl⟩
        · rw [max_eq_left (by omega)]
          rcases h2 with h2 | ⟨r', a, b, c⟩
          · exact Or.inl h2
          · exact Or.inr ⟨r', by simp [a], b, c⟩
    · rename_i hin
      refine ⟨h0, ?_, ?_⟩
      · intro r' hr' hin'
        simp only [List.mem_append, List.mem_singleton] at hr'
        rcases hr' with hr' | rfl
        · exact h1 r' hr' hin'
        · exact absurd hin' hin
      · rcases h2 with h2 | ⟨r', a, b, c⟩
        · exact Or.inl h2
        · exact Or.inr ⟨r', by simp [a], b, c⟩

theorem Top.unique {n m : Int} {f : Row → Int} {rows : List Row} {d d' : Int} (h : Top n m f rows d) (h' : Top n m f rows d') :
    d = d' := by
  obtain ⟨a0, a1, a2⟩ := h
  obtain ⟨b0, b1, b2⟩ := h'
  apply le_antisymm
  · rcases a2 with rfl | ⟨r, x, y, rfl⟩
    · exact b0
    · exact b1 r x y
  · rcases b2 with rfl | ⟨r, x, y, rfl⟩
    · exact a0
    · exact a1 r x y

theorem has_triangle {co : Coeffs ℝ} {r : Row} (h : co.Has r.n r.m) : r.Triangle := ⟨h.1, h.2.1⟩

end Verif.Aod1b
