import Verif.Model.Cip
import Verif.Spec.Cip
import Verif.Proof.SortPerm
import Mathlib.Tactic.Ring
import Mathlib.Tactic.Linarith
/-
Helper lemmas for the CIP series.
-/
namespace Verif.Cip
open Verif SortPerm

/-- A row as a term of the Conventions' table. -/
def Row.term (s : Row) : Spec.Term := ⟨s.asj, s.acj, s.f⟩

theorem argument_eq (k : Spec.Term) (F : ℕ → ℝ) : k.argument F =
    k.n.getD 0 0 * F 0 + k.n.getD 1 0 * F 1 + k.n.getD 2 0 * F 2 + k.n.getD 3 0 * F 3 + k.n.getD 4 0 * F 4 +
    k.n.getD 5 0 * F 5 + k.n.getD 6 0 * F 6 + k.n.getD 7 0 * F 7 + k.n.getD 8 0 * F 8 + k.n.getD 9 0 * F 9 +
    k.n.getD 10 0 * F 10 + k.n.getD 11 0 * F 11 + k.n.getD 12 0 * F 12 + k.n.getD 13 0 * F 13 := by
  have e : List.range 14 = [0, 1, 2, 3, 4, 5, 6, 7, 8, 9, 10, 11, 12, 13] := rfl
  unfold Spec.Term.argument
  rw [e]
  simp only [List.map_cons, List.map_nil, List.sum_cons, List.sum_nil]
  ring

theorem range9 : List.range' 5 9 = [5, 6, 7, 8, 9, 10, 11, 12, 13] := rfl

theorem row_arg (s : Row) (F : ℕ → ℝ) : s.arg F = s.term.argument F := by
  rw [argument_eq]
  unfold Row.arg Row.term
  by_cases h : s.hasPlanetary = true
  · simp only [h, if_true, range9, List.foldl_cons, List.foldl_nil]
    ring
  · rw [if_neg h]
    unfold Row.hasPlanetary at h
    rw [range9] at h
    simp only [List.any_cons, List.any_nil, Bool.or_false, Bool.or_eq_true, bne_iff_ne, ne_eq, not_or, not_not] at h
    obtain ⟨h5, h6, h7, h8, h9, h10, h11, h12, h13⟩ := h
    simp only [h5, h6, h7, h8, h9, h10, h11, h12, h13]
    push_cast
    ring

theorem kadd (k : KSum) (v : ℝ) (h : k.err = 0) : (k.add v).sum = k.sum + v ∧ (k.add v).err = 0 := by
  unfold KSum.add
  dsimp only
  split <;> exact ⟨rfl, by dsimp only; rw [h]; ring⟩

theorem series_loop (F : ℕ → ℝ) (rows : List Row) (k : KSum) (h : k.err = 0) :
    (rows.foldl (fun k s =>
      let arg := s.arg F
      let ca := Real.cos arg
      let sa := Real.sin arg
      k.add ((s.acj / 100 : ℝ) * ca + (s.asj / 100 : ℝ) * sa)) k).toDouble =
      k.sum + Spec.total (rows.map Row.term) F := by
  induction rows generalizing k with
  | nil => simp [KSum.toDouble, Spec.total, h]
  | cons s rows ih =>
    rw [List.foldl_cons, ih _ (kadd _ _ h).2, (kadd _ _ h).1]
    simp only [Spec.total, List.map_cons, List.sum_cons, Spec.Term.value, ← row_arg]
    simp only [Row.term]
    ring

theorem seriesSum_eq (F : ℕ → ℝ) (rows : List Row) : seriesSum F rows = Spec.total (rows.map Row.term) F := by
  unfold seriesSum
  rw [series_loop F rows ⟨0, 0⟩ rfl]
  ring

theorem total_perm {a b : List Spec.Term} (h : a.Perm b) (F : ℕ → ℝ) : Spec.total a F = Spec.total b F :=
  (h.map _).sum_eq

/-! ### The merged table -/

/-- A row of the merged table as a term. -/
def Pln.term (s : Freq) (e : Pln) : Spec.Term := ⟨e.as, e.ac, s.f ++ e.f⟩

/-- The flag of the row is right, the row has nine multipliers and a power at most four. -/
def Pln.good (e : Pln) : Bool :=
  (bif e.sumpl == 0 then e.f.all (fun x => x == 0) else true) && (e.f.length == 9) && Nat.ble e.pow 4

def takeRows (s : Freq) : Nat → List Pln → Option (List Pln × List (Nat × Spec.Term))
  | 0, it => some (it, [])
  | _ + 1, [] => none
  | n + 1, e :: it =>
    match e.good with
    | false => none
    | true =>
      match takeRows s n it with
      | none => none
      | some (it', ts) => some (it', (e.pow, e.term s) :: ts)

def expand : List Freq → List Pln → Option (List (Nat × Spec.Term) × List (Nat × Spec.Term))
  | [], _ => some ([], [])
  | s :: fs, it =>
    match s.f.length == 5 with
    | false => none
    | true =>
      match takeRows s s.nx it with
      | none => none
      | some (i1, xs) =>
        match takeRows s s.ny i1 with
        | none => none
        | some (i2, ys) =>
          match expand fs i2 with
          | none => none
          | some (xr, yr) => some (xs ++ xr, ys ++ yr)

/-- Value of a list of terms with their powers. -/
noncomputable def sumT (F : ℕ → ℝ) (t : ℝ) (l : List (Nat × Spec.Term)) : ℝ :=
  (l.map fun a => a.2.value F * t ^ a.1).sum

theorem sumT_append (F : ℕ → ℝ) (t : ℝ) (a b : List (Nat × Spec.Term)) :
    sumT F t (a ++ b) = sumT F t a + sumT F t b := by
  simp [sumT]

theorem tpow_get (t : ℝ) {n : Nat} (h : n ≤ 4) : (tpow t)[n]? = some (t ^ n) := by
  have : n = 0 ∨ n = 1 ∨ n = 2 ∨ n = 3 ∨ n = 4 := by omega
  rcases this with h | h | h | h | h <;> subst h <;> simp [tpow] <;> ring

theorem five (l : List Int) (h : l.length = 5) : ∃ a b c d e, l = [a, b, c, d, e] := by
  match l, h with
  | [a, b, c, d, e], _ => exact ⟨a, b, c, d, e, rfl⟩

theorem nine (l : List Int) (h : l.length = 9) : ∃ a b c d e f g i j, l = [a, b, c, d, e, f, g, i, j] := by
  match l, h with
  | [a, b, c, d, e, f, g, i, j], _ => exact ⟨a, b, c, d, e, f, g, i, j, rfl⟩

theorem merged_arg (F : ℕ → ℝ) (s : Freq) (e : Pln) (hs : s.f.length = 5) (he : e.good = true) :
    (if e.sumpl ≠ 0 then s.arg F + e.arg (fun i => F (i + 5)) else s.arg F) = (e.term s).argument F := by
  rw [argument_eq]
  simp only [Pln.good, Bool.and_eq_true, beq_iff_eq] at he
  obtain ⟨⟨h1, h2⟩, -⟩ := he
  obtain ⟨a, b, c, d, g, hf⟩ := five _ hs
  obtain ⟨e0, e1, e2, e3, e4, e5, e6, e7, e8, hg⟩ := nine _ h2
  have e1 : ∀ i, i < 14 → (e.term s).n.getD i 0 = ([a, b, c, d, g, e0, e1, e2, e3, e4, e5, e6, e7, e8] : List Int).getD i 0 := by
    intro i _
    simp only [Pln.term, hf, hg, List.cons_append, List.nil_append]
  simp only [e1 _ (by norm_num : 0 < 14), e1 _ (by norm_num : 1 < 14), e1 _ (by norm_num : 2 < 14),
    e1 _ (by norm_num : 3 < 14), e1 _ (by norm_num : 4 < 14), e1 _ (by norm_num : 5 < 14),
    e1 _ (by norm_num : 6 < 14), e1 _ (by norm_num : 7 < 14), e1 _ (by norm_num : 8 < 14),
    e1 _ (by norm_num : 9 < 14), e1 _ (by norm_num : 10 < 14), e1 _ (by norm_num : 11 < 14),
    e1 _ (by norm_num : 12 < 14), e1 _ (by norm_num : 13 < 14)]
  unfold Freq.arg Pln.arg
  rw [hf, hg]
  simp only [List.getD_cons_zero, List.getD_cons_succ]
  by_cases h : e.sumpl = 0
  · rw [if_neg (not_not.mpr h)]
    rw [h, hg] at h1
    simp only [beq_self_eq_true, cond_true, List.all_cons, List.all_nil, Bool.and_true, Bool.and_eq_true,
      beq_iff_eq] at h1
    obtain ⟨q0, q1, q2, q3, q4, q5, q6, q7, q8⟩ := h1
    subst q0 q1 q2 q3 q4 q5 q6 q7 q8
    push_cast
    ring
  · rw [if_pos h]
    ring

theorem rowsLoop_ok (F : ℕ → ℝ) (t : ℝ) (s : Freq) (hs : s.f.length = 5) (n : Nat) (it it' : List Pln)
    (ts : List (Nat × Spec.Term)) (h : takeRows s n it = some (it', ts)) (ser : ℝ) :
    rowsLoop F t (s.arg F) n it ser = .ok (it', ser + sumT F t ts) := by
  induction n generalizing it ts ser with
  | zero =>
    simp only [takeRows, Option.some.injEq, Prod.mk.injEq] at h
    obtain ⟨rfl, rfl⟩ := h
    simp [rowsLoop, sumT]
  | succ n ih =>
    match it with
    | [] => simp [takeRows] at h
    | e :: it =>
      unfold takeRows at h
      match hg : e.good with
      | false => rw [hg] at h; cases h
      | true =>
        rw [hg] at h
        dsimp only at h
        match hr : takeRows s n it with
        | none => rw [hr] at h; cases h
        | some (i1, t1) =>
          rw [hr] at h
          simp only [Option.some.injEq, Prod.mk.injEq] at h
          obtain ⟨rfl, rfl⟩ := h
          have hp : e.pow ≤ 4 := by
            simp only [Pln.good, Bool.and_eq_true] at hg
            exact Nat.le_of_ble_eq_true hg.2
          have ha := merged_arg F s e hs hg
          have hc : (if e.sumpl ≠ 0 then
              Real.cos (if e.sumpl ≠ 0 then s.arg F + e.arg (fun i => F (i + 5)) else s.arg F)
              else Real.cos (s.arg F)) = Real.cos ((e.term s).argument F) := by
            rw [← ha]; split <;> rfl
          have hsn : (if e.sumpl ≠ 0 then
              Real.sin (if e.sumpl ≠ 0 then s.arg F + e.arg (fun i => F (i + 5)) else s.arg F)
              else Real.sin (s.arg F)) = Real.sin ((e.term s).argument F) := by
            rw [← ha]; split <;> rfl
          unfold rowsLoop
          dsimp only
          rw [tpow_get t hp, hc, hsn]
          dsimp only
          rw [ih _ _ hr]
          simp only [sumT, List.map_cons, List.sum_cons, Spec.Term.value]
          simp only [Pln.term]
          congr 2
          ring

theorem xyLoop_ok (F : ℕ → ℝ) (t : ℝ) (fs : List Freq) (it : List Pln) (xs ys : List (Nat × Spec.Term))
    (h : expand fs it = some (xs, ys)) (a b : ℝ) :
    xyLoop F t fs it a b = .ok (a + sumT F t xs, b + sumT F t ys) := by
  induction fs generalizing it xs ys a b with
  | nil =>
    simp only [expand, Option.some.injEq, Prod.mk.injEq] at h
    obtain ⟨rfl, rfl⟩ := h
    simp [xyLoop, sumT]
  | cons s fs ih =>
    unfold expand at h
    match hl : s.f.length == 5 with
    | false => rw [hl] at h; cases h
    | true =>
      rw [hl] at h
      have hs : s.f.length = 5 := by simpa using hl
      dsimp only at h
      match h1 : takeRows s s.nx it with
      | none => rw [h1] at h; cases h
      | some (i1, x1) =>
        rw [h1] at h
        dsimp only at h
        match h2 : takeRows s s.ny i1 with
        | none => rw [h2] at h; cases h
        | some (i2, y1) =>
          rw [h2] at h
          dsimp only at h
          match h3 : expand fs i2 with
          | none => rw [h3] at h; cases h
          | some (xr, yr) =>
            rw [h3] at h
            simp only [Option.some.injEq, Prod.mk.injEq] at h
            obtain ⟨rfl, rfl⟩ := h
            unfold xyLoop
            dsimp only
            rw [rowsLoop_ok F t s hs _ _ _ _ h1]
            simp only [Res.bind]
            rw [rowsLoop_ok F t s hs _ _ _ _ h2]
            simp only
            rw [ih _ _ _ h3, sumT_append, sumT_append]
            congr 2 <;> ring

/-- The terms of one power. -/
def ofPow (j : Nat) : List (Nat × Spec.Term) → List Spec.Term
  | [] => []
  | a :: l => bif Nat.beq a.1 j then a.2 :: ofPow j l else ofPow j l

def powsLe : List (Nat × Spec.Term) → Bool
  | [] => true
  | a :: l => Nat.ble a.1 4 && powsLe l

theorem ofPow_cons (j : Nat) (a : Nat × Spec.Term) (l : List (Nat × Spec.Term)) (F : ℕ → ℝ) :
    Spec.total (ofPow j (a :: l)) F = (if a.1 = j then a.2.value F else 0) + Spec.total (ofPow j l) F := by
  by_cases h : a.1 = j
  · have : Nat.beq a.1 j = true := by simpa using h
    rw [if_pos h]
    simp [ofPow, this, Spec.total]
  · have : Nat.beq a.1 j = false := Bool.eq_false_iff.mpr fun q => h (Nat.eq_of_beq_eq_true q)
    rw [if_neg h]
    simp [ofPow, this, Spec.total]

theorem sumT_split (F : ℕ → ℝ) (t : ℝ) (l : List (Nat × Spec.Term)) (h : powsLe l = true) :
    sumT F t l = Spec.total (ofPow 0 l) F + Spec.total (ofPow 1 l) F * t + Spec.total (ofPow 2 l) F * t ^ 2 +
      Spec.total (ofPow 3 l) F * t ^ 3 + Spec.total (ofPow 4 l) F * t ^ 4 := by
  induction l with
  | nil => simp [sumT, ofPow, Spec.total]
  | cons a l ih =>
    simp only [powsLe, Bool.and_eq_true] at h
    have hp := Nat.le_of_ble_eq_true h.1
    have e : sumT F t (a :: l) = a.2.value F * t ^ a.1 + sumT F t l := by simp [sumT]
    rw [e, ih h.2]
    simp only [ofPow_cons]
    have : a.1 = 0 ∨ a.1 = 1 ∨ a.1 = 2 ∨ a.1 = 3 ∨ a.1 = 4 := by omega
    rcases this with q | q | q | q | q <;> rw [q] <;> norm_num <;> ring

/-! ### Deciding that two tables have the same terms -/

def key (t : Spec.Term) : Nat :=
  (t.n.foldl (fun a x => a * 64 + (x + 32).toNat)
    ((t.s + 1000000000).toNat * 2000000000 + (t.c + 1000000000).toNat)) % 1000000000000000003

theorem perm_of_key {a b : List Spec.Term} (h : sort key a = sort key b) : a.Perm b := perm_of_sort key h

def mergedX (j : Nat) : Option (List Spec.Term) := (expand xyLunSol xyPln).map fun p => sort key (ofPow j p.1)
def mergedY (j : Nat) : Option (List Spec.Term) := (expand xyLunSol xyPln).map fun p => sort key (ofPow j p.2)

end Verif.Cip
