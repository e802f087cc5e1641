import Verif.Spec.Eop
import Mathlib.LinearAlgebra.Lagrange
import Mathlib.Tactic.Linarith
import Mathlib.Tactic.Ring
import Mathlib.Tactic.FieldSimp
/-
Lemmas on the interpolation loops.
-/
namespace Verif.Eop
open Polynomial

variable {K : Type} [Field K] [LinearOrder K] [IsStrictOrderedRing K]

set_option linter.unusedSectionVars false

theorem foldl_sum (n : Nat) (f : Nat → K) (a : K) :
    (List.range n).foldl (fun a j => a + f j) a = a + ∑ j ∈ Finset.range n, f j := by
  induction n with
  | zero => simp
  | succ n ih => rw [List.range_succ, List.foldl_append, ih, Finset.sum_range_succ]; simp [add_assoc]

theorem foldl_prod (n : Nat) (j : Nat) (f : Nat → K) (a : K) :
    (List.range n).foldl (fun a k => if j ≠ k then a * f k else a) a = a * ∏ k ∈ (Finset.range n).erase j, f k := by
  induction n with
  | zero => simp
  | succ n ih =>
    rw [List.range_succ, List.foldl_append, ih, Finset.range_add_one]
    by_cases h : j = n
    · subst h
      rw [Finset.erase_insert (by simp)]
      have : (Finset.range j).erase j = Finset.range j := Finset.erase_eq_of_notMem (by simp)
      rw [this]; simp
    · rw [Finset.erase_insert_of_ne (fun h' => h h'.symm), Finset.prod_insert (by simp)]
      simp [h]
      ring

/-- Epoch of the k-th record. -/
def ep (w : List (Rec K)) (k : Nat) : K := (w[k]?.map Rec.t).getD 0

theorem ep_inj {w : List (Rec K)} (hw : Sorted w) : Set.InjOn (ep w) (Finset.range w.length : Finset Nat) := by
  have key : ∀ i j, i < j → j < w.length → ep w i < ep w j := by
    intro i j hij hj
    have := List.pairwise_iff_getElem.mp hw i j (by omega) hj hij
    simp only [ep, List.getElem?_eq_getElem hj, List.getElem?_eq_getElem (show i < w.length by omega), Option.map_some,
      Option.getD_some]
    exact this
  intro i hi j hj h
  simp only [Finset.coe_range, Set.mem_Iio] at hi hj
  rcases Nat.lt_trichotomy i j with h1 | h1 | h1
  · have := key i j h1 hj; linarith
  · exact h1
  · have := key j i h1 hi; linarith

/-- The loops compute the interpolating polynomial. -/
theorem lagSum_poly {w : List (Rec K)} (hw : Sorted w) (t : K) (q : Rec K → K) : PolyThrough w q t (lagSum w t q) := by
  have hinj := ep_inj hw
  refine ⟨Lagrange.interpolate (Finset.range w.length) (ep w) (fun j => (w[j]?.map q).getD 0), ?_, ?_, ?_⟩
  · simpa using Lagrange.degree_interpolate_lt (fun j => (w[j]?.map q).getD 0) hinj
  · intro r hr
    obtain ⟨i, hi, rfl⟩ := List.getElem_of_mem hr
    have := Lagrange.eval_interpolate_at_node (fun j => (w[j]?.map q).getD 0) hinj (i := i) (by simpa using hi)
    simp only [ep, List.getElem?_eq_getElem hi, Option.map_some, Option.getD_some] at this
    exact this
  · rw [Lagrange.interpolate_apply, eval_finsetSum]
    unfold lagSum
    rw [foldl_sum, zero_add]
    apply Finset.sum_congr rfl
    intro j _
    rw [eval_mul, eval_C, Lagrange.basis, eval_prod]
    congr 1
    unfold nom dom
    rw [foldl_prod, foldl_prod, one_mul, one_mul, ← Finset.prod_div_distrib]
    apply Finset.prod_congr rfl
    intro k _
    simp only [Lagrange.basisDivisor, eval_mul, eval_C, eval_sub, eval_X, ep]
    rw [div_eq_mul_inv, mul_comm]

/-- The two-point formula is the interpolating polynomial of two records. -/
theorem lin_poly {x0 x1 : Rec K} (h : x0.t < x1.t) (t : K) (q : Rec K → K) :
    PolyThrough [x0, x1] q t (lin x0 x1 t q) := by
  have hd : x1.t - x0.t ≠ 0 := by linarith
  refine ⟨C (q x0) + C ((q x1 - q x0) / (x1.t - x0.t)) * (X - C x0.t), ?_, ?_, ?_⟩
  · have : (C (q x0) + C ((q x1 - q x0) / (x1.t - x0.t)) * (X - C x0.t)).degree ≤ 1 := by
      refine (degree_add_le _ _).trans (max_le (degree_C_le.trans (by norm_num)) ?_)
      refine (degree_mul_le _ _).trans ?_
      refine (add_le_add degree_C_le (degree_X_sub_C_le _)).trans (by norm_num)
    exact lt_of_le_of_lt this (by norm_num)
  · intro r hr
    simp only [List.mem_cons, List.not_mem_nil, or_false] at hr
    rcases hr with rfl | rfl
    · simp
    · simp only [eval_add, eval_C, eval_mul, eval_sub, eval_X]
      field_simp; ring
  · simp only [eval_add, eval_C, eval_mul, eval_sub, eval_X, lin]
    field_simp; ring

theorem polyThrough_unique {w : List (Rec K)} (hw : Sorted w) {q : Rec K → K} {t val : K} (h : PolyThrough w q t val)
    (f : K[X]) (hf : f.degree < w.length) (hq : ∀ r ∈ w, f.eval r.t = q r) : val = f.eval t := by
  obtain ⟨p, hp1, hp2, rfl⟩ := h
  have hinj := ep_inj hw
  have key : ∀ g : K[X], g.degree < w.length → (∀ r ∈ w, g.eval r.t = q r) →
      g = Lagrange.interpolate (Finset.range w.length) (ep w) (fun j => (w[j]?.map q).getD 0) := by
    intro g hg1 hg2
    apply Lagrange.eq_interpolate_of_eval_eq _ hinj (by simpa using hg1)
    intro i hi
    have hi' : i < w.length := by simpa using hi
    simp only [ep, List.getElem?_eq_getElem hi', Option.map_some, Option.getD_some]
    exact hg2 _ (List.getElem_mem hi')
  rw [key p hp1 hp2, key f hf hq]

/-! ### The search -/

theorem upperBound_spec (t : K) {v : List (Rec K)} (hv : Sorted v) :
    upperBound t v ≤ v.length ∧ (∀ r ∈ v.take (upperBound t v), r.t ≤ t) ∧
      ∀ r ∈ v.drop (upperBound t v), t < r.t := by
  unfold upperBound
  induction v with
  | nil => simp
  | cons a v ih =>
    have hs := List.pairwise_cons.mp hv
    rw [List.findIdx_cons]
    by_cases h : t < a.t
    · simp only [h, decide_true, cond_true]
      refine ⟨by simp, by simp, ?_⟩
      intro r hr
      simp only [List.drop_zero, List.mem_cons] at hr
      rcases hr with rfl | hr
      · exact h
      · exact h.trans (hs.1 r hr)
    · simp only [h, decide_false, cond_false]
      obtain ⟨h1, h2, h3⟩ := ih hs.2
      refine ⟨by simp; exact h1, ?_, ?_⟩
      · intro r hr
        simp only [List.take_succ_cons, List.mem_cons] at hr
        rcases hr with rfl | hr
        · exact not_lt.mp h
        · exact h2 r hr
      · intro r hr
        simp only [List.drop_succ_cons] at hr
        exact h3 r hr

/-- On an ordered series the cached iterator never changes the result. -/
theorem hunt_sorted {s : Series K} (hs : Sorted s.vec) {l : Nat} (hl : s.last = some l) (hle : l ≤ s.vec.length) (t : K) :
    s.hunt t = .ok (upperBound t s.vec) := by
  unfold Series.hunt
  rw [hl]
  simp only
  split
  · rename_i hc
    have h1 : l - 1 < s.vec.length := by omega
    have h2 : l < s.vec.length := by omega
    rw [List.getElem?_eq_getElem h1, List.getElem?_eq_getElem h2]
    simp only
    have := List.pairwise_iff_getElem.mp hs (l - 1) l h1 h2 (by omega)
    rw [if_pos]
    simp only [Bool.not_eq_eq_eq_not, Bool.not_true, decide_eq_false_iff_not, not_and, not_lt]
    intro h
    linarith
  · rfl

/-! ### The number of data points -/

theorem shrink_spec (it n : Nat) (k : Nat) : shrink it n k ≤ k ∧
    (∀ j, j ≤ k → noFit it n j = false → j ≤ shrink it n k) ∧ (shrink it n k = 0 ∨ noFit it n (shrink it n k) = false) := by
  induction k with
  | zero => exact ⟨le_rfl, fun j hj _ => hj, Or.inl rfl⟩
  | succ k ih =>
    unfold shrink
    split
    · rename_i h
      refine ⟨by omega, ?_, ih.2.2⟩
      intro j hj hf
      rcases Nat.lt_or_ge k j with h1 | h1
      · have : j = k + 1 := by omega
        subst this; rw [h] at hf; cases hf
      · exact ih.2.1 j h1 hf
    · rename_i h
      refine ⟨le_rfl, fun j hj _ => hj, Or.inr (by simpa using h)⟩

theorem noFit_false {it n : Nat} {k : Nat} : noFit it n k = false ↔ k ≤ it ∧ it + k ≤ n := by
  unfold noFit
  simp only [Bool.or_eq_false_iff, decide_eq_false_iff_not]
  omega

/-- Inside the series at least one point fits on each side; the number of points is the largest that fits,
up to half the requested window. -/
theorem dataPoints_spec {it n degree : Nat} (h0 : 0 < it) (hn : it < n) (hd : 1 ≤ degree) :
    1 ≤ dataPoints it n degree ∧ dataPoints it n degree = min ((degree + 1) / 2) (min it (n - it)) := by
  have h2 : 1 ≤ (degree + 1) / 2 := by omega
  unfold dataPoints
  simp only
  split
  · rename_i h
    have hk : (degree + 1) / 2 > min it (n - it) := by
      by_contra hc
      have : noFit it n (((degree + 1) / 2 : Nat) : Int) = false := noFit_false.mpr (by omega)
      rw [this] at h; cases h
    obtain ⟨s1, s2, s3⟩ := shrink_spec it n ((degree + 1) / 2 - 1)
    have a1 := s2 (min it (n - it)) (by omega) (noFit_false.mpr (by omega))
    rcases s3 with s3 | s3
    · omega
    · have := noFit_false.mp s3
      omega
  · rename_i h
    have := noFit_false.mp (Bool.eq_false_iff.mpr h)
    omega

end Verif.Eop
