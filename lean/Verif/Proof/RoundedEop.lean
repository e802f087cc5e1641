import Verif.Proof.Scaled
import Verif.Proof.Eop
import Verif.Model.RoundedEop
import Verif.Spec.RoundedEop
import Mathlib.Algebra.BigOperators.Fin
/-
Lemmas on the interpolation loops with rounding.
-/
namespace Verif.RoundedEop
open Verif Verif.Eop Verif.Rounding

/-- A product over the window without record `j`. -/
theorem prod_sc {fl : Rounded.Arith} (hf : Faithful fl) (j : Nat) (f' f F : Nat → ℝ) {c : ℝ} (hc0 : 0 ≤ c) (hc : c ≤ 8) (n : Nat) (hn : n ≤ 40)
    (h : ∀ k < n, j ≠ k → Sc c (F k) (f' k) (f k)) :
    Sc ((c + 1.01) * n) (∏ k ∈ Finset.range n, if j = k then 1 else F k) ((List.range n).foldl (fun a k => if j ≠ k then fl (a * f' k) else a) 1)
      ((List.range n).foldl (fun a k => if j ≠ k then a * f k else a) 1) := by
  induction n with
  | zero => simp [Sc]
  | succ n ih =>
    have i := ih (by omega) (fun k hk => h k (by omega))
    rw [List.range_succ, List.foldl_append, List.foldl_append, Finset.prod_range_succ]
    simp only [List.foldl_cons, List.foldl_nil]
    have hn' : (n : ℝ) ≤ 39 := by exact_mod_cast (by omega : n ≤ 39)
    have hn0 : (0 : ℝ) ≤ n := Nat.cast_nonneg n
    have hk : (c + 1.01) * n ≤ 360 := by nlinarith
    by_cases e : j = n
    · rw [if_neg (not_not_intro e), if_neg (not_not_intro e), if_pos e, mul_one]
      refine i.mono ?_
      push_cast
      nlinarith
    · rw [if_pos e, if_pos e, if_neg e]
      have m := (i.mul (h n (by omega) e) (by positivity) (by linarith) hc0 (by linarith)).fl hf (by linarith)
      refine m.mono ?_
      push_cast
      linarith

/-- A sum over the window. -/
theorem sum_sc {fl : Rounded.Arith} (hf : Faithful fl) (f' f F : Nat → ℝ) {c : ℝ} (hc0 : 0 ≤ c) (hc : c ≤ 900) (n : Nat) (hn : n ≤ 40)
    (h : ∀ k < n, Sc c (F k) (f' k) (f k)) :
    Sc (c + 1.01 * n) (∑ k ∈ Finset.range n, F k) ((List.range n).foldl (fun a k => fl (a + f' k)) 0)
      ((List.range n).foldl (fun a k => a + f k) 0) := by
  induction n with
  | zero => simp [Sc]
  | succ n ih =>
    have i := ih (by omega) (fun k hk => h k (by omega))
    rw [List.range_succ, List.foldl_append, List.foldl_append, Finset.sum_range_succ]
    simp only [List.foldl_cons, List.foldl_nil]
    have hn' : (n : ℝ) ≤ 39 := by exact_mod_cast (by omega : n ≤ 39)
    have hn0 : (0 : ℝ) ≤ n := Nat.cast_nonneg n
    have m := (i.add ((h n (by omega)).mono (l := c + 1.01 * n) (by linarith))).fl hf (by linarith)
    refine m.mono ?_
    push_cast
    linarith

theorem spread_range (w : List (Rec ℝ)) (t : ℝ) (q : Rec ℝ → ℝ) : spread w t q = ∑ j ∈ Finset.range w.length,
    |(w[j]?.map q).getD 0| * ∏ k ∈ Finset.range w.length, if j = k then 1 else (|t - epoch w k| + 1) / |epoch w j - epoch w k| := by
  rw [Finset.sum_range]
  unfold spread
  refine Finset.sum_congr rfl fun j _ => ?_
  rw [Finset.prod_range]
  have ej : ∀ i : Fin w.length, epoch w i = w[i].t := fun i => by unfold epoch; simp
  congr 1
  · simp
  · refine Finset.prod_congr rfl fun k _ => ?_
    rw [ej, ej]
    by_cases h : j = k
    · simp [h]
    · rw [if_neg h, if_neg (fun e => h (Fin.ext e))]

theorem gap {w : List (Rec ℝ)} (hw : Daily w) {j k : Nat} (hj : j < w.length) (hk : k < w.length) (h : j ≠ k) : 1 ≤ |epoch w j - epoch w k| := by
  have ej : ∀ {i} (hi : i < w.length), epoch w i = w[i].t := fun {i} hi => by unfold epoch; simp [hi]
  rw [ej hj, ej hk]
  have hp := List.pairwise_iff_getElem.mp hw
  rcases Nat.lt_or_gt_of_ne h with h1 | h1
  · have := hp j k hj hk h1
    rw [abs_sub_comm, abs_of_nonneg (by linarith)]
    linarith
  · have := hp k j hk hj h1
    rw [abs_of_nonneg (by linarith)]
    linarith

theorem diff_sc {dd : ℝ → ℝ → ℝ} (hd : DayDifference dd) (a b : ℝ) : Sc 4 (|a - b| + 1) (dd a b) (a - b) := ⟨by linarith, hd a b⟩

theorem diff_gap {dd : ℝ → ℝ → ℝ} (hd : DayDifference dd) {a b : ℝ} (h : 1 ≤ |a - b|) : Sc 8 |a - b| (dd a b) (a - b) := by
  refine ⟨le_rfl, (hd a b).trans ?_⟩
  have := mul_le_mul_of_nonneg_left h u_pos.le
  nlinarith

theorem abs_foldl (n j : Nat) (f : Nat → ℝ) : |(List.range n).foldl (fun a k => if j ≠ k then a * f k else a) 1| =
    ∏ k ∈ Finset.range n, if j = k then 1 else |f k| := by
  induction n with
  | zero => simp
  | succ n ih =>
    rw [List.range_succ, List.foldl_append, Finset.prod_range_succ, ← ih]
    simp only [List.foldl_cons, List.foldl_nil]
    by_cases e : j = n
    · rw [if_neg (not_not_intro e), if_pos e, mul_one]
    · rw [if_pos e, if_neg e, abs_mul]

theorem lagSum_sc {fl : Rounded.Arith} {dd : ℝ → ℝ → ℝ} (hf : Faithful fl) (hd : DayDifference dd) {w : List (Rec ℝ)} (hw : Daily w) (hn : w.length ≤ 10)
    (t : ℝ) {q' q : Rec ℝ → ℝ} (hq : ∀ r ∈ w, Sc 1 |q r| (q' r) (q r)) : Sc 160 (spread w t q) (lagSum fl dd w t q') (Eop.lagSum w t q) := by
  have hn' : (w.length : ℝ) ≤ 10 := by exact_mod_cast hn
  have hn0 : (0 : ℝ) ≤ w.length := Nat.cast_nonneg _
  have term : ∀ j < w.length, Sc 145 (|(w[j]?.map q).getD 0| * ∏ k ∈ Finset.range w.length, if j = k then 1 else
      (|t - epoch w k| + 1) / |epoch w j - epoch w k|) (fl.pr j ((w[j]?.map q').getD 0 * fl (nom fl dd w t j / dom fl dd w j)))
      ((w[j]?.map q).getD 0 * (Eop.nom w t j / Eop.dom w j)) := by
    intro j hj
    have n := prod_sc hf j (fun k => dd t (epoch w k)) (fun k => t - epoch w k) (fun k => |t - epoch w k| + 1) (c := 4) (by norm_num) (by norm_num)
      w.length (by omega) (fun k _ _ => diff_sc hd t (epoch w k))
    have d := prod_sc hf j (fun k => dd (epoch w j) (epoch w k)) (fun k => epoch w j - epoch w k) (fun k => |epoch w j - epoch w k|) (c := 8)
      (by norm_num) (by norm_num) w.length (by omega) (fun k hk h => diff_gap hd (gap hw hj hk h))
    have ne : (List.range w.length).foldl (fun a k => if j ≠ k then a * (epoch w j - epoch w k) else a) 1 ≠ 0 := by
      rw [← abs_pos, abs_foldl]
      refine Finset.prod_pos fun k hk => ?_
      split
      · norm_num
      · next h => exact lt_of_lt_of_le one_pos (gap hw hj (by simpa using hk) h)
    have d2 := d.2
    rw [← abs_foldl] at d2
    have f := (n.div ne d2 (by positivity) (by linarith) (by positivity) (by linarith)).fl hf (by linarith)
    rw [abs_foldl, ← Finset.prod_div_distrib] at f
    have e : (∏ k ∈ Finset.range w.length, (if j = k then (1 : ℝ) else |t - epoch w k| + 1) / (if j = k then 1 else |epoch w j - epoch w k|)) =
        ∏ k ∈ Finset.range w.length, if j = k then 1 else (|t - epoch w k| + 1) / |epoch w j - epoch w k| := by
      refine Finset.prod_congr rfl fun k _ => ?_
      split <;> simp
    rw [e] at f
    have hq' : Sc 1 |(w[j]?.map q).getD 0| ((w[j]?.map q').getD 0) ((w[j]?.map q).getD 0) := by
      rw [List.getElem?_eq_getElem hj]
      exact hq _ (List.getElem_mem hj)
    refine ((hq'.mul f (by norm_num) (by norm_num) (by positivity) (by linarith)).pr hf j (by linarith)).mono (by linarith)
  rw [spread_range]
  exact (sum_sc hf _ _ _ (by norm_num) (by norm_num) w.length (by omega) term).mono (by linarith)

theorem lin_sc {fl : Rounded.Arith} {dd : ℝ → ℝ → ℝ} (hf : Faithful fl) (hd : DayDifference dd) {x0 x1 : Rec ℝ} (hw : Daily [x0, x1]) (t : ℝ)
    {q' q : Rec ℝ → ℝ} (hq : ∀ r ∈ [x0, x1], Sc 1 |q r| (q' r) (q r)) : Sc 160 (spread [x0, x1] t q) (lin fl dd x0 x1 t q') (Eop.lin x0 x1 t q) := by
  have h : x0.t + 1 ≤ x1.t := by
    unfold Daily at hw
    simpa using hw
  have g : 1 ≤ |x1.t - x0.t| := by rw [abs_of_nonneg (by linarith)]; linarith
  have ne : x1.t - x0.t ≠ 0 := by intro e; rw [e] at g; norm_num at g
  have d := (diff_gap hd g).2
  have a := ((hq x0 (by simp)).mul (((diff_sc hd x1.t t).div ne d (by norm_num) (by norm_num) (by norm_num) (by norm_num)).fl hf (by norm_num))
    (by norm_num) (by norm_num) (by norm_num) (by norm_num)).pr hf 0 (by norm_num)
  have b := ((hq x1 (by simp)).mul (((diff_sc hd t x0.t).div ne d (by norm_num) (by norm_num) (by norm_num) (by norm_num)).fl hf (by norm_num))
    (by norm_num) (by norm_num) (by norm_num) (by norm_num)).pr hf 1 (by norm_num)
  have s := ((a.add b).fl hf (by norm_num)).mono (l := 160) (by norm_num)
  have e : spread [x0, x1] t q = |q x0| * ((|x1.t - t| + 1) / |x1.t - x0.t|) + |q x1| * ((|t - x0.t| + 1) / |x1.t - x0.t|) := by
    rw [spread_range]
    simp [Finset.sum_range_succ, Finset.prod_range_succ, epoch]
    rw [abs_sub_comm t x1.t, abs_sub_comm x0.t x1.t]
    exact .inl rfl
  rw [e]
  exact s

end Verif.RoundedEop
