import Verif.Proof.Legendre
import Mathlib.Tactic.Positivity
/-
The normalisation factors, and recursions of normalised functions.
-/
namespace Verif.Legendre

theorem sq_inj {a b : ℝ} (ha : 0 ≤ a) (hb : 0 ≤ b) (h : a ^ 2 = b ^ 2) : a = b := by
  have := congrArg Real.sqrt h
  rwa [Real.sqrt_sq ha, Real.sqrt_sq hb] at this

/-- 2 - δ. -/
noncomputable def eps (m : ℕ) : ℝ := if m = 0 then 1 else 2

theorem eps_pos (m : ℕ) : 0 < eps m := by unfold eps; split_ifs <;> norm_num

theorem N_sq (m k : ℕ) : N (m + k) m ^ 2 = eps m * (2 * (m + k) + 1) * k.factorial / (2 * m + k).factorial := by
  unfold N
  rw [Real.sq_sqrt]
  · rw [Nat.add_sub_cancel_left, show m + k + m = 2 * m + k from by ring]
    push_cast
    rfl
  · have := eps_pos m
    unfold eps at this
    positivity

theorem N_nonneg (n m : ℕ) : 0 ≤ N n m := Real.sqrt_nonneg _

theorem N_00 : N 0 0 = 1 := by unfold N; simp

/-- Column factor, neighbours. -/
theorem N_step (m k : ℕ) : N (m + (k + 1)) m * (2 * (m + k) + 1) =
    (k + 1) * Real.sqrt (((2 * (m + k) + 1) * (2 * (m + k) + 3)) / ((k + 1) * (2 * m + k + 1))) * N (m + k) m := by
  apply sq_inj
  · have := N_nonneg (m + (k + 1)) m; positivity
  · have := N_nonneg (m + k) m; positivity
  · rw [mul_pow, mul_pow, mul_pow, N_sq, N_sq, Real.sq_sqrt (by positivity), show 2 * m + (k + 1) = (2 * m + k) + 1 from by ring, Nat.factorial_succ, Nat.factorial_succ]
    have := eps_pos m
    push_cast
    field_simp
    ring

/-- Column factor, next but one. -/
theorem N_step2 (m k : ℕ) : N (m + (k + 2)) m * (2 * m + k + 1) =
    (k + 2) * Real.sqrt (((2 * (m + k) + 5) * (2 * m + k + 1) * (k + 1)) / ((k + 2) * (2 * m + k + 2) * (2 * (m + k) + 1))) * N (m + k) m := by
  apply sq_inj
  · have := N_nonneg (m + (k + 2)) m; positivity
  · have := N_nonneg (m + k) m; positivity
  · rw [mul_pow, mul_pow, mul_pow, N_sq, N_sq, Real.sq_sqrt (by positivity), show 2 * m + (k + 2) = (2 * m + k) + 1 + 1 from by ring, Nat.factorial_succ, Nat.factorial_succ,
      Nat.factorial_succ, Nat.factorial_succ]
    have := eps_pos m
    push_cast
    field_simp
    ring

/-- Diagonal factor. -/
theorem N_diag (m : ℕ) (h : 0 < m) : N (m + 1) (m + 1) * (2 * m + 1) = Real.sqrt ((2 * m + 3) / (2 * m + 2)) * N m m := by
  have e1 := N_sq (m + 1) 0
  have e0 := N_sq m 0
  simp only [add_zero] at e1 e0
  apply sq_inj
  · have := N_nonneg (m + 1) (m + 1); positivity
  · have := N_nonneg m m; positivity
  · rw [mul_pow, mul_pow, e1, e0, Real.sq_sqrt (by positivity), show 2 * (m + 1) = (2 * m + 1) + 1 from by ring, Nat.factorial_succ, Nat.factorial_succ]
    have a1 : eps (m + 1) = 2 := if_neg (by omega)
    have a0 : eps m = 2 := if_neg (by omega)
    rw [a1, a0]
    push_cast
    field_simp
    ring

theorem N_11 : N 1 1 = Real.sqrt 3 := by
  unfold N
  norm_num [Nat.factorial]

/-- The normalised functions without the factor (1 - t²)^(m/2). -/
noncomputable def Q (n m : ℕ) (t : ℝ) : ℝ := N n m * (q n m).eval t

open Polynomial in
theorem ev_three (n m : ℕ) (t : ℝ) : ((n : ℝ) - m + 2) * (q (n + 2) m).eval t = (2 * n + 3) * (t * (q (n + 1) m).eval t) - (n + m + 1) * (q n m).eval t := by
  have := congrArg (eval t) (q_three n m)
  simpa using this

open Polynomial in
theorem ev_diag (m : ℕ) (t : ℝ) : (q (m + 1) (m + 1)).eval t = (2 * m + 1) * (q m m).eval t := by
  have := congrArg (eval t) (q_diag m)
  simpa using this

open Polynomial in
theorem ev_subdiag (m : ℕ) (t : ℝ) : (q (m + 1) m).eval t = (2 * m + 1) * (t * (q m m).eval t) := by
  have := congrArg (eval t) (q_subdiag m)
  simpa using this

open Polynomial in
theorem ev_up (n m : ℕ) (t : ℝ) : (q (n + 1) (m + 1)).eval t = (n + m + 1) * (q n m).eval t + t * (q n (m + 1)).eval t := by
  have := congrArg (eval t) (q_up n m)
  simpa using this

open Polynomial in
theorem ev_next (n m : ℕ) (t : ℝ) : ((n : ℝ) - m + 1) * (q (n + 1) m).eval t = (n + m + 1) * (t * (q n m).eval t) - (1 - t ^ 2) * (q n (m + 1)).eval t := by
  have := congrArg (eval t) (q_next n m)
  simpa using this

open Polynomial in
theorem ev_deriv (n m : ℕ) (t : ℝ) : (1 - t ^ 2) * (q (n + 1) (m + 1)).eval t = (n + m + 1) * (q n m).eval t - (n - m + 1) * (t * (q (n + 1) m).eval t) := by
  have := congrArg (eval t) (q_deriv n m)
  simpa using this

open Polynomial in
theorem ev_down (n m : ℕ) (t : ℝ) : ((n : ℝ) - m) * (n - m + 1) * (q (n + 1) m).eval t = 2 * (m + 1) * (q n (m + 1)).eval t - (1 - t ^ 2) * (q (n + 1) (m + 2)).eval t := by
  have := congrArg (eval t) (q_down n m)
  simpa using this

theorem ev_00 (t : ℝ) : (q 0 0).eval t = 1 := by rw [q_00]; simp

/-- Column recursion. -/
theorem Q_three (m k : ℕ) (t : ℝ) : Q (m + (k + 2)) m t =
    Real.sqrt (((2 * (m + k) + 3) * (2 * (m + k) + 5)) / ((k + 2) * (2 * m + k + 2))) * t * Q (m + (k + 1)) m t -
    Real.sqrt (((2 * (m + k) + 5) * (2 * m + k + 1) * (k + 1)) / ((k + 2) * (2 * m + k + 2) * (2 * (m + k) + 1))) * Q (m + k) m t := by
  have h := ev_three (m + k) m t
  have h1 := N_step m (k + 1)
  have h2 := N_step2 m k
  push_cast at h h1 h2
  rw [show m + k + 2 = m + (k + 2) from by ring, show m + k + 1 = m + (k + 1) from by ring] at h
  rw [show m + (k + 1 + 1) = m + (k + 2) from by ring, show ((2 * (m + (k + 1)) + 1 : ℝ)) = 2 * (m + k) + 3 from by ring,
    show ((2 * (m + (k + 1)) + 3 : ℝ)) = 2 * (m + k) + 5 from by ring, show (k + 1 + 1 : ℝ) = k + 2 from by ring,
    show (2 * m + (k + 1) + 1 : ℝ) = 2 * m + k + 2 from by ring] at h1
  unfold Q
  generalize Real.sqrt _ = a at *
  generalize Real.sqrt _ = b at *
  have hk : (k : ℝ) + 2 ≠ 0 := by positivity
  apply mul_left_cancel₀ hk
  linear_combination N (m + (k + 2)) m * h + t * (q (m + (k + 1)) m).eval t * h1 - (q (m + k) m).eval t * h2

theorem Q_subdiag (m : ℕ) (t : ℝ) : Q (m + 1) m t = Real.sqrt (((2 * m + 1) * (2 * m + 3)) / (2 * m + 1)) * t * Q m m t := by
  have h := ev_subdiag m t
  have h1 := N_step m 0
  push_cast at h1
  simp only [zero_add, add_zero, one_mul] at h1
  unfold Q
  rw [h]
  linear_combination t * (q m m).eval t * h1

theorem Q_diag (m : ℕ) (hm : 0 < m) (t : ℝ) : Q (m + 1) (m + 1) t = Real.sqrt ((2 * m + 3) / (2 * m + 2)) * Q m m t := by
  unfold Q
  rw [ev_diag]
  linear_combination (q m m).eval t * N_diag m hm

theorem Q_00 (t : ℝ) : Q 0 0 t = 1 := by unfold Q; rw [N_00, ev_00, one_mul]

theorem Q_11 (t : ℝ) : Q 1 1 t = Real.sqrt 3 := by
  unfold Q
  have h := ev_diag 0 t
  rw [ev_00] at h
  simp only [zero_add, Nat.cast_zero, mul_zero, mul_one] at h
  rw [N_11, h, mul_one]

theorem Pbar_eq (n m : ℕ) (t : ℝ) : Pbar n m t = Real.sqrt (1 - t ^ 2) ^ m * Q n m t := by
  unfold Pbar assoc Q q
  ring

end Verif.Legendre
