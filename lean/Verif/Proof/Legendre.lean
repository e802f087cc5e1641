import Verif.Spec.Legendre
import Mathlib.Tactic.Ring
import Mathlib.Tactic.LinearCombination
import Mathlib.Tactic.NormNum
import Mathlib.Tactic.FieldSimp
import Mathlib.Algebra.Polynomial.Eval.SMul
/-
Relations between the derivatives of Legendre polynomials, from Rodrigues' formula.
-/
namespace Verif.Legendre
open Polynomial

/-- The `m`-th derivative of `P n`. -/
noncomputable def q (n m : ℕ) : ℝ[X] := derivative^[m] (P n)

theorem q_succ (n m : ℕ) : q n (m + 1) = derivative (q n m) := by
  unfold q
  rw [Function.iterate_succ_apply']

theorem q_zero (n : ℕ) : q n 0 = P n := rfl

/-- Repeated derivative of a product with `X`. -/
theorem iter_X_mul (f : ℝ[X]) : ∀ k : ℕ, derivative^[k + 1] (X * f) = X * derivative^[k + 1] f + ((k : ℝ[X]) + 1) * derivative^[k] f
  | 0 => by simp only [zero_add, Function.iterate_one, Function.iterate_zero, id, derivative_mul, derivative_X]; simp; ring
  | k + 1 => by
    rw [Function.iterate_succ_apply', iter_X_mul f k]
    simp only [Function.iterate_succ_apply', derivative_add, derivative_mul, derivative_X, derivative_natCast, derivative_one]
    push_cast
    ring

theorem iter_sq_mul (f : ℝ[X]) : ∀ k : ℕ, derivative^[k + 2] ((X ^ 2 - 1) * f) =
    (X ^ 2 - 1) * derivative^[k + 2] f + 2 * ((k : ℝ[X]) + 2) * (X * derivative^[k + 1] f) + ((k : ℝ[X]) + 2) * ((k : ℝ[X]) + 1) * derivative^[k] f
  | 0 => by
    simp only [zero_add, Function.iterate_succ, Function.iterate_zero, Function.comp, id, derivative_mul, derivative_add, derivative_sub, derivative_one, derivative_X_pow]
    simp
    simp only [map_ofNat]
    ring
  | k + 1 => by
    rw [show k + 1 + 2 = (k + 2) + 1 from rfl, Function.iterate_succ_apply', iter_sq_mul f k]
    simp only [Function.iterate_succ_apply', derivative_add, derivative_sub, derivative_mul, derivative_X, derivative_X_pow, derivative_natCast, derivative_one,
      derivative_ofNat]
    push_cast
    simp
    simp only [map_ofNat]
    ring

/-- `u^n` with `u = X² - 1`, differentiated `k` times. -/
noncomputable def du (n k : ℕ) : ℝ[X] := derivative^[k] ((X ^ 2 - 1 : ℝ[X]) ^ n)

theorem du_succ (n k : ℕ) : du n (k + 1) = derivative (du n k) := by unfold du; rw [Function.iterate_succ_apply']

theorem deriv_u (n : ℕ) : derivative ((X ^ 2 - 1 : ℝ[X]) ^ (n + 1)) = (2 * ((n : ℝ[X]) + 1)) * (X * (X ^ 2 - 1) ^ n) := by
  rw [derivative_pow]
  simp
  ring

theorem iter_const (c : ℕ) (f : ℝ[X]) (k : ℕ) : derivative^[k] ((c : ℝ[X]) * f) = (c : ℝ[X]) * derivative^[k] f := by
  rw [iterate_derivative_natCast_mul]

theorem du_shift (n k : ℕ) : du (n + 1) (k + 2) = 2 * ((n : ℝ[X]) + 1) * (X * du n (k + 1) + ((k : ℝ[X]) + 1) * du n k) := by
  unfold du
  rw [show k + 2 = (k + 1) + 1 from rfl, Function.iterate_succ_apply, deriv_u]
  have : (2 * ((n : ℝ[X]) + 1)) * (X * (X ^ 2 - 1) ^ n) = ((2 * (n + 1) : ℕ) : ℝ[X]) * (X * (X ^ 2 - 1) ^ n) := by push_cast; ring
  rw [this, iter_const, iter_X_mul]
  push_cast
  ring

theorem P_du (n : ℕ) : C (2 ^ n * n.factorial : ℝ) * P n = du n n := by
  unfold P du
  rw [← mul_assoc, ← C_mul]
  have : (2 ^ n * n.factorial : ℝ) ≠ 0 := by positivity
  rw [mul_one_div_cancel this, C_1, one_mul]

theorem q_du (n m : ℕ) : C (2 ^ n * n.factorial : ℝ) * q n m = du n (n + m) := by
  induction m with
  | zero => exact P_du n
  | succ m ih =>
    rw [q_succ, ← add_assoc, du_succ, ← ih, derivative_C_mul]

theorem cfac (n : ℕ) : C (2 ^ (n + 1) * (n + 1).factorial : ℝ) = 2 * ((n : ℝ[X]) + 1) * C (2 ^ n * n.factorial : ℝ) := by
  rw [Nat.factorial_succ, pow_succ]
  push_cast
  simp only [map_mul, map_add, map_pow, map_natCast, map_ofNat, map_one]
  ring

theorem c_ne (n : ℕ) : C (2 ^ n * n.factorial : ℝ) ≠ 0 := by
  rw [Ne, C_eq_zero]; positivity

theorem two_ne (n : ℕ) : (2 * ((n : ℝ[X]) + 1)) ≠ 0 := by
  have : (2 * ((n : ℝ[X]) + 1)) = C (2 * (n + 1) : ℝ) := by simp only [map_mul, map_add, map_natCast, map_ofNat, map_one]
  rw [this, Ne, C_eq_zero]; positivity

/-- P'_{n+1} = (n+1) P_n + X P'_n, differentiated `m` times. -/
theorem q_up (n m : ℕ) : q (n + 1) (m + 1) = ((n : ℝ[X]) + (m : ℝ[X]) + 1) * q n m + X * q n (m + 1) := by
  have h := q_du (n + 1) (m + 1)
  rw [show n + 1 + (m + 1) = (n + m) + 2 from by ring, du_shift, show n + m + 1 = n + (m + 1) from rfl, ← q_du, ← q_du, cfac] at h
  push_cast at h
  have hne := mul_ne_zero (two_ne n) (c_ne n)
  apply mul_left_cancel₀ hne
  rw [h]
  ring

/-- u D^{n+1} u^n = n (n+1) D^{n-1} u^n. -/
theorem du_low (n : ℕ) : (X ^ 2 - 1) * du (n + 1) (n + 2) = ((n : ℝ[X]) + 1) * ((n : ℝ[X]) + 2) * du (n + 1) n := by
  have e : (X ^ 2 - 1) * derivative ((X ^ 2 - 1 : ℝ[X]) ^ (n + 1)) = ((2 * (n + 1) : ℕ) : ℝ[X]) * (X * (X ^ 2 - 1) ^ (n + 1)) := by
    rw [deriv_u]; push_cast; ring
  have h := congrArg (fun f => derivative^[n + 1] f) e
  rw [iter_const, iter_X_mul] at h
  have g : derivative^[n + 1] ((X ^ 2 - 1) * derivative ((X ^ 2 - 1 : ℝ[X]) ^ (n + 1))) =
      (X ^ 2 - 1) * du (n + 1) (n + 2) + 2 * ((n : ℝ[X]) + 1) * (X * du (n + 1) (n + 1)) + ((n : ℝ[X]) + 1) * (n : ℝ[X]) * du (n + 1) n := by
    cases n with
    | zero =>
      simp only [du, zero_add, Function.iterate_succ, Function.iterate_zero, Function.comp, id, derivative_mul, derivative_sub, derivative_one, derivative_X_pow]
      simp
      simp only [map_ofNat]
      ring
    | succ k =>
      rw [show k + 1 + 1 = k + 2 from rfl, iter_sq_mul]
      have e : ∀ j, derivative^[j] (derivative ((X ^ 2 - 1 : ℝ[X]) ^ (k + 2))) = du (k + 2) (j + 1) := by
        intro j; unfold du; rw [Function.iterate_succ_apply]
      rw [e, e, e]
      push_cast
      ring
  rw [g] at h
  have e1 : derivative^[n + 1] ((X ^ 2 - 1 : ℝ[X]) ^ (n + 1)) = du (n + 1) (n + 1) := rfl
  have e2 : derivative^[n] ((X ^ 2 - 1 : ℝ[X]) ^ (n + 1)) = du (n + 1) n := rfl
  rw [e1, e2] at h
  push_cast at h
  linear_combination h

/-- (n+1) P_{n+1} = (n+1) X P_n - (1 - X²) P'_n. -/
theorem P_next (n : ℕ) : ((n : ℝ[X]) + 1) * P (n + 1) = ((n : ℝ[X]) + 1) * (X * P n) - (1 - X ^ 2) * q n 1 := by
  cases n with
  | zero =>
    have h0 : P 0 = 1 := by unfold P; simp
    have h1 : P 1 = X := by
      unfold P
      rw [show (X ^ 2 - 1 : ℝ[X]) ^ 1 = X ^ 2 - 1 from pow_one _]
      simp only [Function.iterate_one, derivative_sub, derivative_one, derivative_X_pow]
      simp
      rw [← mul_assoc]
      rw [← C_mul]
      norm_num
    have h2 : q 0 1 = 0 := by unfold q; rw [h0]; simp
    simp only [zero_add]
    rw [h0, h1, h2]; ring
  | succ n =>
    have h1 : du (n + 2) (n + 2) = (X ^ 2 - 1) * du (n + 1) (n + 2) + 2 * ((n : ℝ[X]) + 2) * (X * du (n + 1) (n + 1)) + ((n : ℝ[X]) + 2) * ((n : ℝ[X]) + 1) * du (n + 1) n := by
      conv_lhs => unfold du
      rw [pow_succ' _ (n + 1), iter_sq_mul]
      rfl
    have h2 := du_low n
    have hp := q_du (n + 2) 0
    have hq0 := q_du (n + 1) 0
    have hq1 := q_du (n + 1) 1
    simp only [add_zero, q_zero] at hp hq0
    rw [show n + 1 + 1 = n + 2 from rfl] at hq1
    have hc : C (2 ^ (n + 2) * (n + 2).factorial : ℝ) = 2 * ((n : ℝ[X]) + 2) * C (2 ^ (n + 1) * (n + 1).factorial : ℝ) := by
      rw [cfac (n + 1)]; push_cast; ring
    rw [hc] at hp
    have hne := mul_ne_zero (two_ne n) (c_ne (n + 1))
    apply mul_left_cancel₀ (c_ne (n + 1))
    have two : (2 : ℝ[X]) ≠ 0 := by
      rw [show (2 : ℝ[X]) = C 2 from (map_ofNat C 2).symm, Ne, C_eq_zero]; norm_num
    apply mul_left_cancel₀ two
    push_cast
    rw [show n + 1 + 1 = n + 2 from rfl]
    linear_combination hp + h1 - h2 - 2 * (n + 2 : ℝ[X]) * X * hq0 - 2 * (X ^ 2 - 1) * hq1

/-- (n - m + 1) q(n+1, m) = (n + m + 1) X q(n, m) - (1 - X²) q(n, m+1). -/
theorem q_next (n m : ℕ) : ((n : ℝ[X]) - (m : ℝ[X]) + 1) * q (n + 1) m = ((n : ℝ[X]) + (m : ℝ[X]) + 1) * (X * q n m) - (1 - X ^ 2) * q n (m + 1) := by
  induction m with
  | zero => have := P_next n; simp only [q_zero, Nat.cast_zero, sub_zero, add_zero, zero_add]; exact this
  | succ m ih =>
    have h := congrArg derivative ih
    simp only [derivative_mul, derivative_add, derivative_sub, derivative_X, derivative_natCast, derivative_one, derivative_X_pow, ← q_succ] at h
    simp at h
    simp only [map_ofNat] at h
    have b := q_up n m
    push_cast
    linear_combination h - b

/-- (1 - X²) q(n+1, m+1) = (n + m + 1) q(n, m) - (n - m + 1) X q(n+1, m). -/
theorem q_deriv (n m : ℕ) : (1 - X ^ 2) * q (n + 1) (m + 1) = ((n : ℝ[X]) + (m : ℝ[X]) + 1) * q n m - ((n : ℝ[X]) - (m : ℝ[X]) + 1) * (X * q (n + 1) m) := by
  have a := q_next n m
  have b := q_up n m
  linear_combination (1 - X ^ 2) * b + X * a

/-- Three terms of a column. -/
theorem q_three (n m : ℕ) : ((n : ℝ[X]) - (m : ℝ[X]) + 2) * q (n + 2) m = (2 * (n : ℝ[X]) + 3) * (X * q (n + 1) m) - ((n : ℝ[X]) + (m : ℝ[X]) + 1) * q n m := by
  have a := q_next (n + 1) m
  have d := q_deriv n m
  push_cast at a
  linear_combination a - d

/-- (n - m)(n - m + 1) q(n+1, m) = 2 (m+1) q(n, m+1) - (1 - X²) q(n+1, m+2). -/
theorem q_down (n m : ℕ) : ((n : ℝ[X]) - (m : ℝ[X])) * ((n : ℝ[X]) - (m : ℝ[X]) + 1) * q (n + 1) m = 2 * ((m : ℝ[X]) + 1) * q n (m + 1) - (1 - X ^ 2) * q (n + 1) (m + 2) := by
  have a := q_next n m
  have d := q_deriv n (m + 1)
  have b := q_up n m
  push_cast at d
  linear_combination ((n : ℝ[X]) - (m : ℝ[X])) * a + d - ((n : ℝ[X]) - (m : ℝ[X])) * X * b

theorem q_diag_zero (n : ℕ) : q n (n + 1) = 0 := by
  have h := q_du n (n + 1)
  have : du n (n + (n + 1)) = 0 := by
    unfold du
    apply iterate_derivative_eq_zero
    calc ((X ^ 2 - 1 : ℝ[X]) ^ n).natDegree ≤ n * (X ^ 2 - 1 : ℝ[X]).natDegree := natDegree_pow_le
      _ ≤ n * 2 := by
        apply Nat.mul_le_mul_left
        refine le_trans (natDegree_sub_le _ _) ?_
        simp
      _ < n + (n + 1) := by omega
  rw [this] at h
  exact (mul_eq_zero.mp h).resolve_left (c_ne n)

/-- The diagonal: q(m+1, m+1) = (2m + 1) q(m, m). -/
theorem q_diag (m : ℕ) : q (m + 1) (m + 1) = (2 * (m : ℝ[X]) + 1) * q m m := by
  rw [q_up, q_diag_zero]; ring

/-- Next to the diagonal: q(m+1, m) = (2m + 1) X q(m, m). -/
theorem q_subdiag (m : ℕ) : q (m + 1) m = (2 * (m : ℝ[X]) + 1) * (X * q m m) := by
  have := q_next m m
  rw [q_diag_zero] at this
  linear_combination this

theorem q_00 : q 0 0 = 1 := by unfold q P; simp

end Verif.Legendre
