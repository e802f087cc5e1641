import Verif.Spec.Legendre
import Mathlib.Tactic.Ring
import Mathlib.Tactic.NormNum
/-
Legendre polynomials of degrees 2 and 3.
-/
namespace Verif.Legendre
open Polynomial

theorem P2_eq : P 2 = C (3 / 2) * X ^ 2 - C (1 / 2) * X ^ 0 := by
  unfold P
  rw [show (X ^ 2 - 1 : ℝ[X]) ^ 2 = C 1 * X ^ 4 - C 2 * X ^ 2 + C 1 * X ^ 0 from by simp only [map_one, map_ofNat]; ring]
  simp only [Function.iterate_succ, Function.iterate_zero, Function.comp, id, derivative_add, derivative_sub, derivative_C_mul_X_pow, mul_add, mul_sub, ← mul_assoc, ← C_mul]
  norm_num [Nat.factorial]

theorem P3_eq : P 3 = C (5 / 2) * X ^ 3 - C (3 / 2) * X ^ 1 := by
  unfold P
  rw [show (X ^ 2 - 1 : ℝ[X]) ^ 3 = C 1 * X ^ 6 - C 3 * X ^ 4 + C 3 * X ^ 2 - C 1 * X ^ 0 from by simp only [map_one, map_ofNat]; ring]
  simp only [Function.iterate_succ, Function.iterate_zero, Function.comp, id, derivative_add, derivative_sub, derivative_C_mul_X_pow, mul_add, mul_sub, ← mul_assoc, ← C_mul]
  norm_num [Nat.factorial]

theorem assoc20 (t : ℝ) : assoc 2 0 t = (3 * t ^ 2 - 1) / 2 := by
  simp only [assoc, P2_eq, Function.iterate_zero, id]
  simp
  ring

theorem assoc21 (t : ℝ) : assoc 2 1 t = Real.sqrt (1 - t ^ 2) * (3 * t) := by
  simp only [assoc, P2_eq, Function.iterate_succ, Function.iterate_zero, Function.comp, id, derivative_sub, derivative_C_mul_X_pow]
  simp

theorem assoc22 (t : ℝ) : assoc 2 2 t = Real.sqrt (1 - t ^ 2) ^ 2 * 3 := by
  simp only [assoc, P2_eq, Function.iterate_succ, Function.iterate_zero, Function.comp, id, derivative_sub, derivative_C_mul_X_pow]
  simp

theorem assoc30 (t : ℝ) : assoc 3 0 t = (5 * t ^ 3 - 3 * t) / 2 := by
  simp only [assoc, P3_eq, Function.iterate_zero, id]
  simp
  ring

theorem assoc31 (t : ℝ) : assoc 3 1 t = Real.sqrt (1 - t ^ 2) * ((15 * t ^ 2 - 3) / 2) := by
  simp only [assoc, P3_eq, Function.iterate_succ, Function.iterate_zero, Function.comp, id, derivative_sub, derivative_C_mul_X_pow]
  simp
  left
  ring

theorem assoc32 (t : ℝ) : assoc 3 2 t = Real.sqrt (1 - t ^ 2) ^ 2 * (15 * t) := by
  simp only [assoc, P3_eq, Function.iterate_succ, Function.iterate_zero, Function.comp, id, derivative_sub, derivative_C_mul_X_pow]
  simp
  left
  norm_num

theorem assoc33 (t : ℝ) : assoc 3 3 t = Real.sqrt (1 - t ^ 2) ^ 3 * 15 := by
  simp only [assoc, P3_eq, Function.iterate_succ, Function.iterate_zero, Function.comp, id, derivative_sub, derivative_C_mul_X_pow]
  simp
  left
  norm_num

theorem N20 : N 2 0 = Real.sqrt 5 := by norm_num [N, Nat.factorial]
theorem N21 : N 2 1 = Real.sqrt (5 / 3) := by norm_num [N, Nat.factorial]
theorem N22 : N 2 2 = Real.sqrt (5 / 12) := by norm_num [N, Nat.factorial]
theorem N30 : N 3 0 = Real.sqrt 7 := by norm_num [N, Nat.factorial]
theorem N31 : N 3 1 = Real.sqrt (7 / 6) := by norm_num [N, Nat.factorial]
theorem N32 : N 3 2 = Real.sqrt (7 / 60) := by norm_num [N, Nat.factorial]
theorem N33 : N 3 3 = Real.sqrt (14 / 720) := by norm_num [N, Nat.factorial]

end Verif.Legendre
