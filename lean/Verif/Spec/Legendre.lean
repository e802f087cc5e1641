import Mathlib.Algebra.Polynomial.Derivative
import Mathlib.Data.Nat.Factorial.Basic
import Mathlib.Analysis.Real.Sqrt
/-
Legendre polynomials and fully normalised associated Legendre functions, as in textbooks.
-/
namespace Verif.Legendre
open Polynomial

/-- Rodrigues: `P_n = 1 / (2^n n!) d^n/dX^n (X² - 1)^n`. -/
noncomputable def P (n : ℕ) : ℝ[X] := C (1 / (2 ^ n * n.factorial) : ℝ) * derivative^[n] ((X ^ 2 - 1 : ℝ[X]) ^ n)

/-- The normalisation factor: √((2 - δ_m0)(2n + 1)(n - m)!/(n + m)!). -/
noncomputable def N (n m : ℕ) : ℝ :=
  Real.sqrt ((if m = 0 then 1 else 2) * (2 * n + 1) * (n - m).factorial / (n + m).factorial)

/-- The associated function without the Condon-Shortley phase: (1 - t²)^(m/2) d^m P_n / dt^m. -/
noncomputable def assoc (n m : ℕ) (t : ℝ) : ℝ := Real.sqrt (1 - t ^ 2) ^ m * (derivative^[m] (P n)).eval t

/-- The fully normalised one. -/
noncomputable def Pbar (n m : ℕ) (t : ℝ) : ℝ := N n m * assoc n m t

end Verif.Legendre
