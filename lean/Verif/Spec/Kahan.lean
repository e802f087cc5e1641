import Verif.Model.Kahan
import Mathlib.Algebra.Order.Field.Power
import Mathlib.Algebra.BigOperators.Group.List.Basic
/-
Binary floating-point numbers with `p` bits and no exponent limits, and rounding to nearest.
-/
namespace Verif.Kahan

/-- Numbers `m * 2^e` with `|m| < 2^p`. -/
def IsFloat (p : ℕ) (x : ℚ) : Prop := ∃ m e : ℤ, |m| < 2 ^ p ∧ x = m * (2 : ℚ) ^ e

/-- `fl` rounds to a nearest floating-point number (any tie-breaking rule). -/
structure RoundNearest (p : ℕ) (fl : ℚ → ℚ) : Prop where
  isFloat : ∀ x, IsFloat p (fl x)
  nearest : ∀ x y, IsFloat p y → |fl x - x| ≤ |y - x|

/-- Running values of the plain rounded sum: `s₀, fl (s₀ + v₁), fl (fl (s₀ + v₁) + v₂), ...`. -/
def partials (fl : ℚ → ℚ) (s : ℚ) : List ℚ → List ℚ
  | [] => []
  | v :: vs => fl (s + v) :: partials fl (fl (s + v)) vs

/-- The rounding errors of the plain rounded sum: what each addition lost, exactly. -/
def losses (fl : ℚ → ℚ) (s : ℚ) : List ℚ → List ℚ
  | [] => []
  | v :: vs => (s + v - fl (s + v)) :: losses fl (fl (s + v)) vs

/-- The plain rounded sum of a list. -/
def roundedSum (fl : ℚ → ℚ) (s : ℚ) (vs : List ℚ) : ℚ := vs.foldl (fun a v => fl (a + v)) s

end Verif.Kahan
