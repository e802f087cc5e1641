import Mathlib.Analysis.SpecialFunctions.Trigonometric.Basic
import Mathlib.Algebra.Order.Field.Power
import Verif.Model.Arith
/-
Double precision numbers, rounding to nearest and closeness of angles.
-/
namespace Verif.Rounding

/-- Numbers with a mantissa of 53 bits; the range of exponents is not limited. -/
def IsDouble (x : ℝ) : Prop := ∃ m e : ℤ, |m| < 2 ^ 53 ∧ x = m * (2 : ℝ) ^ e

/-- `fl` rounds to a nearest double; ties may go either way. -/
structure Rounds (fl : ℝ → ℝ) : Prop where
  isDouble : ∀ x, IsDouble (fl x)
  nearest : ∀ x y, IsDouble y → |fl x - x| ≤ |y - x|

/-- Arithmetic that rounds to nearest, whichever products are fused with the sums they go into. -/
structure Faithful (fl : Rounded.Arith) : Prop extends Rounds fl.rd where
  fused : ∀ k x, fl.pr k x = fl.rd x ∨ fl.pr k x = x

/-- Half a unit in the last place of 1. -/
noncomputable def u : ℝ := 1 / 2 ^ 53

/-- Two angles agree up to `ε`, whole turns apart. -/
def Near (ε x y : ℝ) : Prop := ∃ k : ℤ, |x - y - 2 * Real.pi * k| ≤ ε

/-- A conversion of arcseconds to radians that is accurate to a few units in the last place, however it is coded. -/
def SecToRad (s2r : ℝ → ℝ) : Prop := ∀ x, |s2r x - x * (2 * Real.pi / 1296000)| ≤ 4 * u * |x * (2 * Real.pi / 1296000)|

/-- Sine and cosine of the C library: accurate to one unit in the last place of 1. -/
structure Trig (fsin fcos : ℝ → ℝ) : Prop where
  sin : ∀ x, |fsin x - Real.sin x| ≤ 2 * u
  cos : ∀ x, |fcos x - Real.cos x| ≤ 2 * u

end Verif.Rounding
