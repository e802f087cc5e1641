import Verif.Spec.Rounding
import Verif.Model.Vec
/-
Accuracy of a sum of three squares.
-/
namespace Verif.Rounding
open Verif

/-- A sum of three squares with the rounding errors of three products and two sums, in whatever order it is formed. -/
def SumOfSquares (sq : V3 → ℝ) : Prop := ∀ v : V3, |sq v - (v.x ^ 2 + v.y ^ 2 + v.z ^ 2)| ≤ 4 * u * (v.x ^ 2 + v.y ^ 2 + v.z ^ 2)

end Verif.Rounding
