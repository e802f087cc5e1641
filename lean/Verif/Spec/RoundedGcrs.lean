import Verif.Spec.Rounding
import Verif.Model.Quat
import Mathlib.Analysis.SpecialFunctions.Trigonometric.Arctan
import Mathlib.Analysis.SpecialFunctions.Complex.Arg
/-
Accuracy of the inverse trigonometric functions of the C library and of products of quaternions.
-/
namespace Verif.Rounding
open Verif

/-- `atan` and `atan2` of the C library are accurate to one unit in the last place of their largest values. For `atan2` whole turns do not
matter: for a negative zero it gives -π where the exact function has π. -/
structure InverseTrig (fatan : ℝ → ℝ) (fatan2 : ℝ → ℝ → ℝ) : Prop where
  atan : ∀ x, |fatan x - Real.arctan x| ≤ 2 * u
  atan2 : ∀ y x, Near (4 * u) (fatan2 y x) (Complex.arg ⟨x, y⟩)
  range : ∀ y x, |fatan2 y x| ≤ 4

/-- A product of quaternions with a few rounding errors in each component, in whatever order the four products are added. -/
structure QuatMul (qmul : Quat → Quat → Quat) : Prop where
  w : ∀ a b : Quat, |(qmul a b).w - (a * b).w| ≤ 5 * u * (|a.w * b.w| + |a.x * b.x| + |a.y * b.y| + |a.z * b.z|)
  x : ∀ a b : Quat, |(qmul a b).x - (a * b).x| ≤ 5 * u * (|a.w * b.x| + |a.x * b.w| + |a.y * b.z| + |a.z * b.y|)
  y : ∀ a b : Quat, |(qmul a b).y - (a * b).y| ≤ 5 * u * (|a.w * b.y| + |a.y * b.w| + |a.z * b.x| + |a.x * b.z|)
  z : ∀ a b : Quat, |(qmul a b).z - (a * b).z| ≤ 5 * u * (|a.w * b.z| + |a.z * b.w| + |a.x * b.y| + |a.y * b.x|)

/-- The entries of two matrices agree up to `ε`. -/
def Close (ε : ℝ) (a b : M3) : Prop :=
  |a.xx - b.xx| ≤ ε ∧ |a.xy - b.xy| ≤ ε ∧ |a.xz - b.xz| ≤ ε ∧ |a.yx - b.yx| ≤ ε ∧ |a.yy - b.yy| ≤ ε ∧ |a.yz - b.yz| ≤ ε ∧
    |a.zx - b.zx| ≤ ε ∧ |a.zy - b.zy| ≤ ε ∧ |a.zz - b.zz| ≤ ε

end Verif.Rounding
