import Verif.Spec.Rounding
import Verif.Model.Mat3
/-
Accuracy of products of 3 by 3 matrices.
-/
namespace Verif.Rounding
open Verif

/-- Three products added in any order, with a rounding error for each operation. -/
def Dot3 (r x y z : ℝ) : Prop := |r - (x + y + z)| ≤ 4 * u * (|x| + |y| + |z|)

/-- A product of matrices with a few rounding errors in each entry, in whatever order the three products are added. -/
def MatMul (mmul : M3 → M3 → M3) : Prop := ∀ a b : M3,
  Dot3 (mmul a b).xx (a.xx * b.xx) (a.xy * b.yx) (a.xz * b.zx) ∧ Dot3 (mmul a b).xy (a.xx * b.xy) (a.xy * b.yy) (a.xz * b.zy) ∧
  Dot3 (mmul a b).xz (a.xx * b.xz) (a.xy * b.yz) (a.xz * b.zz) ∧ Dot3 (mmul a b).yx (a.yx * b.xx) (a.yy * b.yx) (a.yz * b.zx) ∧
  Dot3 (mmul a b).yy (a.yx * b.xy) (a.yy * b.yy) (a.yz * b.zy) ∧ Dot3 (mmul a b).yz (a.yx * b.xz) (a.yy * b.yz) (a.yz * b.zz) ∧
  Dot3 (mmul a b).zx (a.zx * b.xx) (a.zy * b.yx) (a.zz * b.zx) ∧ Dot3 (mmul a b).zy (a.zx * b.xy) (a.zy * b.yy) (a.zz * b.zy) ∧
  Dot3 (mmul a b).zz (a.zx * b.xz) (a.zy * b.yz) (a.zz * b.zz)

end Verif.Rounding
