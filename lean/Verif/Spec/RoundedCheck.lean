import Verif.Model.RoundedCheck
import Verif.Spec.RoundedOptions
/-
When a reference orbit agrees with the Conventions.
-/
namespace Verif.RoundedOptions
open Verif Verif.RoundedState

/-- Every component closer than `tol`. -/
def Closer (tol : ℝ) (a b : V3) : Prop := |a.x - b.x| < tol ∧ |a.y - b.y| < tol ∧ |a.z - b.z| < tol

/-- The row agrees with the celestial position and velocity `S` to 9 cm and 0.09 mm/s; these are widened (`k = 1`) or narrowed (`k = -1`) by 4.3e-12 of the size of
the position, and of that of the velocity with 1.3e-15 per second of that of the position. -/
def Agrees (k : ℝ) (x : Ref) (S : V3 × V3) : Prop :=
  Closer (9e-2 + k * (4.3e-12 * size x.row.ri + 1e-16)) S.1 x.rc ∧
    Closer (9e-5 + k * (4.3e-12 * size x.row.vi + 1.3e-15 * size x.row.ri + 1e-19)) S.2 x.vc

end Verif.RoundedOptions
