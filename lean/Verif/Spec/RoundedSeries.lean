import Verif.Spec.Cip
import Verif.Spec.RoundedSofa
/-
Pole coordinates of the Conventions at an epoch.
-/
namespace Verif.RoundedSeries
open Verif

/-- X and Y of the celestial intermediate pole, IAU 2006/2000A, at `t` Julian centuries of TT after J2000, in radians. -/
noncomputable def pole (t : ℝ) : ℝ × ℝ := (Cip.Spec.uas (Cip.Spec.X (Cip.Spec.args t) t), Cip.Spec.uas (Cip.Spec.Y (Cip.Spec.args t) t))

/-- Both coordinates within `ε`. -/
def Close (ε : ℝ) (p q : ℝ × ℝ) : Prop := |p.1 - q.1| ≤ ε ∧ |p.2 - q.2| ≤ ε

end Verif.RoundedSeries
