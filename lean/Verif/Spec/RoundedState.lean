import Verif.Spec.RoundedRotation
import Verif.Spec.Gcrs
import Verif.Spec.Harmonic
import Verif.Spec.EarthRot
import Verif.Spec.Angle
import Verif.Model.Gcrs
import Verif.Model.Quat
/-
Accuracy of the products of a quaternion and of a matrix with a vector, and the motion of a point in the two frames.
-/
namespace Verif.RoundedState
open Verif Verif.Rounding Verif.Harmonic Verif.Iau
open Verif.EarthRot (poleX poleY locator tioLocator arcsec EopRec earthRate)

/-- The sum of the coordinates of a vector without signs. -/
noncomputable def size (v : V3) : ℝ := |v.x| + |v.y| + |v.z|

/-- Every coordinate within `ε`. -/
def Close3 (ε : ℝ) (a b : V3) : Prop := |a.x - b.x| ≤ ε ∧ |a.y - b.y| ≤ ε ∧ |a.z - b.z| ≤ ε

/-- A quaternion of length one, up to 1e-6, turns a vector with a few dozen rounding errors. -/
def Turns (rot : Quat → V3 → V3) : Prop := ∀ q v, |q.sqNorm - 1| ≤ 1e-6 → Close3 (56 * u * size v) (rot q v) (q.mat * v)

/-- A product of a matrix and a vector, the three products of each coordinate added in any order. -/
def MatVec (mv : M3 → V3 → V3) : Prop := ∀ a v, Dot3 (mv a v).x (a.xx * v.x) (a.xy * v.y) (a.xz * v.z) ∧
  Dot3 (mv a v).y (a.yx * v.x) (a.yy * v.y) (a.yz * v.z) ∧ Dot3 (mv a v).z (a.zx * v.x) (a.zy * v.y) (a.zz * v.z)

/-- `M x` takes terrestrial to celestial coordinates `x` seconds after the epoch: Q R W of the Conventions for the record, where the Earth turns at the rate that
belongs to the length of day and all other angles are held. -/
def Frame (tt ut1 : Epoch) (e : EopRec) (M : ℝ → M3) : Prop :=
  ∃ d ε, Real.sin d * Real.cos ε = poleX tt.jcenturies + arcsec e.dX ∧ Real.sin d * Real.sin ε = poleY tt.jcenturies + arcsec e.dY ∧ 0 ≤ d ∧ d ≤ Real.pi / 2 ∧
    ∀ x, M x = EarthRot.celestial d ε (locator tt.jcenturies) * EarthRot.spin (eraIers ut1.daysSinceJ2000 + earthRate e.lod * x) *
      EarthRot.polarMotion (tioLocator tt.jcenturies) (arcsec e.xp) (arcsec e.yp)

/-- A point at `r` with velocity `v` in the celestial frame has position `s.1` and velocity `s.2` in the terrestrial frame. -/
def Terrestrial (M : ℝ → M3) (r v : V3) (s : V3 × V3) : Prop := s.1 = (M 0).transpose * r ∧ Moves (fun x => (M x).transpose * (r + x * v)) s.2 0

/-- A point at `r` with velocity `v` in the terrestrial frame has position `s.1` and velocity `s.2` in the celestial frame. -/
def Celestial (M : ℝ → M3) (r v : V3) (s : V3 × V3) : Prop := s.1 = M 0 * r ∧ Moves (fun x => M x * (r + x * v)) s.2 0

end Verif.RoundedState
