import Verif.Spec.Orient
import Verif.Spec.Harmonic
import Verif.Spec.Costg
/-
Positions and velocities in the terrestrial and the celestial frame for a given Earth orientation, after the IERS Conventions (2010), Chapter 5.
-/
namespace Verif.Orient
open Verif Verif.EarthRot Verif.Harmonic

/-- `M x` takes terrestrial to celestial coordinates `x` seconds after the epoch `t` (MJD TT): Q R W of the Conventions for the Earth orientation `e`,
where the Earth turns at the rate that belongs to the length of day and all other angles are held. -/
def Frame (t : ℝ) (e : Eops) (M : ℝ → M3) : Prop :=
  let T := centuries t
  ∃ d ε, Real.sin d * Real.cos ε = poleX T + arcsec e.dX ∧ Real.sin d * Real.sin ε = poleY T + arcsec e.dY ∧ 0 ≤ d ∧ d ≤ Real.pi / 2 ∧
    ∀ x, M x = celestial d ε (locator T) * spin (Iau.eraIers (t - 51544.5 + (e.ut1Tai - 32.184) / 86400) + earthRate e.lod * x) *
      polarMotion (tioLocator T) (arcsec e.xp) (arcsec e.yp)

/-- A point at `r` with velocity `v` in the terrestrial frame has position `rc` and velocity `vc` in the celestial frame. -/
def ToCelestial (t : ℝ) (e : Eops) (r v rc vc : V3) : Prop :=
  ∃ M, Frame t e M ∧ rc = M 0 * r ∧ Moves (fun x => M x * (r + x * v)) vc 0

/-- A point at `r` with velocity `v` in the celestial frame has position `rt` and velocity `vt` in the terrestrial frame. -/
def ToTerrestrial (t : ℝ) (e : Eops) (r v rt vt : V3) : Prop :=
  ∃ M, Frame t e M ∧ rt = (M 0).transpose * r ∧ Moves (fun x => (M x).transpose * (r + x * v)) vt 0

/-- Every component within `tol`. -/
def Within (tol : ℝ) (a b : V3) : Prop := |a.x - b.x| < tol ∧ |a.y - b.y| < tol ∧ |a.z - b.z| < tol

/-- MJD TT of an MJD TAI. -/
def ttTai (t : ℚ) : ℚ := t + 32.184 / 86400

/-- A row of the reference orbit (terrestrial position and velocity, celestial position and velocity) agrees with a celestial position and
velocity to 9 cm and 0.09 mm/s. -/
def Agrees (row : List ℚ) (s : V3 × V3) : Prop := Within 9e-2 s.1 (Costg.three row 6) ∧ Within 9e-5 s.2 (Costg.three row 9)

end Verif.Orient
