import Verif.Spec.Cip
import Verif.Spec.Cio
import Verif.Spec.EarthRot
/-
The transformation between GCRS and ITRS of the IERS Conventions (2010), Chapter 5: all quantities in radians,
`t` in Julian centuries of TT since J2000.
-/
namespace Verif.EarthRot
open Verif.Cip

/-- Arcseconds to radians. -/
noncomputable def arcsec (x : ℝ) : ℝ := x / 3600 * (Real.pi / 180)

/-- Coordinates of the pole of the IAU 2006/2000A model (Equation 5.16). -/
noncomputable def poleX (t : ℝ) : ℝ := Spec.uas (Spec.X (Spec.args t) t)
noncomputable def poleY (t : ℝ) : ℝ := Spec.uas (Spec.Y (Spec.args t) t)

/-- The CIO locator s (Table 5.2d). -/
noncomputable def locator (t : ℝ) : ℝ :=
  Spec.uas (Cio.development t (Spec.args t 0) (Spec.args t 1) (Spec.args t 2) (Spec.args t 3) (Spec.args t 4)
    (Spec.args t 6) (Spec.args t 7) (Spec.args t 13)) - poleX t * poleY t / 2

/-- The TIO locator s' (Equation 5.13). -/
noncomputable def tioLocator (t : ℝ) : ℝ := Spec.uas (-47 * t)

/-- Rotation rate of the Earth in radians per second for an excess `lod` of the length of day in seconds. -/
noncomputable def earthRate (lod : ℝ) : ℝ := 7.2921151467064e-5 * (1 - lod / 86400)

end Verif.EarthRot
