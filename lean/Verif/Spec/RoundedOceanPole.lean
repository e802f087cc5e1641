import Verif.Spec.RoundedSite
import Verif.Spec.RoundedRelativity
/-
Ocean pole tide by the Conventions, and the measure of its rounding errors.
-/
namespace Verif.RoundedOceanPole
open Verif Verif.Rounding
open Verif.PoleTide (SiteCoeffs east up)
open Verif.SolidTide (north)

/-- The fourth power from the C library. -/
def Quart (quart : ℝ → ℝ) : Prop := ∀ x : ℝ, |quart x - x ^ 4| ≤ 2 * u * |x ^ 4|

/-- The factor of section 6.5 that all coefficients share. -/
noncomputable def loadOf (Om a GM G ge : ℝ) : ℝ := (Om ^ 2 * a ^ 4 / GM) * (4 * Real.pi * G * 1025 / ge)

/-- The factor of section 7.1.5 that all components share. -/
noncomputable def siteFactor (Om a GM G ge : ℝ) : ℝ := 4 * Real.pi * G * a * 1025 * (Real.sqrt (8 * Real.pi / 15) * (Om ^ 2 * a ^ 4 / GM)) / (3 * ge)

/-- IERS Conventions, section 7.1.5: displacement of a site by the ocean pole tide, in metres, from the deviation `m1`, `m2` of the pole in radians. -/
noncomputable def oceanShift (K m1 m2 lon lat : ℝ) (c : SiteCoeffs ℝ) : V3 :=
  let f (x y : ℝ) := K * ((m1 * 0.6870 + m2 * 0.0036) * x + (m2 * 0.6870 - m1 * 0.0036) * y)
  f c.eR c.eI * east lon lat + f c.nR c.nI * north lon lat + f c.rR c.rI * up lon lat

/-- The sum of the absolute values of the coefficients of a site. -/
noncomputable def siteSize (c : SiteCoeffs ℝ) : ℝ := |c.eR| + |c.eI| + (|c.nR| + |c.nI|) + (|c.rR| + |c.rI|)

end Verif.RoundedOceanPole
