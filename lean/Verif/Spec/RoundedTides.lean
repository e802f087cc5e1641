import Verif.Spec.Rounding
import Verif.Spec.SolidTide
import Verif.Spec.PoleTide
/-
Accuracy of spherical coordinates, and the size of the tide-raising force of a body.
-/
namespace Verif.RoundedTides
open Verif Verif.Rounding
open Verif.SolidTide (Sph Body)

/-- Distance, geocentric latitude and longitude of a position, to a few units in the last place. -/
structure Spherical (b : Sph) (v : V3) : Prop where
  r : |b.r - v.norm| ≤ 4 * u * v.norm
  lat : |b.lat - Real.arcsin (v.z / v.norm)| ≤ 8 * u
  lon : Near (8 * u) b.lon (Complex.arg ⟨v.x, v.y⟩)

/-- (GM_j/GM) (Re/r_j)^3. -/
noncomputable def pull (Re : ℝ) (b : Body) : ℝ := b.ratio * (Re / b.pos.norm) ^ 3

/-- IERS Conventions, section 7.1.4: displacement of a site by the pole tide, in metres, from the deviation `m1`, `m2` of the pole in arcseconds:
colatitude, longitude and radial part along the directions south, east and up. -/
noncomputable def poleShift (m1 m2 lon lat : ℝ) : V3 :=
  let θ := Real.pi / 2 - lat
  let p := m1 * Real.cos lon + m2 * Real.sin lon
  let q := m1 * Real.sin lon - m2 * Real.cos lon
  (-0.009 * Real.cos (2 * θ) * p : ℝ) * PoleTide.south lon lat + (0.009 * Real.cos θ * q : ℝ) * PoleTide.east lon lat +
    (-0.033 * Real.sin (2 * θ) * p : ℝ) * PoleTide.up lon lat

end Verif.RoundedTides
