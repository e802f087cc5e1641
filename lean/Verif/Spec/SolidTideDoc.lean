import Verif.Spec.SolidTideSite
/-
The displacement of the IERS Conventions (2010), section 7.1.1, for the Sun and the Moon, given the gravitational parameters.
-/
namespace Verif.SolidTide
open Verif

/-- Steps 1 and 2 at geocentric longitude and latitude, in metres. `g` is sidereal time, `a` are the Delaunay arguments. -/
noncomputable def conventional (GMearth Rearth GMsun GMmoon : ℝ) (rSun rMoon : V3) (g : ℝ) (a : Fin 5 → ℝ) (lon lat : ℝ) : V3 :=
  vsum ([⟨GMsun / GMearth, rSun⟩, ⟨GMmoon / GMearth, rMoon⟩].map fun b : Body => inPhaseOf Rearth b lon lat + outPhaseOf Rearth b lon lat) +
    (1e-3 : ℝ) * vsum (table7.map (rowOf g a lon lat))

end Verif.SolidTide
