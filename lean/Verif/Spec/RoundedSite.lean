import Verif.Spec.RoundedTides
import Verif.Spec.SolidTideSite
/-
Accuracy of the local frame and of the longitude, and the displacement of a site by the Conventions.
-/
namespace Verif.RoundedSite
open Verif Verif.Rounding Verif.RoundedTides
open Verif.SolidTide (Sph Body north inPhaseOf outPhaseOf rowOf vsum table7)
open Verif.PoleTide (east up)

/-- Spherical coordinates to a few units in the last place, the longitude within a turn or so of zero. -/
structure Placed (b : Sph) (v : V3) : Prop extends Spherical b v where
  turn : |b.lon| ≤ 7

def Close3 (ε : ℝ) (a b : V3) : Prop := |a.x - b.x| ≤ ε ∧ |a.y - b.y| ≤ ε ∧ |a.z - b.z| ≤ ε

/-- The directions east, north and up at a latitude and longitude, to a few units in the last place. -/
def Lvlh (lv : ℝ → ℝ → V3 × V3 × V3) : Prop :=
  ∀ lat lon, Close3 (4 * u) (lv lat lon).1 (east lon lat) ∧ Close3 (4 * u) (lv lat lon).2.1 (north lon lat) ∧
    Close3 (4 * u) (lv lat lon).2.2 (up lon lat)

/-- IERS Conventions, section 7.1.1: both steps, for the bodies `bs`, sidereal time `g` and Delaunay arguments `a`, in metres. -/
noncomputable def siteShift (Re : ℝ) (bs : List Body) (g : ℝ) (a : Fin 5 → ℝ) (r : V3) : V3 :=
  let lat := Real.arcsin (r.z / r.norm)
  let lon := Complex.arg ⟨r.x, r.y⟩
  vsum (bs.map fun b => inPhaseOf Re b lon lat + outPhaseOf Re b lon lat) + (1e-3 : ℝ) * vsum (table7.map (rowOf g a lon lat))

end Verif.RoundedSite
