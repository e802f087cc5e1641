import Verif.Spec.CostgTide
import Verif.Spec.SolidTide
/-
The solid Earth tide at an epoch of the benchmark: Sun and Moon from the ephemeris in the terrestrial frame, UT1 from the Earth orientation, the
corrections of the IERS Conventions.
-/
namespace Verif.Costg
open Verif

/-- Celestial to terrestrial: `m` are the rows of the rotation. -/
noncomputable def toTerrestrial (m : List ℚ) (v : V3) : V3 := ⟨(three m 0).dot v, (three m 3).dot v, (three m 6).dot v⟩

/-- The potential of the solid Earth tide with the bodies at `sun` and `moon` (terrestrial frame), with the developments of the IERS Conventions
for the arguments; `T` centuries of TT, `Tu` days of UT1 since J2000. The corrections are the complex numbers ΔC - iΔS of degrees 2 to 4. -/
noncomputable def solidAt (sun moon : V3) (T Tu : ℝ) : V3 → ℝ :=
  let Δ := SolidTide.total 6378136.6 [⟨1.32712442076e20 / 3.986004418e14, sun⟩, ⟨0.49028010560e13 / 3.986004418e14, moon⟩]
    (Iau.eraIers Tu + PoleTide.rad (Iau.gmstPoly T))
    ![PoleTide.rad (Fundarg.lPoly T), PoleTide.rad (Fundarg.lpPoly T), PoleTide.rad (Fundarg.fPoly T), PoleTide.rad (Fundarg.dPoly T),
      PoleTide.rad (Fundarg.omPoly T)]
  Harmonic.potential 3.986004418e14 6378136.6 (fun n m => (Δ n m).re) (fun n m => -(Δ n m).im) 4 4

/-- The position of a body relative to the Earth in the celestial frame. -/
def BodyAt (e : Planets.Ephemeris) (tdb : ℝ → ℝ) (id : Int) (t : ℚ) (r : V3) : Prop :=
  ∃ b vb E vE, e id (tdb (jdTT t)) = some (b, vb) ∧ e 399 (tdb (jdTT t)) = some (E, vE) ∧ r = Planets.metres (b - E)

/-- The accelerations at the rows of an orbit with rotations of the same rows, UT1 from the records. -/
def SolidAccels (e : Planets.Ephemeris) (tdb : ℝ → ℝ) (recs : List (Eop.Rec ℚ)) (os qs : List (ℚ × List ℚ)) (gs : List V3) : Prop :=
  gs.length = os.length ∧ ∀ (i : Nat) o q g, os[i]? = some o → qs[i]? = some q → gs[i]? = some g →
    ∃ sun moon a b, BodyAt e tdb 10 o.1 sun ∧ BodyAt e tdb 301 o.1 moon ∧ Between recs (mjdTT o.1) a b ∧
      Harmonic.IsGradient (solidAt (toTerrestrial q.2 sun) (toTerrestrial q.2 moon) (centuriesTT o.1) (daysUT1 o.1 (ut1Tai a b (mjdTT o.1))))
        (three o.2 0) g

end Verif.Costg
