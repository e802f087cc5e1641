import Verif.Model.EopTides
import Verif.Model.Eop
import Verif.Spec.Rounding
import Verif.Spec.Angle
/-
Removing the zonal tides from a series of Earth orientation parameters and putting them back, up to rounding.
-/
namespace Verif.RoundedEopTides
open Verif Verif.Rounding Verif.Fundarg
open Verif.Angle (sec2rad)

/-- An epoch in days and its Julian centuries as the program sees them. -/
def Centuries (cents : ℝ → ℝ) (t : ℝ) : Prop := |cents t - (t - 51544.5) / 36525| ≤ 4 * u ∧ |(t - 51544.5) / 36525| ≤ 1

/-- `r'` is the record `r` with the zonal tides removed from UT1 and length of day, to 2.3e-12 s and 6e-14 s. -/
def Removed (r r' : Eop.Rec ℝ) : Prop :=
  let T := (r.t - 51544.5) / 36525
  let Z := EopTides.deopZonalTide ![sec2rad (lPoly T), sec2rad (lpPoly T), sec2rad (fPoly T), sec2rad (dPoly T), sec2rad (omPoly T)]
  r' = { r with dut := r'.dut, lod := r'.lod } ∧ |r'.dut - (r.dut - Z.dut1 * 1e-6)| ≤ 2.3e-12 ∧ |r'.lod - (r.lod - Z.dlod * 1e-6)| ≤ 6e-14

/-- `r'` is the record `r` up to the rounding of UT1 and length of day. -/
def Restored (r r' : Eop.Rec ℝ) : Prop :=
  r' = { r with dut := r'.dut, lod := r'.lod } ∧ |r'.dut - r.dut| ≤ 4e-16 ∧ |r'.lod - r.lod| ≤ 4e-18

end Verif.RoundedEopTides
