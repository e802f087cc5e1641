import Verif.Spec.Costg
import Verif.Spec.Orient
/-
Files of reference values of the zonal tides: a Modified Julian Date TT, UT1 (seconds), length of day (seconds), rotation rate (radians per
second).
-/
namespace Verif.ZonalCheck
open Verif.Chars Verif.Costg Verif.EopTides
open Verif.Orient (centuries zonalPhase zonalUT1 zonalLod)

/-- A row. -/
structure Row where
  t : ℚ
  ut1 : ℚ
  lod : ℚ
  rate : ℚ

/-- The line has the row, it fits into 511 characters, and its date is an `int`. -/
def Holds (l : List Char) (r : Row) : Prop :=
  LineIs l [r.t, r.ut1, r.lod, r.rate] ∧ l.length < 512 ∧ 0 ≤ r.t ∧ r.t < 2147483648

/-- A text of such lines. -/
def IsFile (rs : List Row) (text : List Char) : Prop := ∃ ls, IsLines ls text ∧ List.Forall₂ Holds ls rs

/-- Zonal tides in the rotation rate, radians per second (Table 8.1; its unit is 1e-14 rad/s). -/
noncomputable def zonalRate (T : ℝ) : ℝ :=
  (table81.map fun e => e.domegaB / 1e18 * Real.cos (zonalPhase e T) + e.domegaC / 1e18 * Real.sin (zonalPhase e T)).sum

/-- The row agrees with Table 8.1 to 1e-12 s, 1e-13 s and 1e-14 rad/s. -/
structure Agrees (r : Row) : Prop where
  ut1 : |(r.ut1 : ℝ) - zonalUT1 (centuries r.t)| < 1e-12
  lod : |(r.lod : ℝ) - zonalLod (centuries r.t)| < 1e-13
  rate : |(r.rate : ℝ) - zonalRate (centuries r.t)| < 1e-14

end Verif.ZonalCheck
