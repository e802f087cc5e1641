import Verif.Spec.Costg
import Verif.Spec.Orient
/-
Files of reference values of the ocean tides: a Modified Julian Date UTC, the pole (microarcseconds) and UT1 (microseconds). The tables of
amplitudes are those of Model/EopTides (Tables 8.2 and 8.3 of the IERS Conventions).
-/
namespace Verif.OceanCheck
open Verif.Chars Verif.Costg Verif.EopTides
open Verif.Orient (centuries dailyPhase)

/-- A row. -/
structure Row where
  t : ℚ
  x : ℚ
  y : ℚ
  ut1 : ℚ

/-- The line has the row, it fits into 511 characters, and its date is an `int`. -/
def Holds (l : List Char) (r : Row) : Prop :=
  LineIs l [r.t, r.x, r.y, r.ut1] ∧ l.length < 512 ∧ 0 ≤ r.t ∧ r.t < 2147483648

/-- A text of such lines. -/
def IsFile (rs : List Row) (text : List Char) : Prop := ∃ ls, IsLines ls text ∧ List.Forall₂ Holds ls rs

/-- TT of a date in UTC if ΔAT is `a` seconds. -/
noncomputable def tt (a t : ℝ) : ℝ := t + (a + 32.184) / 86400

/-- Greenwich mean sidereal time after the IAU 1982 at a date in UT1, radians; a whole day is a whole turn. -/
noncomputable def gmst (t : ℝ) : ℝ := 2 * Real.pi * (t + (24110.54841 + 8640184.812866 * centuries t + 0.093104 * centuries t ^ 2 -
  6.2e-6 * centuries t ^ 3) / 86400)

/-- The variation with amplitudes `a` (sine) and `b` (cosine), 1/100 of the unit, at a date in UTC with UT1 taken for UTC. -/
noncomputable def variation (a b : DEntry → Int) (dat t : ℝ) : ℝ :=
  (table8.map fun e => a e / 100 * Real.sin (dailyPhase e (centuries (tt dat t)) (gmst t)) +
    b e / 100 * Real.cos (dailyPhase e (centuries (tt dat t)) (gmst t))).sum

/-- The row agrees with the tables to 5 microarcseconds and 1 microsecond; `leap` is ΔAT on a UTC day. -/
structure Agrees (leap : Int → ℝ) (r : Row) : Prop where
  x : |(r.x : ℝ) - variation DEntry.xps DEntry.xpc (leap ⌊r.t⌋) r.t| < 5
  y : |(r.y : ℝ) - variation DEntry.yps DEntry.ypc (leap ⌊r.t⌋) r.t| < 5
  ut1 : |(r.ut1 : ℝ) - variation DEntry.ut1s DEntry.ut1c (leap ⌊r.t⌋) r.t| < 1

/-- The two tables of leap seconds say the same at the date of the row. -/
def Consistent (leap : Int → ℝ) (dat : ℝ → ℝ) (r : Row) : Prop := dat (tt (leap ⌊r.t⌋) r.t) = leap ⌊r.t⌋

end Verif.OceanCheck
