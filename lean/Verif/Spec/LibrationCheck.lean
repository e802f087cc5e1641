import Verif.Spec.Costg
import Verif.Spec.Orient
import Verif.Spec.EopTides
/-
Files of reference values of libration, as the program test/fortran/TEST_UTLIBR.F writes them: a Modified Julian Date and what the routines
UTLIBR and PMSDNUT2 give for it. The routines take the date for UT1 as well as for TT.
-/
namespace Verif.LibrationCheck
open Verif.Chars Verif.Costg Verif.EopTides
open Verif.Orient (centuries argL argLp argF argD argOm)

/-- A row: date, UT1 (microseconds), length of day (microseconds), pole (microarcseconds). -/
structure Row where
  t : ℚ
  ut1 : ℚ
  lod : ℚ
  x : ℚ
  y : ℚ

/-- The line has the row, it fits into 511 characters, and its date is an `int`. -/
def Holds (l : List Char) (r : Row) : Prop :=
  LineIs l [r.t, r.ut1, r.lod, r.x, r.y] ∧ l.length < 512 ∧ 0 ≤ r.t ∧ r.t < 2147483648

/-- A text of such lines. -/
def IsFile (rs : List Row) (text : List Char) : Prop := ∃ ls, IsLines ls text ∧ List.Forall₂ Holds ls rs

/-- `GMST` of the routines, in radians (UTLIBR_D0.F:166-172, PMSDNUT2_D0.F:209-215). -/
noncomputable def gmst (t : ℝ) : ℝ :=
  (67310.54841 + centuries t * ((8640184.812866 + 3155760000) + centuries t * (0.093104 + centuries t * (-0.0000062)))) / 86400 *
    (2 * Real.pi)

/-- A sum of a routine at the date `t` if sidereal time is `g`. -/
noncomputable def at' (f : ℝ → ℝ → ℝ → ℝ → ℝ → ℝ → ℝ) (t g : ℝ) : ℝ :=
  f g (argL (centuries t)) (argLp (centuries t)) (argF (centuries t)) (argD (centuries t)) (argOm (centuries t))

/-- The values of the row differ from those of the routines at its date by less than this. -/
structure Near (a b c : ℝ) (r : Row) : Prop where
  ut1 : |(r.ut1 : ℝ) - at' (Ref.first Ref.utlibr) r.t (gmst r.t)| < a
  lod : |(r.lod : ℝ) - at' (Ref.second Ref.utlibr) r.t (gmst r.t)| < b
  x : |(r.x : ℝ) - at' (Ref.first Ref.pmsdnut2) r.t (gmst r.t)| < c
  y : |(r.y : ℝ) - at' (Ref.second Ref.pmsdnut2) r.t (gmst r.t)| < c

/-- The dates of the program, and ΔAT since 1972 until today. -/
def Usual (dat : ℝ → ℝ) (r : Row) : Prop := 47892 ≤ r.t ∧ r.t ≤ 66154 ∧ 10 ≤ dat r.t ∧ dat r.t ≤ 37

end Verif.LibrationCheck
