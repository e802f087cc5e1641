import Verif.Model.EopFile
import Verif.Spec.Eop
import Verif.Spec.Chars
/-
C04 files: what the lines mean.
-/
namespace Verif.Eop
open Verif.Chars

/-- Not a data line: empty, or beginning with a blank or '#'. -/
def Comment (line : List Char) : Prop := line = [] ∨ ∃ r, line = ' ' :: r ∨ line = '#' :: r

/-- A data line: a date field of 12 characters that does not begin with a blank or '#', then `rest`. -/
def DataLine (line rest : List Char) : Prop :=
  ∃ d : List Char, d.length = 12 ∧ line = d ++ rest ∧ ¬ Comment d

/-- A C04/14 line with MJD `mjd` and the quantities x, y, UT1-UTC, LOD, dX, dY. -/
def Is14 (tt dat : ℚ → ℚ) (line : List Char) (r : Rec ℚ) : Prop :=
  ∃ (mjd : Int) (rest rest' : List Char), DataLine line rest ∧ BeginsInt rest mjd rest' ∧
    LineIs rest' [r.xp, r.yp, r.dut, r.lod, r.dX, r.dY] ∧
    r.t = tt mjd ∧ r.dat = dat mjd ∧ r.xrt = 0 ∧ r.yrt = 0

/-- A C04/20 line: hours, MJD (whose fraction is hours / 24), then x, y, UT1-UTC, dX, dY, the pole rates,
and LOD. -/
def Is20 (tt dat : ℚ → ℚ) (line : List Char) (r : Rec ℚ) : Prop :=
  ∃ (day : Nat) (hours : Int) (rest rest1 rest2 : List Char), DataLine line rest ∧ BeginsInt rest hours rest1 ∧
    0 ≤ hours ∧ hours < 24 ∧
    BeginsNum rest1 (day + (hours : ℚ) / 24) rest2 ∧ Ends rest2 ∧
    LineIs rest2 [r.xp, r.yp, r.dut, r.dX, r.dY, r.xrt, r.yrt, r.lod] ∧
    r.t = tt (day + (hours : ℚ) / 24) ∧ r.dat = dat day

/-- The lines of a file and the records they hold: every line is short enough; it is a comment or holds the
next record. -/
inductive Holds (Is : List Char → Rec ℚ → Prop) : List (List Char) → List (Rec ℚ) → Prop where
  | nil : Holds Is [] []
  | comment {l ls rs} : l.length < 256 → Comment l → Holds Is ls rs → Holds Is (l :: ls) rs
  | data {l ls r rs} : l.length < 256 → Is l r → Holds Is ls rs → Holds Is (l :: ls) (r :: rs)

/-- The records with `start <= t < end`. -/
def inRange (start fin : ℚ) (rs : List (Rec ℚ)) : List (Rec ℚ) := rs.filter (fun r => start ≤ r.t ∧ r.t < fin)

end Verif.Eop
