import Verif.Model.EopFile
/-
The check of the interpolation of Earth orientation parameters at the edges of a series (test/unit_tests/eop2.cpp).

Simplifications: numbers are exact, epochs are numbers of days; messages are not modelled. The assertions are live (no NDEBUG).
-/
namespace Verif.EdgesCheck
open Verif Verif.Eop

/-- A call of `interpolate` with the default degree 5 (eop.hpp:363-364) and the assertions on its result and on the epoch of the record (e.g.
eop2.cpp:25-27). The state is the record `ie` and the series. -/
def ask (leap : ℚ → ℚ) (t : ℚ) (want : Status) (p : Rec ℚ × Series ℚ) : Res (Rec ℚ × Series ℚ) :=
  (p.2.interpolate leap t p.1 5).bind fun (got, r, s) => if got = want ∧ r.t = t then .ok (r, s) else .abort

/-- The assertions on the values (eop2.cpp:28-33, 40-45); `none`: there is no such record in the vector. -/
def like (a : Rec ℚ) (b : Option (Rec ℚ)) (p : Rec ℚ × Series ℚ) : Res (Rec ℚ × Series ℚ) :=
  match b with
  | none => .ub
  | some b => if a.xp = b.xp ∧ a.yp = b.yp ∧ a.dut = b.dut ∧ a.lod = b.lod ∧ a.dX = b.dX ∧ a.dY = b.dY then .ok p else .abort

/-- The program after the file was read (eop2.cpp:18-78); `old` is the record as it is constructed. -/
def check (leap : ℚ → ℚ) (old : Rec ℚ) (eop : Series ℚ) : Res Int :=
  if eop.vec.length ≠ 9 then .abort
  else
    (ask leap 57750 .prior (old, eop)).bind fun p =>
    (like p.1 eop.vec.head? p).bind fun p =>
    (ask leap (57759 + 60 / 86400) .later p).bind fun p =>
    (like p.1 eop.vec.getLast? p).bind fun p =>
    (ask leap (57750 + 60 / 86400) .linear p).bind fun p =>
    (ask leap 57758 .linear p).bind fun p =>
    (ask leap (57751 + 60 / 86400) .decreased p).bind fun p =>
    (ask leap 57757 .decreased p).bind fun p =>
    (ask leap (57752 + 60 / 86400) .requested p).bind fun p =>
    (ask leap 57756 .requested p).bind fun _ => .ok 0

/-- The program (eop2.cpp:5-79). `tt` and `dat` are as in `Model/EopFile`, `leap` is ΔAT at a TT epoch; `none`: the file cannot be opened. -/
def program (tt dat leap : ℚ → ℚ) (junk : List ℚ) (old : Rec ℚ) (argc : Int) (file : Option (List (List Char))) : Res Int :=
  if argc ≠ 2 then .ok 1
  else (parseC04 tt dat junk file 57750 57759 Series.new).bind fun (e, eop) => if e ≠ 0 then .ok 1 else check leap old eop

end Verif.EdgesCheck
