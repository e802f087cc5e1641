import Verif.Model.EopFile
/-
The check of the number of records read from a C04 file (test/unit_tests/eop1.cpp). The assertion is live (no NDEBUG).
-/
namespace Verif.CountCheck
open Verif Verif.Eop

/-- The program (eop1.cpp:4-22). `tt`, `dat` and `junk` are as in `Model/EopFile`; `none`: the file cannot be opened. -/
def program (tt dat : ℚ → ℚ) (junk : List ℚ) (argc : Int) (file : Option (List (List Char))) : Res Int :=
  if argc ≠ 2 then .ok 1
  else (parseC04 tt dat junk file 57753 57755 Series.new).bind fun (e, eop) =>
    if e ≠ 0 then .ok 1 else if eop.vec.length = 2 then .ok 0 else .abort

end Verif.CountCheck
