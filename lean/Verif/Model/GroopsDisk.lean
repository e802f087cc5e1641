import Verif.Model.Groops
import Verif.Model.IcgemHeader
/-
An ocean tide model made from the files of a GROOPS model: the file list, the gravity files, the Doodson and the admittance matrix
(src/lib/tide_atlas_groops.cpp, include/ocean_tide.hpp).

A file is the list of its characters, `disk path = none` if it cannot be opened.
-/
namespace Verif.Groops
open Verif Verif.Tide Verif.Icgem Verif.Icgem.Head

variable {T : Type} [LinearOrder T]

/-- Reading one gravity file in `groops_atlas` (tide_atlas_groops.cpp:428-449): the constructor of `Icgem`, the copy of the model
name to the 64 characters of `tmp_name` (tide_atlas_groops.cpp:389, 438; tide_atlas.hpp:71), and `parse_data` at the smallest
date. `junkErr` and `junkE` are what uninitialised members hold. -/
noncomputable def readGfc (cal : Cal T) (disk : List Int → Option (List Char)) (junkErr : ErrorModel) (junkE : Entry T)
    (junk : Nat → Nat → ℝ) (n m : Int) (path : List Int) (co : Coeffs ℝ) : Res (Nat × Coeffs ℝ) :=
  (construct (disk path)).bind fun (h, pos) =>
    if h.modelName.length + 1 > 64 then .ub
    else parseData cal (h.header junkErr) (junkE, junk) (pos.map linesOf) n m cal.min co

/-- `groops_ocean_atlas(fn, dir, max_degree, max_order)` (ocean_tide.hpp:264-267). -/
noncomputable def oceanModel (cal : Cal T) (disk : List Int → Option (List Char)) (junkErr : ErrorModel) (junkE : Entry T)
    (junk : Nat → Nat → ℝ) (file : Option (List (List Int))) (dir : List Int) (n m : Int) : Res Ocean :=
  (groopsAtlas junk (readGfc cal disk junkErr junkE junk n m) file dir n m).bind fun a => Ocean.make junk a none

/-- `groops_ocean_atlas(f1, f2, f3, dir, max_degree, max_order)` (ocean_tide.hpp:292-300). -/
noncomputable def oceanModelAdm (cal : Cal T) (disk : List Int → Option (List Char)) (junkErr : ErrorModel) (junkE : Entry T)
    (junk : Nat → Nat → ℝ) (junkI : List Int) (junkA : Nat → Nat → ℚ) (f1 : Option (List (List Int)))
    (f2 f3 : Option (List (List Char))) (dir : List Int) (n m : Int) : Res Ocean :=
  (groopsAtlasAdm junk junkI junkA (readGfc cal disk junkErr junkE junk n m) f1 f2 f3 dir n m).bind fun (a, g) =>
    Ocean.make junk a (some g)

end Verif.Groops
