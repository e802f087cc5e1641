import Verif.Model.GroopsDisk
/-
The name of a tide model (include/tide_atlas.hpp, include/ocean_tide.hpp, include/atmospheric_tides.hpp, src/lib/tide_atlas_groops.cpp):
the 64 characters of `TideAtlas::mname`, in the objects of the types `TideAtlas`, `OceanTide` and `AtmosphericTide`.

Simplification (all definitions): waves and coefficients are left out; they do not depend on the name.
-/
namespace Verif.TideName
open Verif Verif.Groops Verif.Icgem.Head

/-- `char mname[NAME_MAX_CHARS] = {'\0'}` (tide_atlas.hpp:71, 77), and likewise `tmp_name` (tide_atlas_groops.cpp:388). -/
def blank : List Char := List.replicate 64 '\x00'

/-- `std::strcpy(buf, s)`: the characters of `s` and a terminating NUL; what follows stays. -/
def strcpy (buf s : List Char) : Res (List Char) := if s.length < buf.length then .ok (s ++ '\x00' :: buf.drop (s.length + 1)) else .ub

/-- `name()` (tide_atlas.hpp:120) as a C string: the characters in front of the first NUL. Without one the array is read beyond its end. -/
def report (buf : List Char) : Res (List Char) := if '\x00' ∈ buf then .ok (buf.takeWhile (· ≠ '\x00')) else .ub

/-- The constructors with an optional name: the array of the atlas is copied, then overwritten if there is a name
(ocean_tide.hpp:132-140, 153-162; atmospheric_tides.hpp:95-103; on a new atlas also atmospheric_tides.hpp:89-92). -/
def construct (atlas : List Char) (name : Option (List Char)) : Res (List Char) :=
  match name with
  | none => .ok atlas
  | some s => strcpy atlas s

/-- One file in the loop of `groops_atlas` (tide_atlas_groops.cpp:416-438): its model name goes to `tmp_name`. -/
def fileStep (disk : List Int → Option (List Char)) (dir fn : List Int) (tmp : List Char) : Res (List Char) :=
  (Icgem.Head.construct (disk (dir ++ 47 :: fn))).bind fun (h, _) => strcpy tmp h.modelName

/-- The name of the atlas `groops_atlas` returns (tide_atlas_groops.cpp:385-460), for the list of the files. -/
def groopsName (disk : List Int → Option (List Char)) (dir : List Int) (files : List (List Int)) : Res (List Char) :=
  (forEach files (fileStep disk dir) blank).bind fun tmp => (report tmp).bind fun s => strcpy blank s

/-- The statements of a program with tide models, which are named by numbers: a new atlas (tide_atlas.hpp:69-77) or `AtmosphericTide` (with
an optional name); one made from an atlas with an optional name; one read from GROOPS files (ocean_tide.hpp:264-267 passes no name on,
atmospheric_tides.hpp:196-202 likewise); copies and copy assignments; moves and move assignments, in which an array is copied
(ocean_tide.hpp:171-207). -/
inductive Op where
  | new (k : Nat) (name : Option (List Char))
  | make (k j : Nat) (name : Option (List Char))
  | groops (k : Nat) (dir : List Int) (files : List (List Int))
  | copy (k j : Nat)
  | move (k j : Nat)

/-- The arrays of the objects that exist. -/
abbrev State := Nat → Option (List Char)

def State.put (s : State) (k : Nat) (b : List Char) : State := fun i => if i = k then some b else s i

/-- One statement; an object that does not exist cannot be used. -/
def step (disk : List Int → Option (List Char)) (s : State) : Op → Res State
  | .new k name => (construct blank name).bind fun b => .ok (s.put k b)
  | .make k j name =>
    match s j with
    | none => .ub
    | some a => (construct a name).bind fun b => .ok (s.put k b)
  | .groops k dir files => (groopsName disk dir files).bind fun b => .ok (s.put k b)
  | .copy k j | .move k j =>
    match s j with
    | none => .ub
    | some a => .ok (s.put k a)

/-- A program. -/
def run (disk : List Int → Option (List Char)) (s : State) : List Op → Res State
  | [] => .ok s
  | o :: os => (step disk s o).bind fun s => run disk s os

end Verif.TideName
