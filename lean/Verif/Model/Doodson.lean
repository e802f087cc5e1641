import Verif.Model.Base
import Mathlib.Data.Rat.Defs
import Mathlib.Algebra.Order.Ring.Unbundled.Rat
/-
Doodson constituents (include/doodson.hpp, src/lib/doodson/*.cpp).

A `char` is its signed value (-128 .. 127); a C string in memory is the list of readable `char`s,
terminating NUL included; reading past the list is undefined behaviour. `double pifac` is a rational.
-/
namespace Verif.Doodson
open Verif

/-- `DoodsonConstituent` (doodson.hpp:56-68): six multipliers and the π factor. -/
structure DC where
  i0 : Int
  i1 : Int
  i2 : Int
  i3 : Int
  i4 : Int
  i5 : Int
  pifac : Rat := 0
deriving DecidableEq, Repr

/-- Conversion of an `int` to a signed 8-bit `char` (implicit in doodson.hpp:122-128; modular, as gcc and
C++20 define it). -/
def toChar (z : Int) : Int := (z + 128) % 256 - 128

/-- Read of the `i`-th `char` of a C string. -/
def charAt (mem : List Int) (i : Nat) : Res Int :=
  match mem[i]? with
  | some c => .ok c
  | none => .ub

/-- `std::tolower` in the "C" locale (used at doodson.hpp:96). -/
def toLower (c : Int) : Int := if 65 ≤ c ∧ c ≤ 90 then c + 32 else c

/-- `DoodsonConstituent::char2int` (doodson.hpp:93-103). `std::isdigit` of a negative `char` is taken to be
false, as in glibc. -/
def char2int (c : Int) : Res Int :=
  if 48 ≤ c ∧ c ≤ 57 then .ok (c - 48)
  else
    let c := toLower c
    if 97 ≤ c ∧ c ≤ 109 then .ok ((c - 97) + 10)
    else if 110 ≤ c ∧ c ≤ 122 then .ok ((c - 110) - 13)
    else .throw

/-- `DoodsonConstituent::int2char` (doodson.hpp:122-128). -/
def int2char (d : Int) : Int :=
  if d < 0 then toChar (110 + (d + 13))
  else if d > 9 then toChar (97 + (d - 10))
  else toChar (48 + d)

/-- `DoodsonConstituent::from_chars` (doodson_from_chars.cpp:5-23): the initialisers run left to right,
then the dot is checked. -/
def fromChars (mem : List Int) : Res DC := do
  let c0 ← charAt mem 0
  let i0 ← char2int c0
  let c1 ← charAt mem 1
  let i1 ← char2int c1
  let c2 ← charAt mem 2
  let i2 ← char2int c2
  let c4 ← charAt mem 4
  let i3 ← char2int c4
  let c5 ← charAt mem 5
  let i4 ← char2int c5
  let c6 ← charAt mem 6
  let i5 ← char2int c6
  let c3 ← charAt mem 3
  if c3 ≠ 46 then .throw
  else .ok ⟨i0, i1 - 5, i2 - 5, i3 - 5, i4 - 5, i5 - 5, 0⟩

/-- `DoodsonConstituent::str` (doodson_to_str.cpp:4-14): `sprintf` writes seven characters and the
terminating NUL into a buffer of `size` bytes. The result is the bytes written. -/
def str (d : DC) (size : Nat) (use5s : Bool) : Res (List Int) :=
  let add : Int := if use5s then 5 else 0
  if size < 8 then .ub
  else .ok [int2char d.i0, int2char (d.i1 + add), int2char (d.i2 + add), 46,
            int2char (d.i3 + add), int2char (d.i4 + add), int2char (d.i5 + add), 0]

/-- `operator==` (doodson.hpp:248-253). -/
def DC.eq (a b : DC) : Bool :=
  a.i0 == b.i0 && a.i1 == b.i1 && a.i2 == b.i2 && a.i3 == b.i3 && a.i4 == b.i4 && a.i5 == b.i5 &&
    a.pifac == b.pifac

/-- `same_species`, `same_group`, `same_constituent` (doodson.hpp:263-282). -/
def DC.sameSpecies (a b : DC) : Bool := a.i0 == b.i0
def DC.sameGroup (a b : DC) : Bool := a.sameSpecies b && a.i1 == b.i1
def DC.sameConstituent (a b : DC) : Bool := a.sameGroup b && a.i2 == b.i2

/-- The `while (*str && *str == ' ') ++str;` loop of resolve_iers2010_doodson_string.cpp:10-12. -/
def skipBlanks : List Int → List Int
  | [] => []
  | c :: cs => if c ≠ 0 ∧ c = 32 then skipBlanks cs else c :: cs

/-- `resolve_iers10_doodson_string` (resolve_iers2010_doodson_string.cpp:6-38). Running off the end while
skipping blanks shows up as the next read being undefined. -/
def resolveIers10 (mem : List Int) : Res DC := do
  let p := skipBlanks mem
  let c0 ← charAt p 0
  let c1 ← charAt p 1
  let c2 ← charAt p 2
  let c3 ← charAt p 3
  let c4 ← charAt p 4
  let c5 ← charAt p 5
  let c6 ← charAt p 6
  let ints : List Int := [c0 - 48, c1 - 48 - 5, c2 - 48 - 5, c4 - 48 - 5, c5 - 48 - 5, c6 - 48 - 5]
  let error : Nat := (if c3 ≠ 46 then 1 else 0) + (ints.filter fun i => i < -9 || i > 9).length
  if error ≠ 0 then .throw
  else .ok ⟨c0 - 48, c1 - 48 - 5, c2 - 48 - 5, c4 - 48 - 5, c5 - 48 - 5, c6 - 48 - 5, 0⟩

/-! ### Tables of waves -/

/-- `detail::TidalConstituentArrayEntry` (doodson.hpp:360-373), without period and height, which no
function here reads. -/
structure Wave where
  d : DC
  name : String
deriving DecidableEq, Repr

/-- `detail::AtmosphericTidalHarmonics` (doodson.hpp:376-431). -/
def atmospheric : List Wave := [
  ⟨⟨1, 1, -3, 0, 0, 1, -1⟩, "π1"⟩,
  ⟨⟨1, 1, -2, 0, 0, 0, 1⟩, "P1"⟩,
  ⟨⟨1, 1, -1, 0, 0, 0, 2⟩, "S1"⟩,
  ⟨⟨1, 1, 0, 0, 0, 0, -1⟩, "K1"⟩,
  ⟨⟨1, 1, 1, 0, 0, -1, 1⟩, "ψ1"⟩,
  ⟨⟨2, 0, 0, 0, 0, 0, 0⟩, "M2"⟩,
  ⟨⟨2, 2, -3, 0, 0, 1, 0⟩, "T2"⟩,
  ⟨⟨2, 2, -2, 0, 0, 0, 0⟩, "S2"⟩,
  ⟨⟨2, 2, -1, 0, 0, -1, 2⟩, "R2"⟩,
  ⟨⟨2, 2, 0, 0, 0, 0, 0⟩, "K2"⟩,
  ⟨⟨2, -1, 0, 1, 0, 0, 0⟩, "N2"⟩,
  ⟨⟨2, 1, 0, -1, 0, 0, 2⟩, "L2"⟩,
  ⟨⟨3, 3, -4, 0, 0, 0, 0⟩, "T3"⟩,
  ⟨⟨3, 3, -3, 0, 0, 0, 0⟩, "S3"⟩,
  ⟨⟨3, 3, -2, 0, 0, 0, 0⟩, "R3"⟩,
  ⟨⟨4, 4, -4, 0, 0, 0, 0⟩, "S4"⟩,
  ⟨⟨5, 5, -5, 0, 0, 0, 0⟩, "S5"⟩,
  ⟨⟨6, 6, -6, 0, 0, 0, 0⟩, "S6"⟩]

/-- `detail::OceanicTidalHarmonics` (doodson.hpp:433-476). -/
def oceanic : List Wave := [
  ⟨⟨0, 0, 0, 0, 1, 0, 2⟩, "Omega1"⟩,
  ⟨⟨0, 0, 0, 0, 2, 0, 0⟩, "Omega2"⟩,
  ⟨⟨0, 0, 1, 0, 0, -1, 0⟩, "Sa"⟩,
  ⟨⟨0, 0, 2, 0, 0, 0, 0⟩, "Ssa"⟩,
  ⟨⟨0, 1, 0, -1, 0, 0, 0⟩, "Mm"⟩,
  ⟨⟨0, 2, 0, 0, 0, 0, 0⟩, "Mf"⟩,
  ⟨⟨0, 3, 0, -1, 0, 0, 0⟩, "Mtm"⟩,
  ⟨⟨0, 4, -2, 0, 0, 0, 0⟩, "Msqm"⟩,
  ⟨⟨1, -2, 0, 1, 0, 0, -1⟩, "Q1"⟩,
  ⟨⟨1, -1, 0, 0, 0, 0, -1⟩, "O1"⟩,
  ⟨⟨1, 1, -2, 0, 0, 0, -1⟩, "P1"⟩,
  ⟨⟨1, 1, 0, 0, 0, 0, 1⟩, "K1"⟩,
  ⟨⟨1, 1, -1, 0, 0, 0, 2⟩, "S1"⟩,
  ⟨⟨1, 2, 0, -1, 0, 0, 1⟩, "J1"⟩,
  ⟨⟨2, -2, 0, 2, 0, 0, 0⟩, "2N2"⟩,
  ⟨⟨2, -1, 0, 1, 0, 0, 0⟩, "N2"⟩,
  ⟨⟨2, 0, 0, 0, 0, 0, 0⟩, "M2"⟩,
  ⟨⟨2, 2, -2, 0, 0, 0, 0⟩, "S2"⟩,
  ⟨⟨2, 2, 0, 0, 0, 0, 0⟩, "K2"⟩,
  ⟨⟨2, 2, -3, 0, 0, 1, 0⟩, "T2"⟩,
  ⟨⟨2, -3, 2, 1, 0, 0, 0⟩, "Epsilon2"⟩,
  ⟨⟨2, -2, 2, 0, 0, 0, 0⟩, "Mu2"⟩,
  ⟨⟨2, -1, 2, -1, 0, 0, 0⟩, "Nu2"⟩,
  ⟨⟨2, 1, -2, 1, 0, 0, 2⟩, "La2"⟩,
  ⟨⟨2, 1, 0, -1, 0, 0, 2⟩, "L2"⟩,
  ⟨⟨2, 2, -1, 0, 0, -1, 2⟩, "R2"⟩,
  ⟨⟨3, 0, 0, 0, 0, 0, 2⟩, "M3"⟩,
  ⟨⟨4, 0, 0, 0, 0, 0, 0⟩, "M4"⟩,
  ⟨⟨4, -2, 0, 2, 0, 0, 0⟩, "N4"⟩,
  ⟨⟨4, -1, 0, 1, 0, 0, 0⟩, "Mn4"⟩,
  ⟨⟨4, 2, -2, 0, 0, 0, 0⟩, "Ms4"⟩,
  ⟨⟨4, 4, -4, 0, 0, 0, 0⟩, "S4"⟩,
  ⟨⟨6, 0, 0, 0, 0, 0, 0⟩, "M6"⟩,
  ⟨⟨8, 0, 0, 0, 0, 0, 0⟩, "M8"⟩]

/-- `strcasecmp(a, b) == 0` in the "C" locale: equality after lowering `A`..`Z`. -/
def caseEq (a b : String) : Bool := a.toList.map Char.toLower == b.toList.map Char.toLower

/-- `match_ocean_tide_wave(const char *)` (match_tadal_constituents.cpp:9-18). -/
def matchOceanName (name : String) : Option Wave := oceanic.find? fun w => caseEq w.name name

/-- `match_ocean_tide_wave(const DoodsonConstituent &)` (match_tadal_constituents.cpp:20-26). -/
def matchOceanDoodson (d : DC) : Option Wave := oceanic.find? fun w => d.eq w.d

/-- `find_wave_entry` (tidal_wave_tables.cpp:7-17); `strcmp` compares UTF-8 bytes, i.e. strings. -/
def findWaveEntry (name : String) : Option Wave := atmospheric.find? fun w => w.name == name

/-- `TidalWave` (doodson.hpp:485-513): constituent and the 16 bytes of `_n`. -/
structure TW where
  d : DC
  n : List Int
deriving DecidableEq

/-- Bytes of a string, as `char`s, without terminator. -/
def bytes (s : String) : List Int := s.toUTF8.toList.map fun b => toChar (b.toNat : Int)

/-- `TidalWave(const TidalConstituentArrayEntry &)` (doodson.hpp:502-505): `strcpy` of the name and its
NUL into 16 zeroed bytes. -/
def TW.ofEntry (w : Wave) : Res TW :=
  let b := bytes w.name ++ [0]
  if b.length ≤ 16 then .ok ⟨w.d, b ++ List.replicate (16 - b.length) 0⟩ else .ub

/-- `get_wave` (tidal_wave_tables.cpp:19-25). -/
def getWave (name : String) : Res TW :=
  match findWaveEntry name with
  | some w => TW.ofEntry w
  | none => .throw

/-- `TidalWave(const DoodsonConstituent &, per, hf, name)` (doodson.hpp:507-512): `strncpy(_n, name, 16)`
copies at most 16 bytes and pads with zeros. -/
def TW.make (d : DC) (name : String) : TW :=
  let b := (bytes name).take 16
  ⟨d, b ++ List.replicate (16 - b.length) 0⟩

/-- Reading a `const char *` up to its NUL; undefined if there is none in the array. -/
def readCStr : List Int → Res (List Int)
  | [] => .ub
  | c :: cs => if c = 0 then .ok [] else do
      let r ← readCStr cs
      .ok (c :: r)

/-- `TidalWave::name()` (doodson.hpp:498) read as a C string. -/
def TW.name (t : TW) : Res (List Int) := readCStr t.n

end Verif.Doodson
