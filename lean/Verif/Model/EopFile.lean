import Verif.Model.Eop
import Verif.Model.Chars
import Mathlib.Algebra.Order.Floor.Ring
import Mathlib.Data.Rat.Floor
/-
Reading IERS C04 files (src/lib/eop/parse_iers_c04.cpp, parse_iers_c0414.cpp, parse_iers_c0420.cpp,
choose_eop_c04_series.cpp).

A file is the list of its lines, or `none` if it cannot be opened. Epochs are exact numbers of days. The
conversions of the date library are parameters: `tt` (MJD in UTC to MJD in TT), `dat` (ΔAT of a UTC day).
`from_chars` on the `long` MJD is modelled with 32 bits.
-/
namespace Verif.Eop
open Verif.Chars

/-- `MAX_LINE_CHARS` (parse_iers_c0414.cpp:8): `getline` fails on a line of 256 characters or more. -/
def MAX_LINE : Nat := 256

/-- `line[0] && (*line != ' ' && *line != '#')` (parse_iers_c0414.cpp:73, parse_iers_c0420.cpp:77), negated. -/
def isComment : List Char → Bool
  | [] => true
  | c :: _ => c = ' ' || c = '#'

/-- What the first part of the loop body finds: nothing to do, an epoch (TT), its ΔAT, the errors so far and
the rest of the line, or a return from the function. -/
inductive DateRes where
  | skip
  | at_ (t dat : ℚ) (errors : Nat) (rest : List Char)
  | ret (code : Nat)

/-- A format: how the date is read, how many numbers follow, and where they go. -/
structure Fmt where
  date : List Char → Res DateRes
  n : Nat
  build : (t dat : ℚ) → List ℚ → Rec ℚ

/-- C04/14 (parse_iers_c0414.cpp:70-85): `line + 12` of a shorter line is behind its end, and the range
given to `from_chars` is invalid. -/
def date14 (tt dat : ℚ → ℚ) (line : List Char) : Res DateRes :=
  if isComment line then .ok .skip
  else if line.length < 12 then .ub
  else match fromCharsInt (skipWs (line.drop 12)) with
    | some (mjd, r) => .ok (.at_ (tt mjd) (dat mjd) 0 r)
    | none => .ok (.at_ (tt 0) (dat 0) 1 (skipWs (line.drop 12)))

/-- The part towards zero, as `modf` returns it. -/
def modfInt (x : ℚ) : Int := if x < 0 then ⌈x⌉ else ⌊x⌋

/-- C04/20 (parse_iers_c0420.cpp:75-111). The assertion compares the fraction of the MJD with the hours. -/
def date20 (tt dat : ℚ → ℚ) (line : List Char) : Res DateRes :=
  if isComment line then .ok .skip
  else if line.length < 12 then .ub
  else match fromCharsInt (skipWs (line.drop 12)) with
    | none => .ok (.ret 2)
    | some (hours, r) =>
      match fromCharsDouble (skipWs r) with
      | none => .ok (.ret 2)
      | some (mjd, r2) =>
        if mjd - modfInt mjd = (hours : ℚ) / 24 then .ok (.at_ (tt mjd) (dat (modfInt mjd)) 0 r2) else .abort

/-- parse_iers_c0414.cpp:89-113. -/
def fmt14 (tt dat : ℚ → ℚ) : Fmt where
  date := date14 tt dat
  n := 6
  build := fun t dat d => ⟨t, d[0]!, d[1]!, d[2]!, d[3]!, d[4]!, d[5]!, dat, 0, 0⟩

/-- parse_iers_c0420.cpp:115-140. -/
def fmt20 (tt dat : ℚ → ℚ) : Fmt where
  date := date20 tt dat
  n := 8
  build := fun t dat d => ⟨t, d[0]!, d[1]!, d[2]!, d[7]!, d[3]!, d[4]!, dat, d[5]!, d[6]!⟩

/-- The loop (parse_iers_c0414.cpp:69-123, parse_iers_c0420.cpp:73-150) and the check after it
(125-131, 152-158). `junk`: the uninitialised array. -/
def readLines (F : Fmt) (junk : List ℚ) (start fin : ℚ) : List (List Char) → Series ℚ → Nat → Res (Nat × Series ℚ)
  | [], s, error => .ok (if error ≠ 0 then 1 else 0, s)
  | line :: lines, s, error =>
    if line.length ≥ MAX_LINE then .ok (1, s)
    else if error ≠ 0 then .ok (1, s)
    else match F.date line with
      | .ok .skip => readLines F junk start fin lines s error
      | .ok (.ret c) => .ok (c, s)
      | .ok (.at_ t dat e1 rest) =>
        if t ≥ start ∧ t < fin then
          let (d, e2) := readFields (junk.take F.n) rest
          let error := e1 + e2
          readLines F junk start fin lines (if error = 0 then s.pushBack (F.build t dat d) else s) error
        else if t ≥ fin then .ok (if e1 ≠ 0 then 1 else 0, s)
        else readLines F junk start fin lines s e1
      | .ub => .ub
      | .abort => .abort
      | .throw => .throw

/-- `parse_iers_C0414` / `parse_iers_C0420` (parse_iers_c0414.cpp:33-135, parse_iers_c0420.cpp:37-162). -/
def parseFmt (F : Fmt) (junk : List ℚ) (file : Option (List (List Char))) (start fin : ℚ) (s : Series ℚ) :
    Res (Nat × Series ℚ) :=
  if fin ≤ start then .ok (1, s)
  else match file with
    | none => .ok (1, s)
    | some lines => readLines F junk start fin lines (s.clear.reserve ⌈fin - start⌉.toNat) 0

/-- The header lines (choose_eop_c04_series.cpp:9-18). -/
def h1c0420 : List Char := "# EARTH ORIENTATION PARAMETER (EOP) PRODUCT CENTER CENTER (PARIS OBSERVATORY)".toList
def h2c0420 : List Char := "# EOP (IERS) 20 C04 TIME SERIES  consistent with ITRF 2020 - sampled".toList
def h1c0414 : List Char := "EARTH ORIENTATION PARAMETER (EOP) PRODUCT CENTER CENTER (PARIS OBSERVATORY)".toList
def h2c0414 : List Char := "INTERNATIONAL EARTH ROTATION AND REFERENCE SYSTEMS SERVICE".toList
def h3c0414 : List Char := "EOP (IERS) 14 C04 TIME SERIES".toList

/-- `fin.getline(line, MAX_LINE_CHARS)` (choose_eop_c04_series.cpp:53-80): the i-th line, cut to 255
characters; after a longer line or at the end the stream has failed and further lines are empty. -/
def headerLine (lines : List (List Char)) (i : Nat) : List Char :=
  if ((lines.take i).all (fun l => l.length < MAX_LINE)) then ((lines[i]?).getD []).take (MAX_LINE - 1) else []

/-- `choose_c04_series` (choose_eop_c04_series.cpp:40-99): `some true` for C04/20, `some false` for C04/14,
`none` for an error. -/
def chooseSeries (file : Option (List (List Char))) : Option Bool :=
  match file with
  | none => none
  | some lines =>
    if h1c0420.isPrefixOf (headerLine lines 0) then
      if h2c0420.isPrefixOf (headerLine lines 1) then some true else none
    else if h1c0414.isPrefixOf (skipWs (headerLine lines 0)) then
      if ¬ h2c0414.isPrefixOf (skipWs (headerLine lines 1)) then none
      else if ¬ h3c0414.isPrefixOf (skipWs (headerLine lines 2)) then none
      else some false
    else none

/-- `parse_iers_C04` (parse_iers_c04.cpp:3-19). -/
def parseC04 (tt dat : ℚ → ℚ) (junk : List ℚ) (file : Option (List (List Char))) (start fin : ℚ) (s : Series ℚ) :
    Res (Nat × Series ℚ) :=
  match chooseSeries file with
  | none => .ok (1, s)
  | some c20 =>
    (parseFmt (if c20 then fmt20 tt dat else fmt14 tt dat) junk file start fin s).bind fun (e, s) =>
    (s.reset (-1)).bind fun s => .ok (e, s)

end Verif.Eop
