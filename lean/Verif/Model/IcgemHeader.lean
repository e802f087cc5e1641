import Verif.Model.Icgem
import Verif.Model.Stream
/-
The header of ICGEM files (src/lib/icgem/icgemio_read_header.cpp) and the constructor of `Icgem`
(src/lib/icgem/icgemio.cpp).

Simplifications: a `double` is the exact rational that the text denotes; messages are not modelled.
-/
namespace Verif.Icgem.Head
open Verif Verif.Chars

/-- The members that the header sets, with their initial values (icgemio.hpp:52-86). `_errors` has no
initial value. -/
structure Data where
  v2 : Bool := false
  productType : List Char := []
  modelName : List Char := []
  tideSystem : List Char := "unknown".toList
  norm : List Char := "fully_normalized".toList
  errors : Option ErrorModel := none
  gm : ℚ := 0
  radius : ℚ := 0
  maxDegree : Int := 0
  deriving DecidableEq

/-- `next_non_ws_char` (icgemio_read_header.cpp:20-25). -/
def nonWs (s : List Char) : List Char := s.dropWhile (fun c => c == ' ')

/-- `next_ws_char` (icgemio_read_header.cpp:28-33). -/
def nextWs (s : List Char) : List Char := s.dropWhile (fun c => c != ' ')

/-- `right_trim` (icgemio_read_header.cpp:36-44): the first character stays; of an empty string the character in
front is read. -/
def rightTrim : List Char → Res (List Char)
  | [] => .ub
  | c :: r => .ok (c :: (r.reverse.dropWhile (fun c => c == ' ')).reverse)

/-- `std::strcpy` into an array of `cap` characters. -/
def strcpy (cap : Nat) (s : List Char) : Res (List Char) := if s.length < cap then .ok s else .ub

/-- `match_header_keyword` (icgemio_read_header.cpp:70-87): the argument if the keyword matches. -/
def matchKey (kw line : List Char) : Option (List Char) :=
  let str := nonWs line
  if kw.isPrefixOf str then some (nonWs (nextWs str)) else none

/-- A text member is set: `right_trim(std::strcpy(...))`. -/
def setText (cap : Nat) (arg : List Char) (put : List Char → Data) (h : Data) : Res (Nat × Data) :=
  if arg = [] then .ok (1, h) else (strcpy cap arg).bind fun s => (rightTrim s).bind fun s => .ok (0, put s)

/-- A number member is set (`std::from_chars` into a `double`). -/
def setNum (arg : List Char) (put : ℚ → Data) (h : Data) : Res (Nat × Data) :=
  if arg = [] then .ok (1, h) else
    match fromCharsDouble arg with
    | some (v, _) => .ok (0, put v)
    | none => .ok (2, h)

/-- The integer member is set (`std::from_chars` into an `int`). -/
def setInt (arg : List Char) (put : Int → Data) (h : Data) : Res (Nat × Data) :=
  if arg = [] then .ok (1, h) else
    match fromCharsInt arg with
    | some (v, _) => .ok (0, put v)
    | none => .ok (2, h)

/-- The argument of `errors` (icgemio_read_header.cpp:219-235). -/
def errorsOf (arg : List Char) : ErrorModel :=
  if "calibrated_and_formal".toList.isPrefixOf arg then .both
  else if "calibrated".toList.isPrefixOf arg then .calibrated
  else if "formal".toList.isPrefixOf arg then .formal
  else if "no".toList.isPrefixOf arg then .no
  else .no

/-- The argument of `format` (icgemio_read_header.cpp:268-285). -/
def setFormat (arg : List Char) (h : Data) : Res (Nat × Data) :=
  if arg = [] then .ok (1, h)
  else if "icgem1.0".toList.isPrefixOf arg then .ok (0, { h with v2 := false })
  else if "icgem2.0".toList.isPrefixOf arg then .ok (0, { h with v2 := true })
  else .ok (2, h)

/-- One line of the header (icgemio_read_header.cpp:131-296): error and members. -/
def step (h : Data) (line : List Char) : Res (Nat × Data) :=
  match matchKey "product_type".toList line with
  | some a => setText 64 a (fun s => { h with productType := s }) h
  | none =>
  match matchKey "modelname".toList line with
  | some a => setText 128 a (fun s => { h with modelName := s }) h
  | none =>
  match matchKey "earth_gravity_constant".toList line with
  | some a => setNum a (fun v => { h with gm := v }) h
  | none =>
  match matchKey "radius".toList line with
  | some a => setNum a (fun v => { h with radius := v }) h
  | none =>
  match matchKey "max_degree".toList line with
  | some a => setInt a (fun v => { h with maxDegree := v }) h
  | none =>
  match matchKey "errors".toList line with
  | some a => if a = [] then .ok (1, h) else .ok (0, { h with errors := some (errorsOf a) })
  | none =>
  match matchKey "tide_system".toList line with
  | some a => setText 64 a (fun s => { h with tideSystem := s }) h
  | none =>
  match matchKey "norm".toList line with
  | some a => setText 64 a (fun s => { h with norm := s }) h
  | none =>
  match matchKey "format".toList line with
  | some a => setFormat a h
  | none => .ok (0, h)

/-- The loop (icgemio_read_header.cpp:129-308); `n` is 1000 minus the counter. Status, members, stream. -/
def loop : Nat → List Char → In → Data → Res (Nat × Data × In)
  | n, line, fin, h =>
    if "end_of_head".toList.isPrefixOf line then .ok (0, h, fin)
    else (step h line).bind fun (error, h) =>
      let r := fin.getline 256
      if error ≠ 0 then .ok (error, h, r.2.2)
      else match n with
        | 0 => .ok (1, h, r.2.2)
        | n + 1 => loop n r.1 r.2.2 h

/-- `parse_header` (icgemio_read_header.cpp:93-313): status, members and the text of the data section. `tellg` fails
if the stream is not good; then there is no data section, nor is there one after an error. `file = none`: the
file cannot be opened. -/
def parse (file : Option (List Char)) (h : Data) : Res (Nat × Data × Option (List Char)) :=
  match file with
  | none => .ok (1, h, none)
  | some text =>
    let r := (In.start text).getline 256
    (loop 1000 r.1 r.2.2 h).bind fun (status, h, fin) =>
      if status ≠ 0 then .ok (status, h, none) else .ok (0, h, if fin.good then some fin.rest else none)

/-- The constructor (icgemio.cpp:4-10): throws if the header cannot be read. -/
def construct (file : Option (List Char)) : Res (Data × Option (List Char)) :=
  (parse file {}).bind fun (status, h, pos) => if status ≠ 0 then .throw else .ok (h, pos)

/-- `is_normalized` (icgemio.hpp:240-242). -/
def Data.normalized (h : Data) : Bool := h.norm == "fully_normalized".toList

/-- The lines that `getline` reads from a text; a last line need not be ended. -/
def linesOf : List Char → List (List Char)
  | [] => []
  | c :: r =>
    if c = '\n' then [] :: linesOf r
    else match linesOf r with
      | [] => [[c]]
      | l :: ls => (c :: l) :: ls

/-- The members as `parse_data` uses them; `junk` is what `_errors` holds if it was not set. -/
noncomputable def Data.header (h : Data) (junk : ErrorModel) : Header :=
  ⟨h.v2, h.maxDegree, h.errors.getD junk, h.gm, h.radius, h.normalized⟩

/-- `Icgem gravity(fn); gravity.parse_data(max_degree, max_order, t, coeffs)`. Without a data section `seekg(-1)`
fails, and nothing can be read. -/
noncomputable def readFile {T : Type} [LinearOrder T] (cal : Cal T) (file : Option (List Char)) (junkErr : ErrorModel)
    (junk : Entry T × (Nat → Nat → ℝ)) (maxDegree maxOrder : Int) (t : T) (co : Coeffs ℝ) : Res (Nat × Coeffs ℝ) :=
  (construct file).bind fun (h, pos) =>
    parseData cal (h.header junkErr) junk (pos.map linesOf) maxDegree maxOrder t co

end Verif.Icgem.Head
