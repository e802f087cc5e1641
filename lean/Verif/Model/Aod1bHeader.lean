import Verif.Model.Aod1b
import Verif.Model.Doodson
/-
The header of AOD1B files (src/lib/aod1b/aod1b_read_header.cpp) and the constructor of `Aod1bIn` (aod1b.cpp:5-17).

The date library is a parameter, as in Verif/Model/Aod1b.lean. Simplifications: a `double` is the exact rational that the
text denotes; messages are not modelled; a character is one byte; the bytes of the buffer behind the terminating zero count as undefined.
-/
namespace Verif.Aod1b.Head
open Verif Verif.Chars

/-- The date library: reading a date and time (GPS time, as TT), adding nanoseconds, the first day of a year, and the
value of a date that was not set. -/
structure Env (T : Type) where
  date : List Char → Option T
  addNs : T → Int → T
  newYear : Int → T
  unset : T

/-- The header lines that the reader knows. -/
inductive Key where
  | agency | institution | fileType | fileFormat | headerRecords | version | linkTime | reference | satellite | sensor
  | epoch | first | firstYear | last | lastYear | dataRecords | startCreate | endCreate | fileSize | fileName | level
  | pressure | pressureTidal | maxDegree | errors | normalized | gm | radius | flat | omega | dataSets | format | wave
  | theEnd
  deriving DecidableEq

/-- The texts compared with the start of a line, in the order of the comparisons (aod1b_read_header.cpp:55-333). -/
def keys : List (List Char × Key) := [
  ("PRODUCER AGENCY".toList, .agency),
  ("PRODUCER INSTITUTION".toList, .institution),
  ("FILE TYPE ipAOD1BF".toList, .fileType),
  ("FILE FORMAT 0=BINARY 1=ASCII".toList, .fileFormat),
  ("NUMBER OF HEADER RECORDS".toList, .headerRecords),
  ("SOFTWARE VERSION".toList, .version),
  ("SOFTWARE LINK TIME".toList, .linkTime),
  ("REFERENCE DOCUMENTATION".toList, .reference),
  ("SATELLITE NAME".toList, .satellite),
  ("SENSOR NAME".toList, .sensor),
  ("TIME EPOCH (GPS TIME)".toList, .epoch),
  ("TIME FIRST OBS(SEC PAST EPOCH)".toList, .first),
  ("TIME FIRST OBS (YEAR START)".toList, .firstYear),
  ("TIME LAST OBS(SEC PAST EPOCH)".toList, .last),
  ("TIME LAST OBS (YEAR END)".toList, .lastYear),
  ("NUMBER OF DATA RECORDS".toList, .dataRecords),
  ("PRODUCT START CREATE TIME(UTC)".toList, .startCreate),
  ("PRODUCT END CREATE TIME(UTC)".toList, .endCreate),
  ("FILESIZE (BYTES)".toList, .fileSize),
  ("FILENAME".toList, .fileName),
  ("PROCESS LEVEL (1A OR 1B)".toList, .level),
  ("PRESSURE TYPE (SP OR VI)".toList, .pressure),
  ("PRESSURE TYPE (ATM OR OCN)".toList, .pressureTidal),
  ("MAXIMUM DEGREE".toList, .maxDegree),
  ("COEFFICIENTS ERRORS (YES/NO)".toList, .errors),
  ("COEFF. NORMALIZED (YES/NO)".toList, .normalized),
  ("CONSTANT GM [M^3/S^2]".toList, .gm),
  ("CONSTANT A [M]".toList, .radius),
  ("CONSTANT FLAT [-]".toList, .flat),
  ("CONSTANT OMEGA [RAD/S]".toList, .omega),
  ("NUMBER OF DATA SETS".toList, .dataSets),
  ("DATA FORMAT (N,M,C,S)".toList, .format),
  ("PARTIAL TIDE".toList, .wave),
  ("END OF HEADER".toList, .theEnd)]

/-- The chain of `strncmp` (aod1b_read_header.cpp:55-341): the first text that the line begins with. -/
def keyOf (line : List Char) : Option Key := (keys.find? fun p => p.1.isPrefixOf line).map (·.2)

/-- The members that the header sets (aod1b.hpp:111-148, aod1b.cpp:8). The character arena is filled with zeros by the constructor; the
numbers have no initial value (`none`). -/
structure Data (T : Type) where
  arena : List Char := List.replicate 80 '\x00'
  fileType : Option Int := none
  fileFormat : Option Int := none
  headerRecords : Option Int := none
  dataRecords : Option Int := none
  maxDegree : Option Int := none
  errors : Option Bool := none
  normalized : Option Bool := none
  gm : Option ℚ := none
  re : Option ℚ := none
  flat : Option ℚ := none
  omega : Option ℚ := none
  dataSets : Option Int := none
  epoch : T
  first : T
  last : T
  wave : Option Doodson.Wave := none

/-- `header_field(line)` (aod1b_read_header.cpp:10-18): behind the first colon and blanks. Without a colon the function
reads behind the terminating zero. -/
def field (s : List Char) : Res (List Char) :=
  match s.dropWhile (fun c => c != ':') with
  | [] => .ub
  | _ :: r => .ok (r.dropWhile (fun c => c == ' '))

/-- `line + k`, the argument of `header_field` (aod1b_read_header.cpp:57 and below). -/
def at' (k : Nat) (line : List Char) : Res (List Char) := if k ≤ line.length then .ok (line.drop k) else .ub

/-- `header_field(line, sz)` (aod1b_read_header.cpp:19-33): what stands behind the last colon and blanks, and its length without
trailing blanks. Without a colon the function reads in front of the buffer (no key that it is used with has a colon). If nothing but
`n` blanks follow, the length is `-n`. -/
def fieldSized (s : List Char) : Res (List Char × Int) :=
  if ':' ∈ s then
    let after := (s.reverse.takeWhile (fun c => c != ':')).reverse
    let v := after.dropWhile (fun c => c == ' ')
    .ok (v, if v = [] then -(after.length : Int) else ((v.reverse.dropWhile (fun c => c == ' ')).length : Int))
  else .ub

/-- `std::memcpy(charArena + off, r, sz)` (aod1b_read_header.cpp:58 and below). -/
def memcpyArena (arena : List Char) (off : Nat) (v : List Char) (sz : Int) : Res (List Char) :=
  if sz < 0 ∨ (arena.length : Int) < off + sz then .ub
  else .ok (arena.take off ++ (v.take sz.toNat ++ arena.drop (off + sz.toNat)))

variable {T : Type}

/-- The outcome of a line: go on with the count of errors, or return 1 at once. -/
inductive Step (T : Type) where
  | go (err : Nat) (h : Data T)
  | stop (h : Data T)

/-- A text member (aod1b_read_header.cpp:55-58, 98-105, 203-216); `k` is the offset given to `header_field`. -/
def setText (k off : Nat) (line : List Char) (h : Data T) : Res (Step T) :=
  (at' k line).bind fun s => (fieldSized s).bind fun (v, sz) =>
    (memcpyArena h.arena off v sz).bind fun a => .ok (.go 0 { h with arena := a })

/-- An integer member (aod1b_read_header.cpp:62-91, 185-194, 217-226, 306-315): on failure the error is counted. -/
def setInt (k : Nat) (line : List Char) (put : Int → Data T) (h : Data T) : Res (Step T) :=
  (at' k line).bind fun s => (field s).bind fun v =>
    match fromCharsInt v with
    | some (n, _) => .ok (.go 0 (put n))
    | none => .ok (.go 1 h)

/-- A floating point member (aod1b_read_header.cpp:266-305). -/
def setNum (k : Nat) (line : List Char) (put : ℚ → Data T) (h : Data T) : Res (Step T) :=
  (at' k line).bind fun s => (field s).bind fun v =>
    match fromCharsDouble v with
    | some (n, _) => .ok (.go 0 (put n))
    | none => .ok (.go 1 h)

/-- `YES` or `NO` (aod1b_read_header.cpp:227-265), with the assertions. -/
def setFlag (k : Nat) (line : List Char) (put : Bool → Data T) (h : Data T) : Res (Step T) :=
  (at' k line).bind fun s => (fieldSized s).bind fun (v, sz) =>
    if sz = 2 then (if "NO".toList.isPrefixOf v then .ok (.go 0 (put false)) else .abort)
    else if sz = 3 then (if "YES".toList.isPrefixOf v then .ok (.go 0 (put true)) else .abort)
    else .ok (.go 1 h)

/-- `static_cast<nanoseconds::underlying_type>(sec * 1e9)` (aod1b_read_header.cpp:122, 159), exactly. -/
def nanos (sec : ℚ) : Res Int :=
  let x := sec * 1000000000
  let n := if x < 0 then ⌈x⌉ else ⌊x⌋
  if -9223372036854775808 ≤ n ∧ n ≤ 9223372036854775807 then .ok n else .ub

/-- First or last epoch (aod1b_read_header.cpp:111-134, 148-171): seconds after the reference epoch, then the same epoch as a
date. If the seconds cannot be read the uninitialised number is used; if no digit follows, reading goes on behind the line. -/
def setEpoch [DecidableEq T] (E : Env T) (k : Nat) (line : List Char) (put : T → Data T) (h : Data T) : Res (Step T) :=
  (at' k line).bind fun s => (field s).bind fun v =>
    match fromCharsDouble v with
    | none => .ub
    | some (sec, rest) =>
      (nanos sec).bind fun ns =>
      let t := E.addNs h.epoch ns
      match rest.dropWhile (fun c => !isDig c) with
      | [] => .ub
      | r => match E.date r with
        | none => .abort
        | some t' => if t' ≠ t then .ok (.stop (put t)) else .ok (.go 0 (put t))

/-- First or last year (aod1b_read_header.cpp:135-147, 172-184): an unreadable year is used uninitialised. -/
def setYear (E : Env T) (k : Nat) (line : List Char) (put : T → Data T) : Res (Step T) :=
  (at' k line).bind fun s => (field s).bind fun v =>
    match fromCharsInt v with
    | none => .ub
    | some (y, _) => .ok (.go 0 (put (E.newYear y)))

/-- The tidal wave (aod1b_read_header.cpp:318-332): the name goes to eight characters and needs its zero; the pointer is
used also when no wave was found. -/
def setWave (line : List Char) (h : Data T) : Res (Step T) :=
  (at' 12 line).bind fun s => (fieldSized s).bind fun (v, sz) =>
    if sz < 0 ∨ 8 ≤ sz then .ub
    else match Doodson.findWaveEntry (String.ofList (v.take sz.toNat)) with
      | none => .ub
      | some w => .ok (.go 0 { h with wave := some w })

/-- One line other than the end (aod1b_read_header.cpp:55-341). -/
def step [DecidableEq T] (E : Env T) (line : List Char) (h : Data T) : Option Key → Res (Step T)
  | some .agency => setText 15 0 line h
  | some .fileType => setInt 18 line (fun n => { h with fileType := some n }) h
  | some .fileFormat => setInt 28 line (fun n => { h with fileFormat := some n }) h
  | some .headerRecords => setInt 24 line (fun n => { h with headerRecords := some n }) h
  | some .satellite => setText 14 20 line h
  | some .sensor => setText 11 40 line h
  | some .epoch =>
    (at' 21 line).bind fun s => (field s).bind fun v =>
      match E.date v with
      | none => .abort
      | some t => .ok (.go 0 { h with epoch := t })
  | some .first => setEpoch E 30 line (fun t => { h with first := t }) h
  | some .firstYear => setYear E 27 line (fun t => { h with first := t })
  | some .last => setEpoch E 29 line (fun t => { h with last := t }) h
  | some .lastYear => setYear E 24 line (fun t => { h with last := t })
  | some .dataRecords => setInt 22 line (fun n => { h with dataRecords := some n }) h
  | some .level => setText 24 60 line h
  | some .pressure => setText 24 64 line h
  | some .pressureTidal => setText 26 64 line h
  | some .maxDegree => setInt 14 line (fun n => { h with maxDegree := some n }) h
  | some .errors => setFlag 28 line (fun b => { h with errors := some b }) h
  | some .normalized => setFlag 26 line (fun b => { h with normalized := some b }) h
  | some .gm => setNum 21 line (fun v => { h with gm := some v }) h
  | some .radius => setNum 22 line (fun v => { h with re := some v }) h
  | some .flat => setNum 17 line (fun v => { h with flat := some v }) h
  | some .omega => setNum 17 line (fun v => { h with omega := some v }) h
  | some .dataSets => setInt 17 line (fun n => { h with dataSets := some n }) h
  | some .wave => setWave line h
  | some _ => .ok (.go 0 h)
  | none => .ok (.go 1 h)

/-- The loop (aod1b_read_header.cpp:52-342) and the checks after it (344-354); `n` is 100 minus the count of lines.
Status and members. -/
def loop [DecidableEq T] (E : Env T) : Nat → In → Nat → Data T → Res (Nat × Data T)
  | n, fin, err, h =>
    let (line, ok, fin) := fin.getline 124
    if !ok || err ≠ 0 then .ok (1, h)
    else match n with
      | 0 => .ok (1, h)
      | 1 => .ok (1, h)
      | n + 2 =>
        if keyOf line = some .theEnd then .ok (if fin.good then 0 else 1, h)
        else (step E line h (keyOf line)).bind fun
          | .stop h => .ok (1, h)
          | .go e h => loop E (n + 1) fin e h

/-- `read_header` (aod1b_read_header.cpp:36-355) on an open file or on one that cannot be opened. -/
def read [DecidableEq T] (E : Env T) (file : Option (List Char)) (h : Data T) : Res (Nat × Data T) :=
  match file with
  | none => .ok (1, h)
  | some text => loop E 100 (In.start text) 0 h

/-- The constructor (aod1b.cpp:5-17). -/
def construct [DecidableEq T] (E : Env T) (file : Option (List Char)) : Res (Data T) :=
  (read E file { epoch := E.unset, first := E.unset, last := E.unset }).bind fun (s, h) => if s ≠ 0 then .throw else .ok h

/-- A text member as a C string: the accessors return pointers into the arena (aod1b.hpp:263-278). -/
def cstrAt (arena : List Char) (off : Nat) : Res (List Char) :=
  let s := arena.drop off
  if '\x00' ∈ s then .ok (s.takeWhile (fun c => c != '\x00')) else .ub

/-- `agency`, `satellite`, `sensor`, `process_level`, `pressure_type` (aod1b.hpp:263-278) with their offsets (aod1b.hpp:86-94). -/
def Data.agency (h : Data T) : Res (List Char) := cstrAt h.arena 0
def Data.satellite (h : Data T) : Res (List Char) := cstrAt h.arena 20
def Data.sensor (h : Data T) : Res (List Char) := cstrAt h.arena 40
def Data.level (h : Data T) : Res (List Char) := cstrAt h.arena 60
def Data.pressure (h : Data T) : Res (List Char) := cstrAt h.arena 64

/-- The object that the readers of Verif/Model/Aod1b.lean work with; using members that were not set is undefined. -/
def Data.aod (h : Data T) (name text : List Char) : Res (Aod T) :=
  match h.maxDegree, h.dataSets with
  | some n, some s => .ok ⟨text, n, s, h.first, h.last, name⟩
  | _, _ => .ub

end Verif.Aod1b.Head
