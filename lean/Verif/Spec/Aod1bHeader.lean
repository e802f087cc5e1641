import Verif.Spec.Chars
import Verif.Model.Doodson
/-
The header of an AOD1B file: lines `KEY : value`, the last one `END OF HEADER`.
-/
namespace Verif.Aod1b.Head
open Verif.Chars

/-- What a header line can set. Times are of some type `T`. -/
inductive Setting (T : Type) where
  | agency (v : List Char)
  | satellite (v : List Char)
  | sensor (v : List Char)
  | level (v : List Char)
  | pressure (v : List Char)
  | fileType (n : Int)
  | fileFormat (n : Int)
  | headerRecords (n : Int)
  | dataRecords (n : Int)
  | maxDegree (n : Int)
  | dataSets (n : Int)
  | errors (b : Bool)
  | normalized (b : Bool)
  | gm (v : ℚ)
  | radius (v : ℚ)
  | flat (v : ℚ)
  | omega (v : ℚ)
  | epoch (t : T)
  | first (t : T)
  | last (t : T)
  | wave (w : Doodson.Wave)
  | other

def blanks (n : Nat) : List Char := List.replicate n ' '

/-- The line is `key : arg` with any number of blanks at the colon. -/
def HasKey (key line arg : List Char) : Prop :=
  ∃ a b, line = key ++ (blanks a ++ ':' :: (blanks b ++ arg)) ∧ arg.head? ≠ some ' '

/-- The value is this text and trailing blanks. The text has no colon. -/
def TextIs (arg v : List Char) : Prop :=
  ∃ k, arg = v ++ blanks k ∧ v ≠ [] ∧ v.getLast? ≠ some ' ' ∧ ':' ∉ v ∧ '\x00' ∉ v

/-- The value begins with this number. -/
def NumIs (arg : List Char) (v : ℚ) : Prop :=
  ∃ (d : Dec) (rest : List Char), d.Ok ∧ d.value = v ∧ arg = d.text ++ rest ∧ Ends rest

/-- The value begins with this integer. -/
def IntIs (arg : List Char) (n : Int) : Prop := ∃ rest, BeginsInt arg n rest

/-- Seconds after the epoch `e`, then characters other than digits, then the same time as a date. -/
def TimeIs {T : Type} (date : List Char → Option T) (addNs : T → Int → T) (e : T) (arg : List Char) (t : T) : Prop :=
  ∃ (d : Dec) (ns : Int) (mid text : List Char), d.Ok ∧ d.value * 1000000000 = ns ∧ |ns| < 9223372036854775808 ∧
    arg = d.text ++ (mid ++ text) ∧ Ends (mid ++ text) ∧ (∀ c ∈ mid, isDig c = false) ∧ (∃ c, text.head? = some c ∧ isDig c) ∧
    date text = some t ∧ addNs e ns = t

/-- Keys whose value is not kept. -/
def ignored : List (List Char) :=
  ["PRODUCER INSTITUTION".toList, "SOFTWARE VERSION".toList, "SOFTWARE LINK TIME".toList, "REFERENCE DOCUMENTATION".toList,
    "PRODUCT START CREATE TIME(UTC)".toList, "PRODUCT END CREATE TIME(UTC)".toList, "FILESIZE (BYTES)".toList,
    "FILENAME".toList, "DATA FORMAT (N,M,C,S)".toList]

/-- The line gives this setting, when the reference epoch is `e`. Texts have the documented lengths; the key of the radius is
at least as wide as in the files of the producer (the colon is not before column 22). -/
def Gives {T : Type} (date : List Char → Option T) (addNs : T → Int → T) (newYear : Int → T) (e : T) (line : List Char) :
    Setting T → Prop
  | .agency v => ∃ arg, HasKey "PRODUCER AGENCY".toList line arg ∧ TextIs arg v ∧ v.length < 20
  | .satellite v => ∃ arg, HasKey "SATELLITE NAME".toList line arg ∧ TextIs arg v ∧ v.length < 20
  | .sensor v => ∃ arg, HasKey "SENSOR NAME".toList line arg ∧ TextIs arg v ∧ v.length < 20
  | .level v => ∃ arg, HasKey "PROCESS LEVEL (1A OR 1B)".toList line arg ∧ TextIs arg v ∧ v.length < 4
  | .pressure v => ∃ arg, (HasKey "PRESSURE TYPE (SP OR VI)".toList line arg ∨
      HasKey "PRESSURE TYPE (ATM OR OCN)".toList line arg) ∧ TextIs arg v ∧ v.length < 16
  | .fileType n => ∃ arg, HasKey "FILE TYPE ipAOD1BF".toList line arg ∧ IntIs arg n
  | .fileFormat n => ∃ arg, HasKey "FILE FORMAT 0=BINARY 1=ASCII".toList line arg ∧ IntIs arg n
  | .headerRecords n => ∃ arg, HasKey "NUMBER OF HEADER RECORDS".toList line arg ∧ IntIs arg n
  | .dataRecords n => ∃ arg, HasKey "NUMBER OF DATA RECORDS".toList line arg ∧ IntIs arg n
  | .maxDegree n => ∃ arg, HasKey "MAXIMUM DEGREE".toList line arg ∧ IntIs arg n
  | .dataSets n => ∃ arg, HasKey "NUMBER OF DATA SETS".toList line arg ∧ IntIs arg n
  | .errors b => ∃ arg, HasKey "COEFFICIENTS ERRORS (YES/NO)".toList line arg ∧ TextIs arg (if b then "YES".toList else "NO".toList)
  | .normalized b => ∃ arg, HasKey "COEFF. NORMALIZED (YES/NO)".toList line arg ∧ TextIs arg (if b then "YES".toList else "NO".toList)
  | .gm v => ∃ arg, HasKey "CONSTANT GM [M^3/S^2]".toList line arg ∧ NumIs arg v
  | .radius v => ∃ arg, HasKey ("CONSTANT A [M]".toList ++ blanks 8) line arg ∧ NumIs arg v
  | .flat v => ∃ arg, HasKey "CONSTANT FLAT [-]".toList line arg ∧ NumIs arg v
  | .omega v => ∃ arg, HasKey "CONSTANT OMEGA [RAD/S]".toList line arg ∧ NumIs arg v
  | .epoch t => ∃ arg, HasKey "TIME EPOCH (GPS TIME)".toList line arg ∧ date arg = some t
  | .first t => ∃ arg, (HasKey "TIME FIRST OBS(SEC PAST EPOCH)".toList line arg ∧ TimeIs date addNs e arg t) ∨
      ∃ y, HasKey "TIME FIRST OBS (YEAR START)".toList line arg ∧ IntIs arg y ∧ t = newYear y
  | .last t => ∃ arg, (HasKey "TIME LAST OBS(SEC PAST EPOCH)".toList line arg ∧ TimeIs date addNs e arg t) ∨
      ∃ y, HasKey "TIME LAST OBS (YEAR END)".toList line arg ∧ IntIs arg y ∧ t = newYear y
  | .wave w => ∃ arg, HasKey "PARTIAL TIDE".toList line arg ∧ TextIs arg w.name.toList ∧ w.name.toList.length < 8 ∧
      w ∈ Doodson.atmospheric
  | .other => ∃ key ∈ ignored, ∃ rest, line = key ++ rest

/-- The reference epoch after a line. -/
def Setting.after {T : Type} (e : T) : Setting T → T
  | .epoch t => t
  | _ => e

/-- The lines hold these settings, one each, in this order, starting with the reference epoch `e`. -/
inductive Holds {T : Type} (date : List Char → Option T) (addNs : T → Int → T) (newYear : Int → T) :
    T → List (List Char) → List (Setting T) → Prop where
  | nil {e} : Holds date addNs newYear e [] []
  | cons {e line lines s ss} : line.length < 124 → '\n' ∉ line → Gives date addNs newYear e line s →
      Holds date addNs newYear (s.after e) lines ss → Holds date addNs newYear e (line :: lines) (s :: ss)

/-- The value that stands last, or the default. -/
def lastOf {T α : Type} (f : Setting T → Option α) (default : α) (ss : List (Setting T)) : α :=
  ((ss.filterMap f).getLast?).getD default

/-- The setting occurs at most once. -/
def Once {T α : Type} (f : Setting T → Option α) (ss : List (Setting T)) : Prop := (ss.filterMap f).length ≤ 1

namespace Setting
variable {T : Type}
def agency? : Setting T → Option (List Char) | .agency v => some v | _ => none
def satellite? : Setting T → Option (List Char) | .satellite v => some v | _ => none
def sensor? : Setting T → Option (List Char) | .sensor v => some v | _ => none
def level? : Setting T → Option (List Char) | .level v => some v | _ => none
def pressure? : Setting T → Option (List Char) | .pressure v => some v | _ => none
def fileType? : Setting T → Option (Option Int) | .fileType n => some (some n) | _ => none
def fileFormat? : Setting T → Option (Option Int) | .fileFormat n => some (some n) | _ => none
def headerRecords? : Setting T → Option (Option Int) | .headerRecords n => some (some n) | _ => none
def dataRecords? : Setting T → Option (Option Int) | .dataRecords n => some (some n) | _ => none
def maxDegree? : Setting T → Option (Option Int) | .maxDegree n => some (some n) | _ => none
def dataSets? : Setting T → Option (Option Int) | .dataSets n => some (some n) | _ => none
def errors? : Setting T → Option (Option Bool) | .errors b => some (some b) | _ => none
def normalized? : Setting T → Option (Option Bool) | .normalized b => some (some b) | _ => none
def gm? : Setting T → Option (Option ℚ) | .gm v => some (some v) | _ => none
def radius? : Setting T → Option (Option ℚ) | .radius v => some (some v) | _ => none
def flat? : Setting T → Option (Option ℚ) | .flat v => some (some v) | _ => none
def omega? : Setting T → Option (Option ℚ) | .omega v => some (some v) | _ => none
def epoch? : Setting T → Option T | .epoch t => some t | _ => none
def first? : Setting T → Option T | .first t => some t | _ => none
def last? : Setting T → Option T | .last t => some t | _ => none
def wave? : Setting T → Option (Option Doodson.Wave) | .wave w => some (some w) | _ => none
end Setting

/-- All keys of the format. -/
def knownKeys : List (List Char) := ignored ++
  ["PRODUCER AGENCY".toList, "SATELLITE NAME".toList, "SENSOR NAME".toList, "PROCESS LEVEL (1A OR 1B)".toList,
    "PRESSURE TYPE (SP OR VI)".toList, "PRESSURE TYPE (ATM OR OCN)".toList, "FILE TYPE ipAOD1BF".toList,
    "FILE FORMAT 0=BINARY 1=ASCII".toList, "NUMBER OF HEADER RECORDS".toList, "NUMBER OF DATA RECORDS".toList,
    "MAXIMUM DEGREE".toList, "NUMBER OF DATA SETS".toList, "COEFFICIENTS ERRORS (YES/NO)".toList,
    "COEFF. NORMALIZED (YES/NO)".toList, "CONSTANT GM [M^3/S^2]".toList, "CONSTANT A [M]".toList,
    "CONSTANT FLAT [-]".toList, "CONSTANT OMEGA [RAD/S]".toList, "TIME EPOCH (GPS TIME)".toList,
    "TIME FIRST OBS(SEC PAST EPOCH)".toList, "TIME FIRST OBS (YEAR START)".toList,
    "TIME LAST OBS(SEC PAST EPOCH)".toList, "TIME LAST OBS (YEAR END)".toList, "PARTIAL TIDE".toList]

/-- The line has this key and, behind a colon, begins with this integer. -/
def SaysInt (key : List Char) (n : Int) (line : List Char) : Prop :=
  ∃ p arg rest, line = key ++ (p ++ ':' :: arg) ∧ BeginsInt arg n rest

/-- The line has this key and, behind a colon, begins with this number. -/
def SaysNum (key : List Char) (v : ℚ) (line : List Char) : Prop :=
  ∃ p arg rest, line = key ++ (p ++ ':' :: arg) ∧ BeginsNum arg v rest

/-- The line has this key and ends with a text, beginning with a digit, that is the date `t`. -/
def SaysDate {T : Type} (date : List Char → Option T) (key : List Char) (t : T) (line : List Char) : Prop :=
  ∃ p text, line = key ++ (p ++ text) ∧ (∃ c, text.head? = some c ∧ isDig c) ∧ date text = some t

/-- The line has this key and, behind a colon, begins with a year; `t` is the beginning of that year. -/
def SaysYear {T : Type} (newYear : Int → T) (key : List Char) (t : T) (line : List Char) : Prop :=
  ∃ y, SaysInt key y line ∧ t = newYear y

/-- The text of some lines. -/
def textOf (lines : List (List Char)) : List Char := lines.flatMap (· ++ ['\n'])

end Verif.Aod1b.Head
