import Verif.Spec.Chars
import Verif.Model.Icgem
/-
The header of an ICGEM file: lines that give a value to a keyword, in any order, among other lines.
-/
namespace Verif.Icgem.Head
open Verif.Chars

/-- What a header line can set. -/
inductive Setting where
  | productType (s : List Char)
  | modelName (s : List Char)
  | tideSystem (s : List Char)
  | norm (s : List Char)
  | gm (v : ℚ)
  | radius (v : ℚ)
  | maxDegree (n : Int)
  | errors (e : ErrorModel)
  | format (two : Bool)

def blanks (n : Nat) : List Char := List.replicate n ' '

/-- A line with this keyword and this rest, which starts with something other than a blank. -/
def HasKey (kw line arg : List Char) : Prop :=
  ∃ a b, line = blanks a ++ (kw ++ (blanks (b + 1) ++ arg)) ∧ arg ≠ [] ∧ arg.head? ≠ some ' '

/-- The rest of the line is this text and trailing blanks. -/
def TextIs (arg s : List Char) : Prop := ∃ k, arg = s ++ blanks k ∧ s ≠ [] ∧ s.getLast? ≠ some ' '

/-- The rest of the line begins with this word. -/
def WordIs (arg w : List Char) : Prop := ∃ rest, arg = w ++ rest ∧ ∀ c ∈ rest.head?, c = ' '

/-- The rest of the line begins with this number. -/
def NumIs (arg : List Char) (v : ℚ) : Prop :=
  ∃ (d : Dec) (rest : List Char), d.Ok ∧ d.value = v ∧ arg = d.text ++ rest ∧ Ends rest

/-- The words for the error columns. -/
def errorWord : ErrorModel → List Char
  | .no => "no".toList
  | .calibrated => "calibrated".toList
  | .formal => "formal".toList
  | .both => "calibrated_and_formal".toList

/-- The line gives this setting. Texts have the lengths that the reader has room for. -/
def Gives (line : List Char) : Setting → Prop
  | .productType s => ∃ arg, HasKey "product_type".toList line arg ∧ TextIs arg s ∧ arg.length < 64
  | .modelName s => ∃ arg, HasKey "modelname".toList line arg ∧ TextIs arg s ∧ arg.length < 128
  | .tideSystem s => ∃ arg, HasKey "tide_system".toList line arg ∧ TextIs arg s ∧ arg.length < 64
  | .norm s => ∃ arg, HasKey "norm".toList line arg ∧ TextIs arg s ∧ arg.length < 64
  | .gm v => ∃ arg, HasKey "earth_gravity_constant".toList line arg ∧ NumIs arg v
  | .radius v => ∃ arg, HasKey "radius".toList line arg ∧ NumIs arg v
  | .maxDegree n => ∃ arg rest, HasKey "max_degree".toList line arg ∧ BeginsInt arg n rest
  | .errors e => ∃ arg, HasKey "errors".toList line arg ∧ WordIs arg (errorWord e)
  | .format two => ∃ arg, HasKey "format".toList line arg ∧
      WordIs arg (if two then "icgem2.0".toList else "icgem1.0".toList)

/-- The nine keywords. -/
def keywords : List (List Char) :=
  ["product_type".toList, "modelname".toList, "earth_gravity_constant".toList, "radius".toList,
    "max_degree".toList, "errors".toList, "tide_system".toList, "norm".toList, "format".toList]

/-- A line that is not about any keyword: it does not begin, after blanks, with the letters of one. -/
def Neutral (line : List Char) : Prop := ∀ kw ∈ keywords, ∀ a rest, line ≠ blanks a ++ (kw ++ rest)

/-- A line of the header that is not its end. -/
structure PlainLine (line : List Char) : Prop where
  short : line.length < 256
  one : '\n' ∉ line
  notEnd : ∀ rest, line ≠ "end_of_head".toList ++ rest

/-- The lines hold these settings, in this order, and nothing else about the keywords. -/
inductive Holds : List (List Char) → List Setting → Prop where
  | nil : Holds [] []
  | gives {line lines s ss} : PlainLine line → Gives line s → Holds lines ss → Holds (line :: lines) (s :: ss)
  | other {line lines ss} : PlainLine line → Neutral line → Holds lines ss → Holds (line :: lines) ss

/-- A line that has a keyword but no value that can be read: nothing behind the keyword, no number behind one that needs a
number, no known version behind `format`. -/
inductive Unreadable (line : List Char) : Prop where
  | empty (kw : List Char) (a b : Nat) : kw ∈ keywords → line = blanks a ++ (kw ++ blanks b) → Unreadable line
  | gm (arg : List Char) : HasKey "earth_gravity_constant".toList line arg → (∀ v rest, ¬ BeginsNum arg v rest) → Unreadable line
  | radius (arg : List Char) : HasKey "radius".toList line arg → (∀ v rest, ¬ BeginsNum arg v rest) → Unreadable line
  | maxDegree (arg : List Char) : HasKey "max_degree".toList line arg → (∀ n rest, ¬ BeginsInt arg n rest) → Unreadable line
  | format (arg : List Char) : HasKey "format".toList line arg → (∀ rest, arg ≠ "icgem1.0".toList ++ rest) →
      (∀ rest, arg ≠ "icgem2.0".toList ++ rest) → Unreadable line

/-- The value that stands last, or the default. -/
def lastOf {α : Type} (f : Setting → Option α) (default : α) (ss : List Setting) : α :=
  ((ss.filterMap f).getLast?).getD default

def Setting.productType? : Setting → Option (List Char) | .productType s => some s | _ => none
def Setting.modelName? : Setting → Option (List Char) | .modelName s => some s | _ => none
def Setting.tideSystem? : Setting → Option (List Char) | .tideSystem s => some s | _ => none
def Setting.norm? : Setting → Option (List Char) | .norm s => some s | _ => none
def Setting.gm? : Setting → Option ℚ | .gm v => some v | _ => none
def Setting.radius? : Setting → Option ℚ | .radius v => some v | _ => none
def Setting.maxDegree? : Setting → Option Int | .maxDegree v => some v | _ => none
def Setting.errors? : Setting → Option (Option ErrorModel) | .errors v => some (some v) | _ => none
def Setting.format? : Setting → Option Bool | .format v => some v | _ => none

/-- The text of some lines. -/
def unlines (lines : List (List Char)) : List Char := lines.flatMap (· ++ ['\n'])

end Verif.Icgem.Head
