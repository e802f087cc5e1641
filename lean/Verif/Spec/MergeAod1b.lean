import Verif.Spec.Chars
/-
AOD1B files as the merge tool sees them, and the file it should write.
-/
namespace Verif.Merge

/-- A file: the fields of the header in order, and the text behind the header. -/
structure Day where
  fields : List (List Char × List Char)
  data : List Char

/-- Printable text that does not begin or end with a blank. -/
def Tight (s : List Char) : Prop :=
  (∀ c ∈ s, 32 ≤ c.toNat ∧ c.toNat < 127) ∧ s.head? ≠ some ' ' ∧ s.getLast? ≠ some ' '

/-- A header line: key, colon, value, with blanks in between and at the end. -/
def HeaderLine (k v l : List Char) : Prop :=
  ∃ a b c : Nat, l = k ++ List.replicate a ' ' ++ ':' :: (List.replicate b ' ' ++ v ++ List.replicate c ' ')

/-- The text of a file: header lines, the end of the header, the data. -/
inductive Written : List (List Char × List Char) → List Char → List Char → Prop
  | theEnd (n : Nat) (data : List Char) : Written [] data ("END OF HEADER".toList ++ List.replicate n ' ' ++ '\n' :: data)
  | field {k v l : List Char} {fs : List (List Char × List Char)} {data t : List Char} :
      HeaderLine k v l → Written fs data t → Written ((k, v) :: fs) data (l ++ '\n' :: t)

/-- Keys are different, have no colon, and keys and values are tight. -/
structure Day.Ok (d : Day) : Prop where
  nodup : (d.fields.map (·.1)).Nodup
  key : ∀ p ∈ d.fields, Tight p.1 ∧ ':' ∉ p.1
  value : ∀ p ∈ d.fields, Tight p.2

/-- A file on disk holds this day. -/
def Holds (text : Option (List Char)) (d : Day) : Prop := d.Ok ∧ ∃ t, text = some t ∧ Written d.fields d.data t

/-- `n` digits. -/
def Digits (n : Nat) (s : List Char) : Prop := s.length = n ∧ ∀ c ∈ s, c.isDigit = true

/-- A date and time as `2005-05-01 06:00:00`. -/
def DateText (s : List Char) : Prop :=
  ∃ Y M D h m sec : List Char, Digits 4 Y ∧ Digits 2 M ∧ Digits 2 D ∧ Digits 2 h ∧ Digits 2 m ∧ Digits 2 sec ∧
    s = Y ++ '-' :: (M ++ '-' :: (D ++ ' ' :: (h ++ ':' :: (m ++ ':' :: sec))))

/-- The value of an epoch field: seconds and, in parentheses, the date. `read` reads dates. -/
def EpochText (read : List Char → Option Int) (v : List Char) (t : Int) : Prop :=
  ∃ (ip fp date rest : List Char), (∀ c ∈ ip, c.isDigit = true) ∧ (∀ c ∈ fp, c.isDigit = true) ∧ DateText date ∧
    read date = some t ∧ v = ip ++ '.' :: (fp ++ ' ' :: '(' :: (date ++ rest))

/-- The value of a count. -/
def CountText (v : List Char) (n : Int) : Prop := ∃ d : Chars.IntText, d.Ok ∧ d.value = n ∧ v = d.text

/-- What the header says about the times and sizes. -/
structure Says (read : List Char → Option Int) (d : Day) (epoch first last records sets : Int) : Prop where
  epoch : ∃ v, ("TIME EPOCH (GPS TIME)".toList, v) ∈ d.fields ∧ read v = some epoch
  first : ∃ v, ("TIME FIRST OBS(SEC PAST EPOCH)".toList, v) ∈ d.fields ∧ EpochText read v first
  last : ∃ v, ("TIME LAST OBS(SEC PAST EPOCH)".toList, v) ∈ d.fields ∧ EpochText read v last
  records : ∃ v, ("NUMBER OF DATA RECORDS".toList, v) ∈ d.fields ∧ CountText v records
  sets : ∃ v, ("NUMBER OF DATA SETS".toList, v) ∈ d.fields ∧ CountText v sets

/-- Fields that may differ between files to be merged. -/
def mayDiffer : List (List Char) := [
  "TIME FIRST OBS(SEC PAST EPOCH)".toList, "TIME LAST OBS(SEC PAST EPOCH)".toList, "PRODUCT START CREATE TIME(UTC)".toList,
  "PRODUCT END CREATE TIME(UTC)".toList, "FILESIZE (BYTES)".toList, "FILENAME".toList]

/-- The other fields of `a` are also in `b`. -/
def Agree (a b : Day) : Prop := ∀ p ∈ a.fields, p.1 ∉ mayDiffer → p ∈ b.fields

/-- The header of the merged file: that of the earlier file with a new last epoch and new counts. -/
def mergedFields (a : Day) (last records sets : List Char) : List (List Char × List Char) :=
  a.fields.map fun p =>
    if p.1 = "TIME LAST OBS(SEC PAST EPOCH)".toList then (p.1, last)
    else if p.1 = "NUMBER OF DATA RECORDS".toList then (p.1, records)
    else if p.1 = "NUMBER OF DATA SETS".toList then (p.1, sets)
    else p

/-- A header line as the tool writes it: the key on thirty columns, a colon, the value. -/
def lineOf (p : List Char × List Char) : List Char :=
  p.1 ++ List.replicate (30 - p.1.length) ' ' ++ ':' :: ' ' :: p.2 ++ ['\n']

/-- A path in a working directory. -/
def path (cwd name : List Char) : List Char := cwd ++ '/' :: name

end Verif.Merge
