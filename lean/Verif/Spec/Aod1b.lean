import Verif.Model.Aod1b
import Verif.Spec.Icgem
/-
What an AOD1B file says.
-/
namespace Verif.Aod1b
open Verif.Chars Verif.Icgem

/-- A line the readers can hold: no line feed, at most 123 characters. -/
def ShortLine (l : List Char) : Prop := '\n' ∉ l ∧ l.length < 124

/-- The text of some lines, each ended by a line feed. -/
def unlines (ls : List (List Char)) : List Char := (ls.map (· ++ ['\n'])).flatten

/-- A stream in good state with this text before it. -/
def At (text : List Char) : In := ⟨text, false, false⟩

/-- A record of a block: degree, order, C and S. -/
structure Row where
  n : Int
  m : Int
  C : ℚ
  S : ℚ

/-- Within the request. -/
def Row.In (n m : Int) (r : Row) : Prop := r.n ≤ n ∧ r.m ≤ m

instance (n m : Int) (r : Row) : Decidable (r.In n m) := inferInstanceAs (Decidable (_ ∧ _))

/-- The line holds the record (C and S only matter for records within the request). -/
def RowLine (strict : Bool) (ws : Char → Bool) (n m : Int) (line : List Char) (r : Row) : Prop :=
  ∃ r1 r2, IntAt ws line r.n r1 ∧ IntAt ws r1 r.m r2 ∧
    (r.In n m → ∃ r3 r4, NumAt strict ws r2 r.C r3 ∧ NumAt strict ws r3 r.S r4)

/-- The last value that the records within the request give for degree `i` and order `j`; zero if there is none. -/
noncomputable def lastValue (n m : Int) (f : Row → ℚ) (rows : List Row) (i j : Nat) : ℝ :=
  match (rows.filter fun r => decide (r.In n m ∧ r.n = (i : Int) ∧ r.m = (j : Int))).getLast? with
  | some r => f r
  | none => 0

/-- `d` is the largest of the values `f` over the records within the request, or zero if none is larger. -/
def Top (n m : Int) (f : Row → Int) (rows : List Row) (d : Int) : Prop :=
  0 ≤ d ∧ (∀ r ∈ rows, r.In n m → f r ≤ d) ∧ (d = 0 ∨ ∃ r ∈ rows, r.In n m ∧ f r = d)

/-- A record that has a place in a triangle. -/
def Row.Triangle (r : Row) : Prop := 0 ≤ r.m ∧ r.m ≤ r.n

/-- All coefficients with rows below `k` are what the records say. -/
def Holds (n m : Int) (rows : List Row) (k : Nat) (co : Coeffs ℝ) : Prop :=
  ∀ i j : Nat, j ≤ i → i < k →
    co.C i j = lastValue n m Row.C rows i j ∧ co.S i j = lastValue n m Row.S rows i j

/-- How a type is written. -/
def Ty.text : Ty → List Char
  | .atm => "atm".toList
  | .ocn => "ocn".toList
  | .glo => "glo".toList
  | .oba => "oba".toList

/-- The header line of a block: set number, number of lines, epoch, type. The date library reads the epoch from
`dateText`. -/
def HeaderLine {T : Type} (date : List Char → Option (T × List Char)) (line : List Char) (h : Hdr T) : Prop :=
  ∃ (r1 r2 dateText : List Char) (n : Nat) (rest : List Char),
    line = "DATA SET".toList ++ r1 ∧ IntAt sep2 r1 h.setNr (':' :: r2) ∧
    IntAt sep2 r2 h.numLines (" COEFFICIENTS FOR ".toList ++ dateText) ∧ (∀ c ∈ dateText.head?, c ≠ ' ') ∧
    date dateText = some (h.epoch, ' ' :: ("OF TYPE".toList ++ (List.replicate n ' ' ++ (h.type.text ++ rest))))

/-- A block of a file: its header line, what that says, its other lines. -/
structure Block (T : Type) where
  head : List Char
  hdr : Hdr T
  lines : List (List Char)

/-- The header line is one, and announces the lines that follow. -/
structure Block.Ok {T : Type} (date : List Char → Option (T × List Char)) (b : Block T) : Prop where
  head : HeaderLine date b.head b.hdr
  short : ShortLine b.head
  lines : ∀ l ∈ b.lines, ShortLine l
  count : b.hdr.numLines = b.lines.length

/-- The text of a block. -/
def Block.text {T : Type} (b : Block T) : List Char := unlines (b.head :: b.lines)

/-- The text of blocks. -/
def blocksText {T : Type} (bs : List (Block T)) : List Char := (bs.map Block.text).flatten

/-- Lines of a file header: only the last begins with `END OF HEADER`. -/
def FileHeader (ls : List (List Char)) : Prop :=
  ∃ (pre : List (List Char)) (last : List Char), ls = pre ++ [last] ∧ (∀ l ∈ pre, ShortLine l ∧ l.take 13 ≠ "END OF HEADER".toList) ∧
    ShortLine last ∧ last.take 13 = "END OF HEADER".toList

/-- The header line of a block in a tidal file: number of the set (`nr`), number of lines, kind. -/
def TidalHead (nr kind : List Char) (line : List Char) (n : Int) : Prop :=
  ∃ (r : List Char) (b : Nat) (rest : List Char), line = nr ++ r ∧ IntAt sep2 r n (List.replicate b ' ' ++ (kind ++ rest))

/-- A block of a tidal file: a header line announcing `n` lines and as many lines with these records. -/
def TidalBlock (strict : Bool) (nr kind : List Char) (n m : Int) (lines : List (List Char)) (rows : List Row) : Prop :=
  ∃ (head : List Char) (k : Int) (body : List (List Char)), lines = head :: body ∧ (∀ l ∈ lines, ShortLine l) ∧
    TidalHead nr kind head k ∧ body.length = k.toNat ∧ List.Forall₂ (RowLine strict sep2 n m) body rows

/-- A tidal file: header, cosine block, sine block, and a last line that is not ended (empty in a file that is ended). -/
def TidalFile (strict : Bool) (n m : Int) (text : List Char) (cosRows sinRows : List Row) (tail : List Char) : Prop :=
  ∃ hd lc ls, FileHeader hd ∧ hd.length ≤ 99 ∧
    TidalBlock strict "DATA SET 01:".toList "COEFFICIENTS OF TYPE cos".toList n m lc cosRows ∧
    TidalBlock strict "DATA SET 02:".toList "COEFFICIENTS OF TYPE sin".toList n m ls sinRows ∧
    ShortLine tail ∧ text = unlines hd ++ (unlines lc ++ (unlines ls ++ tail))

end Verif.Aod1b
