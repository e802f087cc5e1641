import Verif.Model.Groops
import Verif.Spec.Doodson
import Verif.Spec.Chars
import Verif.Spec.Tide
/-
What GROOPS file names, lists and matrices say.
-/
namespace Verif.Groops
open Verif Verif.Doodson Verif.Tide Verif.Chars

/-- Sine or cosine part of a wave. -/
inductive Trig where
  | sin | cos
deriving DecidableEq

/-- The other one. -/
def Trig.other : Trig → Trig
  | .sin => .cos
  | .cos => .sin

/-- The letter that stands for it in the code. -/
def Trig.letter : Trig → Int
  | .sin => 115
  | .cos => 99

/-- Its text. -/
def Trig.text : Trig → List Int
  | .sin => bytes "sin"
  | .cos => bytes "cos"

/-- `fn` is `<model>_<doodson>_<name>_<sin|cos>.gfc`, as README.pdf of the models says: the Doodson number `xxx.xxx` in upper or
lower case; the name has no underscore. -/
def FileName (fn : List Int) (m : List Int) (d : DC) (w : List Int) (t : Trig) : Prop :=
  ∃ s, Renders (fold s) d ∧ 95 ∉ w ∧ fn = m ++ bytes "_" ++ s ++ bytes "_" ++ w ++ bytes "_" ++ t.text ++ bytes ".gfc"

/-- The letters of the Doodson number are upper case, as in all published models. -/
def Canonical (fn : List Int) (m : List Int) (d : DC) (w : List Int) (t : Trig) : Prop :=
  ∃ s, Renders (fold s) d ∧ (∀ c ∈ s, ¬ (97 ≤ c ∧ c ≤ 122)) ∧ 95 ∉ w ∧
    fn = m ++ bytes "_" ++ s ++ bytes "_" ++ w ++ bytes "_" ++ t.text ++ bytes ".gfc"

/-- The line holds, separated by blanks, the two words. -/
def TwoWords (line : List Int) (a b : List Int) : Prop :=
  a ≠ [] ∧ b ≠ [] ∧ 32 ∉ a ∧ 32 ∉ b ∧ ∃ i j k, 0 < j ∧
    line = List.replicate i 32 ++ a ++ List.replicate j 32 ++ b ++ List.replicate k 32

/-- The line begins with these integers (of 32 bits) separated by blanks. -/
def IntsAre (line : List Char) (vals : List Int) : Prop :=
  match vals with
  | [] => True
  | v :: vs => ∃ rest, BeginsInt line v rest ∧ IntsAre rest vs

/-- The lines hold these rows of numbers, and each line fits the buffer for `f` columns. -/
def RowsAre (f : Nat) (lines : List (List Char)) (rows : List (List ℚ)) : Prop :=
  List.Forall₂ (fun l vs => l.length < (f + 1) * 27 ∧ LineIs l vs ∧ vs.length = f) lines rows

/-- The sine or cosine coefficients of a constituent. -/
def part (w : Constituent) : Trig → Coeffs ℝ
  | .sin => w.sin
  | .cos => w.cos

/-- The file `f` is, by its name, the part `t` of the wave `d`. -/
def IsPart (f : List Int) (d : DC) (t : Trig) : Prop := ∃ n, parse f = .ok n ∧ n.d = d ∧ n.sinCos = t.letter

/-- Coefficients of a constituent nothing has been read for. -/
def Fresh (junk : Nat → Nat → ℝ) (c : Coeffs ℝ) : Prop := ∃ n m, newSet junk n m = .ok c

end Verif.Groops
