import Verif.Model.Doodson
/-
What a Doodson string means, from the table in the documentation (GROOPS convention), independent of the
conversion functions.
-/
namespace Verif.Doodson
open Verif

/-- The characters that denote -13, -12, ..., 22, in this order. -/
def glyphs : List Int := "nopqrstuvwxyz0123456789abcdefghijklm".toList.map fun c => (c.toNat : Int)

/-- Character `c` denotes the integer `v`. -/
def Denotes (c v : Int) : Prop := 0 ≤ v + 13 ∧ glyphs[(v + 13).toNat]? = some c

/-- A multiplier as written, `w`, can be written with one character. -/
def Digit (w : Int) : Prop := -13 ≤ w ∧ w ≤ 22

/-- Constituents that have a text form (first multiplier as is, the others increased by 5). -/
def InRange (d : DC) : Prop :=
  Digit d.i0 ∧ Digit (d.i1 + 5) ∧ Digit (d.i2 + 5) ∧ Digit (d.i3 + 5) ∧ Digit (d.i4 + 5) ∧ Digit (d.i5 + 5)

/-- `s` is the text `xxx.xxx` of the multipliers of `d`. -/
def Renders (s : List Int) (d : DC) : Prop :=
  ∃ c0 c1 c2 c3 c4 c5, s = [c0, c1, c2, 46, c3, c4, c5] ∧ Denotes c0 d.i0 ∧ Denotes c1 (d.i1 + 5) ∧
    Denotes c2 (d.i2 + 5) ∧ Denotes c3 (d.i3 + 5) ∧ Denotes c4 (d.i4 + 5) ∧ Denotes c5 (d.i5 + 5)

/-- Same multipliers (the π factor is no part of the text). -/
def SameMultipliers (a b : DC) : Prop :=
  a.i0 = b.i0 ∧ a.i1 = b.i1 ∧ a.i2 = b.i2 ∧ a.i3 = b.i3 ∧ a.i4 = b.i4 ∧ a.i5 = b.i5

/-- Upper case letters replaced by lower case. -/
def fold (s : List Int) : List Int := s.map fun c => if 65 ≤ c ∧ c ≤ 90 then c + 32 else c

/-- A decimal digit character. -/
def IsDigit (c : Int) : Prop := 48 ≤ c ∧ c ≤ 57

/-- A `char` array holding the characters of `s` and a NUL. -/
def cstr (s : String) : List Int := bytes s ++ [0]

end Verif.Doodson
