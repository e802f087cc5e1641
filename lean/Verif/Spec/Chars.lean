import Verif.Model.Chars
/-
Texts of numbers and the numbers they denote, written the usual way.
-/
namespace Verif.Chars

/-- A decimal text: sign, integer digits, fraction digits (`none`: no point), exponent
(letter, sign, digits). -/
structure Dec where
  neg : Bool
  int : List Char
  frac : Option (List Char)
  exp : Option (Char × Option Bool × List Char)

/-- All digit fields hold digits; there is a digit before the exponent; an exponent has digits. -/
structure Dec.Ok (d : Dec) : Prop where
  int : ∀ c ∈ d.int, isDig c
  frac : ∀ f, d.frac = some f → ∀ c ∈ f, isDig c
  nonempty : d.int ≠ [] ∨ ∃ f, d.frac = some f ∧ f ≠ []
  exp : ∀ l s e, d.exp = some (l, s, e) → (l = 'e' ∨ l = 'E') ∧ e ≠ [] ∧ ∀ c ∈ e, isDig c

/-- Text of the fraction. -/
def fracText : Option (List Char) → List Char
  | none => []
  | some f => '.' :: f

/-- Text of the sign of the exponent. -/
def expSignText : Option Bool → List Char
  | none => []
  | some true => ['-']
  | some false => ['+']

/-- Text of the exponent. -/
def expText : Option (Char × Option Bool × List Char) → List Char
  | none => []
  | some (l, s, e) => l :: (expSignText s ++ e)

/-- The text. -/
def Dec.text (d : Dec) : List Char :=
  (if d.neg then ['-'] else []) ++ (d.int ++ (fracText d.frac ++ expText d.exp))

/-- Value of a list of digits, most significant first. -/
def natOf : List Char → Nat
  | [] => 0
  | c :: cs => (c.toNat - 48) * 10 ^ cs.length + natOf cs

/-- Value of the exponent. -/
def expVal : Option (Char × Option Bool × List Char) → ℤ
  | none => 0
  | some (_, s, e) => if s = some true then -(natOf e : ℤ) else natOf e

/-- The number: ± (int + frac / 10^(digits of frac)) * 10^(±exp). -/
def Dec.value (d : Dec) : ℚ :=
  let f := d.frac.getD []
  let m : ℚ := natOf d.int + natOf f / 10 ^ f.length
  (if d.neg then -m else m) * (10 : ℚ) ^ expVal d.exp

/-- What may follow a number so that it ends there: nothing, or a character that cannot continue it. -/
def Ends (rest : List Char) : Prop :=
  ∀ c ∈ rest.head?, isDig c = false ∧ c ≠ '.' ∧ c ≠ 'e' ∧ c ≠ 'E'

/-- The line begins with these numbers separated by blanks (there may be blanks in front, and anything
that does not continue the last number behind). -/
def LineIs (line : List Char) (vals : List ℚ) : Prop :=
  match vals with
  | [] => Ends line
  | v :: vs => ∃ (n : Nat) (d : Dec) (rest : List Char), d.Ok ∧ d.value = v ∧
      line = List.replicate n ' ' ++ (d.text ++ rest) ∧ Ends rest ∧ LineIs rest vs

/-- As `LineIs`, but the numbers may touch (as in "1.5-3", which reads as 1.5 and -3). -/
def LineHas (line : List Char) (vals : List ℚ) : Prop :=
  match vals with
  | [] => True
  | v :: vs => ∃ (n : Nat) (d : Dec) (rest : List Char), d.Ok ∧ d.value = v ∧
      line = List.replicate n ' ' ++ (d.text ++ rest) ∧ LineHas rest vs

/-- An integer text: sign and digits. -/
structure IntText where
  neg : Bool
  digits : List Char

/-- There are digits, and nothing else. -/
def IntText.Ok (d : IntText) : Prop := d.digits ≠ [] ∧ ∀ c ∈ d.digits, isDig c

/-- The text. -/
def IntText.text (d : IntText) : List Char := (if d.neg then ['-'] else []) ++ d.digits

/-- The number. -/
def IntText.value (d : IntText) : Int := if d.neg then -(natOf d.digits : Int) else natOf d.digits

/-- The line begins, after blanks, with the integer `v` (of 32 bits), which ends there; `rest` follows. -/
def BeginsInt (line : List Char) (v : Int) (rest : List Char) : Prop :=
  ∃ (n : Nat) (d : IntText), d.Ok ∧ d.value = v ∧ line = List.replicate n ' ' ++ (d.text ++ rest) ∧
    (∀ c ∈ rest.head?, isDig c = false) ∧ -2147483648 ≤ v ∧ v ≤ 2147483647

/-- The line begins, after blanks, with the number `v`; `rest` follows. -/
def BeginsNum (line : List Char) (v : ℚ) (rest : List Char) : Prop :=
  ∃ (n : Nat) (d : Dec), d.Ok ∧ d.value = v ∧ line = List.replicate n ' ' ++ (d.text ++ rest)

end Verif.Chars
