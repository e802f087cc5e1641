import Mathlib.Algebra.Order.Field.Rat
import Mathlib.Algebra.Field.Basic
/-
Number parsing of the C++ standard library, as used by all readers (`std::from_chars`), and the `skip_ws`
helper that the readers share. A C string is the list of its characters, without the zero.

Simplifications: a `double` is the exact rational the text denotes (no rounding, no range limit);
the texts "inf" and "nan" are not accepted.
-/
namespace Verif.Chars

/-- Decimal digit. -/
def isDig (c : Char) : Bool := c.isDigit

/-- Value of a string of digits. -/
def digitsVal (ds : List Char) : Nat := ds.foldl (fun a c => 10 * a + (c.toNat - 48)) 0

/-- The optional minus sign of `from_chars` (a plus sign is not accepted). -/
def takeSign : List Char → Bool × List Char
  | '-' :: r => (true, r)
  | s => (false, s)

/-- The optional fraction: a point and digits. -/
def takeFrac : List Char → List Char × List Char
  | '.' :: r => (r.takeWhile isDig, r.dropWhile isDig)
  | s => ([], s)

/-- Sign of the exponent: plus and minus are accepted. -/
def takeExpSign : List Char → Bool × List Char
  | '-' :: r => (true, r)
  | '+' :: r => (false, r)
  | s => (false, s)

/-- Signed number from sign and magnitude. -/
def signed (neg : Bool) (n : Nat) : Int := if neg then -(n : Int) else n

/-- The optional exponent: consumed only if it has digits. -/
def takeExp : List Char → Int × List Char
  | c :: r =>
    if c = 'e' ∨ c = 'E' then
      let (neg, r1) := takeExpSign r
      if (r1.takeWhile isDig).isEmpty then (0, c :: r)
      else (signed neg (digitsVal (r1.takeWhile isDig)), r1.dropWhile isDig)
    else (0, c :: r)
  | [] => (0, [])

/-- `std::from_chars(first, last, double &)` with the default (general) format: the value and the rest,
or `none` for an error. -/
def fromCharsDouble (s : List Char) : Option (ℚ × List Char) :=
  let (neg, s) := takeSign s
  let ip := s.takeWhile isDig
  let (fp, s2) := takeFrac (s.dropWhile isDig)
  if ip.isEmpty && fp.isEmpty then none
  else
    let (e, s3) := takeExp s2
    some ((signed neg (digitsVal (ip ++ fp)) : ℚ) * (10 : ℚ) ^ (e - (fp.length : Int)), s3)

/-- `std::from_chars(first, last, int &)` (32 bits). -/
def fromCharsInt (s : List Char) : Option (Int × List Char) :=
  let (neg, s) := takeSign s
  let ip := s.takeWhile isDig
  if ip.isEmpty then none
  else
    let v := signed neg (digitsVal ip)
    if -2147483648 ≤ v ∧ v ≤ 2147483647 then some (v, s.dropWhile isDig) else none

/-- `skip_ws` (e.g. parse_lambert_coeffs.cpp:26-30): skip blanks. -/
def skipWs (s : List Char) : List Char := s.dropWhile (· = ' ')

/-- The loop over the numbers of a line, which the readers share (parse_lambert_coeffs.cpp:101-106,
parse_iers_c0414.cpp:93-99, parse_iers_c0420.cpp:115-121): the list holds the old values; a number that cannot be read leaves its slot and the read position. Returns the new values and the
number of errors. -/
def readFields : List ℚ → List Char → List ℚ × Nat
  | [], _ => ([], 0)
  | old :: ds, s =>
    match fromCharsDouble (skipWs s) with
    | some (v, r) => let (vs, e) := readFields ds r; (v :: vs, e)
    | none => let (vs, e) := readFields ds (skipWs s); (old :: vs, e + 1)

end Verif.Chars
