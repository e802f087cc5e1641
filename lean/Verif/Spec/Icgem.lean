import Verif.Model.Icgem
import Verif.Spec.Chars
import Mathlib.Algebra.BigOperators.Group.List.Basic
/-
ICGEM gravity models: what the lines mean and what the coefficients are (ICGEM-Format-2011, -2023).
-/
namespace Verif.Icgem
open Verif.Chars

/-- Kind of a record; the period is in years. -/
inductive Kind where
  | static            -- gfc
  | ref               -- gfct: the value at the reference epoch
  | trend             -- trnd, dot
  | sin (p : ℚ)       -- asin
  | cos (p : ℚ)       -- acos
  deriving DecidableEq

/-- A record of degree `n` and order `m`. `span`: the reference epoch (version 1: of `ref` only; version 2: of
all but `static`) and the end of validity (version 2). -/
structure Record (T : Type) where
  kind : Kind
  n : Int
  m : Int
  C : ℚ
  S : ℚ
  t0 : Option T
  t1 : Option T

variable {T : Type}

/-- The factor of a record at `dt` years from the reference epoch. -/
noncomputable def Kind.factor (dt : ℝ) : Kind → ℝ
  | .static => 1
  | .ref => 1
  | .trend => dt
  | .sin p => Real.sin (2 * Real.pi / p * dt)
  | .cos p => Real.cos (2 * Real.pi / p * dt)

/-- Reference epoch in version 1: of the last `ref` record of this degree and order among the records before. -/
def epoch1 (before : List (Record T)) (n m : Int) : Option T :=
  (before.filter (fun r => r.kind = .ref ∧ r.n = n ∧ r.m = m)).getLast?.bind Record.t0

/-- Factor of a record in version 1. -/
noncomputable def factor1 (years : T → T → ℝ) (t : T) (before : List (Record T)) (r : Record T) : ℝ :=
  match r.kind, epoch1 before r.n r.m with
  | .static, _ => 1
  | .ref, _ => 1
  | k, some t0 => k.factor (years t t0)
  | _, none => 0

/-- Factor of a record in version 2: nothing outside the interval of validity. -/
noncomputable def factor2 [LinearOrder T] (years : T → T → ℝ) (t : T) (r : Record T) : ℝ :=
  match r.kind, r.t0, r.t1 with
  | .static, _, _ => 1
  | k, some t0, some t1 => if t0 ≤ t ∧ t < t1 then k.factor (years t t0) else 0
  | _, _, _ => 0

/-- Sum over the records of degree `n` and order `m`. `val` is the C or the S column, `fac before r` the factor of
record `r` after the records `before`. -/
noncomputable def total (fac : List (Record T) → Record T → ℝ) (val : Record T → ℚ) (rs : List (Record T)) (n m : Int) : ℝ :=
  ((List.range rs.length).map fun i =>
    match rs[i]? with
    | some r => if r.n = n ∧ r.m = m then (val r : ℝ) * fac (rs.take i) r else 0
    | none => 0).sum

/-! ### Lines -/

/-- After characters that are skipped, the integer `v` (of 32 bits). -/
def IntAt (ws : Char → Bool) (line : List Char) (v : Int) (rest : List Char) : Prop :=
  ∃ (pre : List Char) (d : IntText), (∀ c ∈ pre, ws c) ∧ d.Ok ∧ d.value = v ∧ line = pre ++ (d.text ++ rest) ∧
    (∀ c ∈ rest.head?, isDig c = false) ∧ -2147483648 ≤ v ∧ v ≤ 2147483647

/-- After characters that are skipped, the number `v`. In a strict text the number ends there. -/
def NumAt (strict : Bool) (ws : Char → Bool) (line : List Char) (v : ℚ) (rest : List Char) : Prop :=
  ∃ (pre : List Char) (d : Dec), (∀ c ∈ pre, ws c) ∧ d.Ok ∧ d.value = v ∧ line = pre ++ (d.text ++ rest) ∧
    (strict → Ends rest)

/-- Degree, order, C and S. -/
def ColsAt (strict : Bool) (ws : Char → Bool) (line : List Char) (n m : Int) (C S : ℚ) (rest : List Char) : Prop :=
  ∃ r1 r2 r3, IntAt ws line n r1 ∧ IntAt ws r1 m r2 ∧ NumAt strict ws r2 C r3 ∧ NumAt strict ws r3 S rest

/-- `k` columns (of the coefficient errors) and then `rest`. -/
def Skips (ws : Char → Bool) : Nat → List Char → List Char → Prop
  | 0, line, rest => ∃ pre : List Char, (∀ c ∈ pre, ws c) ∧ line = pre ++ rest ∧ ∀ c ∈ rest.head?, ws c = false
  | k + 1, line, rest => ∃ (n : Nat) (col r : List Char), (∀ c ∈ col, c ≠ ' ') ∧ (∃ c ∈ col.head?, ws c = false) ∧
      line = List.replicate n ' ' ++ (col ++ ' ' :: r) ∧ Skips ws k r rest

/-- The error columns. Of a text that is not strict only that `rest` ends it. -/
def SkipAt (strict : Bool) (ws : Char → Bool) (k : Nat) (line rest : List Char) : Prop :=
  if strict then Skips ws k line rest else ∃ pre, line = pre ++ rest

/-- An integer of at most `k` characters; in a strict text of exactly `k` digits. -/
def FieldAt (strict : Bool) (k : Nat) (line : List Char) (v : Int) (rest : List Char) : Prop :=
  ∃ d : IntText, d.Ok ∧ d.value = v ∧ line = d.text ++ rest ∧ d.text.length ≤ k ∧ (strict → d.text.length = k)

/-- A date yyyymmdd. -/
def DateAt (strict : Bool) (line : List Char) (y m d : Int) (rest : List Char) : Prop :=
  ∃ r1 r2, FieldAt strict 4 line y r1 ∧ FieldAt strict 2 r1 m r2 ∧ FieldAt strict 2 r2 d rest

/-- A date yyyymmdd.hhmm. -/
def TimeAt (strict : Bool) (cal : Cal T) (line : List Char) (t : T) (rest : List Char) : Prop :=
  ∃ y m d hh mm r1 c r2 r3, DateAt strict line y m d r1 ∧ r1 = c :: r2 ∧ (strict → c = '.') ∧
    FieldAt strict 2 r2 hh r3 ∧ FieldAt strict 2 r3 mm rest ∧ t = cal.date y m d hh mm

/-- What may stand before a column: blanks, in version 1 also a plus sign. -/
def sep1 (c : Char) : Bool := c = ' ' || c = '+'
def sep2 (c : Char) : Bool := c = ' '

/-- Number of columns with errors of the coefficients: two for each kind of error given. -/
def errorColumns : ErrorModel → Nat
  | .no => 0
  | .calibrated => 2
  | .formal => 2
  | .both => 4

/-- A line of version 1. -/
inductive Line1 (strict : Bool) (cal : Cal T) (er : ErrorModel) : List Char → Record T → Prop where
  | gfc {line n m C S rest} : ColsAt strict sep1 line n m C S rest →
      Line1 strict cal er ("gfc ".toList ++ line) ⟨.static, n, m, C, S, none, none⟩
  | gfct {line n m C S rest rest' y mo d rest''} : ColsAt strict sep1 line n m C S rest →
      SkipAt strict sep1 (errorColumns er) rest rest' → DateAt strict rest' y mo d rest'' →
      Line1 strict cal er ("gfct".toList ++ line) ⟨.ref, n, m, C, S, some (cal.date y mo d 0 0), none⟩
  | trnd {line n m C S rest} : ColsAt strict sep1 line n m C S rest →
      Line1 strict cal er ("trnd".toList ++ line) ⟨.trend, n, m, C, S, none, none⟩
  | dot {line n m C S rest} : ColsAt strict sep1 line n m C S rest →
      Line1 strict cal er ("dot ".toList ++ line) ⟨.trend, n, m, C, S, none, none⟩
  | asin {line n m C S rest rest' p rest''} : ColsAt strict sep1 line n m C S rest →
      SkipAt strict sep1 (errorColumns er) rest rest' → NumAt strict sep1 rest' p rest'' →
      Line1 strict cal er ("asin".toList ++ line) ⟨.sin p, n, m, C, S, none, none⟩
  | acos {line n m C S rest rest' p rest''} : ColsAt strict sep1 line n m C S rest →
      SkipAt strict sep1 (errorColumns er) rest rest' → NumAt strict sep1 rest' p rest'' →
      Line1 strict cal er ("acos".toList ++ line) ⟨.cos p, n, m, C, S, none, none⟩

/-- A line of version 2. -/
inductive Line2 (strict : Bool) (cal : Cal T) (er : ErrorModel) : List Char → Record T → Prop where
  | gfc {line n m C S rest} : ColsAt strict sep2 line n m C S rest →
      Line2 strict cal er ("gfc ".toList ++ line) ⟨.static, n, m, C, S, none, none⟩
  | gfct {line n m C S rest r1 r2 b r3 r4 t0 t1} : ColsAt strict sep2 line n m C S rest →
      SkipAt strict sep2 (errorColumns er) rest r1 → TimeAt strict cal r1 t0 r2 → r2 = List.replicate b ' ' ++ r3 →
      TimeAt strict cal r3 t1 r4 →
      Line2 strict cal er ("gfct".toList ++ line) ⟨.ref, n, m, C, S, some t0, some t1⟩
  | trnd {line n m C S rest r1 r2 b r3 r4 t0 t1} : ColsAt strict sep2 line n m C S rest →
      SkipAt strict sep2 (errorColumns er) rest r1 → TimeAt strict cal r1 t0 r2 → r2 = List.replicate b ' ' ++ r3 →
      TimeAt strict cal r3 t1 r4 →
      Line2 strict cal er ("trnd".toList ++ line) ⟨.trend, n, m, C, S, some t0, some t1⟩
  | asin {line n m C S rest r1 r2 b r3 r4 t0 t1 p r5} : ColsAt strict sep2 line n m C S rest →
      SkipAt strict sep2 (errorColumns er) rest r1 → TimeAt strict cal r1 t0 r2 → r2 = List.replicate b ' ' ++ r3 →
      TimeAt strict cal r3 t1 r4 → NumAt strict sep2 r4 p r5 →
      Line2 strict cal er ("asin".toList ++ line) ⟨.sin p, n, m, C, S, some t0, some t1⟩
  | acos {line n m C S rest r1 r2 b r3 r4 t0 t1 p r5} : ColsAt strict sep2 line n m C S rest →
      SkipAt strict sep2 (errorColumns er) rest r1 → TimeAt strict cal r1 t0 r2 → r2 = List.replicate b ' ' ++ r3 →
      TimeAt strict cal r3 t1 r4 → NumAt strict sep2 r4 p r5 →
      Line2 strict cal er ("acos".toList ++ line) ⟨.cos p, n, m, C, S, some t0, some t1⟩

/-- Two letters are the same, or the first is a Fortran exponent (`next` is what follows it). -/
def SameLetter (c : Char) (next : Option Char) (c' : Char) : Prop :=
  c' = c ∨ ((c = 'D' ∨ c = 'd') ∧ (next = some '+' ∨ next = some '-') ∧ c' = 'e')

/-- `line` is `line'` with some exponents `e+`, `e-` written `D+`, `D-`, `d+` or `d-`, all behind the keyword. -/
def Fortran (line line' : List Char) : Prop :=
  line.take 4 = line'.take 4 ∧ line.length = line'.length ∧
  ∀ i c c', line[i]? = some c → line'[i]? = some c' → SameLetter c line[i + 1]? c'

/-- No `D` or `d` before a sign is left behind the keyword. -/
def NoFortran (line : List Char) : Prop :=
  ∀ i c d, 4 ≤ i → line[i]? = some c → line[i + 1]? = some d → (d = '+' ∨ d = '-') → c ≠ 'D' ∧ c ≠ 'd'

/-- The degree and order that a request asks for: negative means all. -/
def asked (h : Header) (maxDegree maxOrder : Int) : Int × Int :=
  let n := if maxDegree < 0 then h.maxDegree else maxDegree
  (n, if maxOrder < 0 then n else maxOrder)

/-- Within the request. -/
def Within (n m : Int) (r : Record T) : Prop := r.n ≤ n ∧ r.m ≤ m

instance (n m : Int) (r : Record T) : Decidable (Within n m r) := inferInstanceAs (Decidable (_ ∧ _))

/-- A coefficient that exists. -/
def Triangle (r : Record T) : Prop := 0 ≤ r.m ∧ r.m ≤ r.n

/-- Every time dependent record within the request belongs to the last `ref` record within the request. -/
def Grouped (n m : Int) (rs : List (Record T)) : Prop :=
  ∀ i r, rs[i]? = some r → Within n m r → r.kind ≠ .static → r.kind ≠ .ref →
    ∃ g, (((rs.take i).filter (fun g => g.kind = .ref ∧ Within n m g))).getLast? = some g ∧ g.n = r.n ∧ g.m = r.m

/-- The period of a periodic term is not zero. -/
def PeriodOk (r : Record T) : Prop := ∀ p, r.kind = .sin p ∨ r.kind = .cos p → p ≠ 0

/-- A line of a version 1 file: at most 254 characters; exponents may be written the Fortran way. -/
def GoodLine1 (strict : Bool) (cal : Cal T) (er : ErrorModel) (line : List Char) (r : Record T) : Prop :=
  line.length < 255 ∧ ∃ line', Fortran line line' ∧ NoFortran line' ∧ Line1 strict cal er line' r

/-- A line of a version 2 file: at most 255 characters. -/
def GoodLine2 (strict : Bool) (cal : Cal T) (er : ErrorModel) (line : List Char) (r : Record T) : Prop :=
  line.length < 256 ∧ Line2 strict cal er line r

/-- Used in version 2: within the request and valid at `t`. -/
def Used2 [LinearOrder T] (n m : Int) (t : T) (r : Record T) : Prop :=
  Within n m r ∧ (r.kind = .static ∨ ∃ t0 t1, r.t0 = some t0 ∧ r.t1 = some t1 ∧ t0 ≤ t ∧ t < t1)

/-- `d` is the largest of the values `f` over the records that are used; zero if there is none. -/
def Largest (used : Record T → Prop) (f : Record T → Int) (rs : List (Record T)) (d : Int) : Prop :=
  (∀ r ∈ rs, used r → f r ≤ d) ∧ ((∃ r ∈ rs, used r ∧ f r = d) ∨ (d = 0 ∧ ∀ r ∈ rs, ¬ used r))

/-- The result of reading the records `rs` up to degree `n` and order `m`: every coefficient of the request is the
sum over its records; degree and order are the largest used; the constants are those of the header; there is room up
to degree `n`. -/
structure Result (h : Header) (n m : Int) (fac : List (Record T) → Record T → ℝ) (used : Record T → Prop)
    (rs : List (Record T)) (co : Coeffs ℝ) : Prop where
  C : ∀ a b : Nat, b ≤ a → (a : Int) ≤ n → (b : Int) ≤ m → co.getC a b = .ok (total fac Record.C rs a b)
  S : ∀ a b : Nat, b ≤ a → (a : Int) ≤ n → (b : Int) ≤ m → co.getS a b = .ok (total fac Record.S rs a b)
  zero : ∀ a b : Nat, m < b → b ≤ a → (a : Int) ≤ n → co.getC a b = .ok 0 ∧ co.getS a b = .ok 0
  deg : Largest used Record.n rs co.deg
  ord : Largest used Record.m rs co.ord
  gm : co.gm = h.gm
  re : co.re = h.re
  normalized : co.normalized = h.normalized
  rows : (co.rows : Int) = n + 1

end Verif.Icgem
