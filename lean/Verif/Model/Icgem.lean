import Verif.Model.Chars
import Verif.Model.Coeffs
import Mathlib.Analysis.SpecialFunctions.Trigonometric.Basic
/-
Reading the data section of ICGEM gravity models (src/lib/icgem, include/icgemio.hpp).

A file is the list of the lines of its data section, or `none` if it cannot be opened. Epochs belong to an
ordered type `T`; the date library is the parameter `Cal`. Sums are exact real numbers.
-/
namespace Verif.Icgem
open Verif.Chars

/-- The date library: an epoch from year, month, day, hours, minutes; `t.diff<FractionalYears>(t0).years()`;
`Datetime::min()` and `Datetime::max()`. Dates are not validated. -/
structure Cal (T : Type) where
  date : Int → Int → Int → Int → Int → T
  years : T → T → ℝ
  min : T
  max : T

/-- `DataEntryType`, icgemio.hpp:37. -/
inductive Key where
  | gfc | gfct | trnd | asin | acos
  deriving DecidableEq

/-- `DataEntry`, icgemio.hpp:39-47. -/
structure Entry (T : Type) where
  key : Key
  degree : Int
  order : Int
  C : ℚ
  S : ℚ
  t0 : T
  t1 : T
  period : ℚ

/-- `ErrorModel` (icgemio.hpp:36) as the number of columns it adds (resolve_igcem_data_line_v1.cpp:60-70,
resolve_igcem_data_line_v2.cpp:30-40). -/
inductive ErrorModel where
  | no | calibrated | formal | both
  deriving DecidableEq

/-- resolve_igcem_data_line_v1.cpp:60-70. -/
def ErrorModel.cols : ErrorModel → Nat
  | .no => 0
  | .calibrated => 2
  | .formal => 2
  | .both => 4

/-- What `skip_ws` skips in version 1 (resolve_igcem_data_line_v1.cpp:6-10). -/
def ws1 (c : Char) : Bool := c = ' ' || c = '+'

/-- What `skip_ws` skips in version 2 (resolve_igcem_data_line_v2.cpp:5-9). -/
def ws2 (c : Char) : Bool := c = ' '

/-- The loop of `skip_cols` (resolve_igcem_data_line_v1.cpp:15-19): it never goes past the last character. -/
def skipLoop : Nat → List Char → List Char
  | 0, s => s
  | _, [] => []
  | _, [c] => [c]
  | k + 1, a :: b :: r => if a ≠ ' ' ∧ b = ' ' then skipLoop k (b :: r) else skipLoop (k + 1) (b :: r)

/-- `skip_cols` (resolve_igcem_data_line_v1.cpp:12-21, resolve_igcem_data_line_v2.cpp:11-20). -/
def skipCols (ws : Char → Bool) (k : Nat) (s : List Char) : List Char :=
  (skipLoop k (s.dropWhile ws)).dropWhile ws

/-- `for2cpp_format` (resolve_igcem_data_line_v1.cpp:31-43): a `D` or `d` before a sign becomes `e`. -/
def for2cpp : List Char → List Char
  | a :: b :: r => (if (a = 'D' ∨ a = 'd') ∧ (b = '+' ∨ b = '-') then 'e' else a) :: for2cpp (b :: r)
  | s => s

/-- Read an integer; on failure the old value and the position stay. -/
def readInt (ws : Char → Bool) (old : Int) (s : List Char) : Int × List Char × Nat :=
  match fromCharsInt (s.dropWhile ws) with
  | some (v, r) => (v, r, 0)
  | none => (old, s.dropWhile ws, 1)

/-- Read a number; on failure the old value and the position stay. -/
def readNum (ws : Char → Bool) (old : ℚ) (s : List Char) : ℚ × List Char × Nat :=
  match fromCharsDouble (s.dropWhile ws) with
  | some (v, r) => (v, r, 0)
  | none => (old, s.dropWhile ws, 1)

/-- Degree, order, C and S (e.g. resolve_igcem_data_line_v1.cpp:78-95): entry, rest of the line, errors. -/
def readCols {T : Type} (ws : Char → Bool) (e : Entry T) (s : List Char) : Entry T × List Char × Nat :=
  let (n, s, e1) := readInt ws e.degree s
  let (m, s, e2) := readInt ws e.order s
  let (C, s, e3) := readNum ws e.C s
  let (S, s, e4) := readNum ws e.S s
  ({ e with degree := n, order := m, C := C, S := S }, s, e1 + e2 + e3 + e4)

/-- `std::from_chars(str, str + k, int &)`. -/
def intIn (k : Nat) (s : List Char) : Option Int × List Char :=
  match fromCharsInt (s.take k) with
  | some (v, r) => (some v, r ++ s.drop k)
  | none => (none, s)

/-- `resolve_icgem_data_date_v1` (resolve_igcem_data_date_v1.cpp:4-43): yyyymmdd. The first part of the result is
`none` for an error. -/
def date1 {T : Type} (cal : Cal T) (s : List Char) : Option T × List Char :=
  let (y, s) := intIn 4 s
  let (m, s) := intIn 2 s
  let (d, s) := intIn 2 s
  match y, m, d with
  | some y, some m, some d => (some (cal.date y m d 0 0), s)
  | _, _, _ => (none, s)

/-- `resolve_icgem_data_date_v2` (resolve_igcem_data_date_v2.cpp:4-54): yyyymmdd.hhmm; one character is skipped for
the point: if there is none, the text is read behind its end. -/
def date2 {T : Type} (cal : Cal T) (s : List Char) : Res (Option (T × List Char)) :=
  let (y, s) := intIn 4 s
  let (m, s) := intIn 2 s
  let (d, s) := intIn 2 s
  match s with
  | [] => .ub
  | _ :: s =>
    let (hh, s) := intIn 2 s
    let (mm, s) := intIn 2 s
    match y, m, d, hh, mm with
    | some y, some m, some d, some hh, some mm => .ok (some (cal.date y m d hh mm, s))
    | _, _, _, _, _ => .ok none

variable {T : Type}

/-- `resolve_icgem_data_line_v1` (resolve_igcem_data_line_v1.cpp:46-248): number of errors and the entry, where
fields that are not read keep their values. The assertion of `for2cpp_format` sees the length plus one. -/
def resolve1 (cal : Cal T) (er : ErrorModel) (line : List Char) (e : Entry T) : Res (Nat × Entry T) :=
  if line.length + 1 ≥ 256 then .abort
  else
    let buf := for2cpp line
    let kw := line.take 4
    let (e', s, err) := readCols ws1 e (buf.drop 4)
    if kw = ['g', 'f', 'c', ' '] then .ok (err, { e' with key := .gfc })
    else if kw = ['g', 'f', 'c', 't'] then
      match (date1 cal (skipCols ws1 er.cols s)).1 with
      | some t => .ok (err, { e' with key := .gfct, t0 := t })
      | none => .ok (err + 1, { e' with key := .gfct })
    else if kw = ['t', 'r', 'n', 'd'] ∨ kw = ['d', 'o', 't', ' '] then .ok (err, { e' with key := .trnd })
    else if kw = ['a', 's', 'i', 'n'] ∨ kw = ['a', 'c', 'o', 's'] then
      let (p, _, e5) := readNum ws1 e'.period (skipCols ws1 er.cols s)
      .ok (err + e5, { e' with key := if kw = ['a', 's', 'i', 'n'] then .asin else .acos, period := p })
    else .ok (1, e)

/-- The two dates of a version 2 line (e.g. resolve_igcem_data_line_v2.cpp:100-108): the entry, the pointer that the
date reader leaves (`none` if it was never set), the errors. -/
def dates2 (cal : Cal T) (e : Entry T) (s : List Char) (err : Nat) : Res (Entry T × Option (List Char) × Nat) :=
  (date2 cal s).bind fun
    | none => .ok (e, none, err + 1)
    | some (t0, s) =>
      if err ≠ 0 then .ok ({ e with t0 := t0 }, some s, err)
      else (date2 cal (s.dropWhile ws2)).bind fun
        | none => .ok ({ e with t0 := t0 }, some s, 1)
        | some (t1, s) => .ok ({ e with t0 := t0, t1 := t1 }, some s, 0)

/-- `resolve_icgem_data_line_v2` (resolve_igcem_data_line_v2.cpp:23-248). In `asin` and `acos` lines the pointer left by
the date reader is used even if it was never set. -/
def resolve2 (cal : Cal T) (er : ErrorModel) (line : List Char) (e : Entry T) : Res (Nat × Entry T) :=
  let kw := line.take 4
  let (e', s, err) := readCols ws2 e (line.drop 4)
  if kw = ['g', 'f', 'c', ' '] then .ok (err, { e' with key := .gfc, t0 := cal.min, t1 := cal.max })
  else if kw = ['g', 'f', 'c', 't'] ∨ kw = ['t', 'r', 'n', 'd'] then
    (dates2 cal e' (skipCols ws2 er.cols s) err).bind fun (e', _, err) =>
      .ok (err, { e' with key := if kw = ['g', 'f', 'c', 't'] then .gfct else .trnd })
  else if kw = ['a', 's', 'i', 'n'] ∨ kw = ['a', 'c', 'o', 's'] then
    (dates2 cal e' (skipCols ws2 er.cols s) err).bind fun
      | (_, none, _) => .ub
      | (e', some s, err) =>
        let (p, _, e5) := readNum ws2 e'.period s
        .ok (err + e5, { e' with key := if kw = ['a', 's', 'i', 'n'] then .asin else .acos, period := p })
  else .ok (1, e)

/-- Local variables of the reading loops. -/
structure St (T : Type) where
  co : Coeffs ℝ
  maxN : Int
  maxM : Int
  curN : Int
  curM : Int
  dt : ℝ
  entry : Entry T

/-- Store a term: icgemio_read_data_v1.cpp:64-65, 108-109; icgemio_read_data_v2.cpp:62-63, 95-96. -/
def store (st : St T) (e : Entry T) (fac : ℝ) : Res (St T) :=
  (st.co.addAt e.degree e.order (e.C * fac) (e.S * fac)).bind fun co =>
    .ok { st with co := co, maxN := max st.maxN e.degree, maxM := max st.maxM e.order, entry := e }

/-- Body of the loop in version 1 (icgemio_read_data_v1.cpp:60-113). -/
noncomputable def use1 (cal : Cal T) (n m : Int) (t : T) (st : St T) (e : Entry T) : Res (St T) :=
  if e.degree ≤ n ∧ e.order ≤ m then
    match e.key with
    | .gfc => store st e 1
    | .gfct => store { st with curN := e.degree, curM := e.order, dt := cal.years t e.t0 } e 1
    | .trnd => if st.curN = e.degree ∧ st.curM = e.order then store st e st.dt else .abort
    | .asin =>
      if st.curN = e.degree ∧ st.curM = e.order then store st e (Real.sin (2 * Real.pi / e.period * st.dt)) else .abort
    | .acos =>
      if st.curN = e.degree ∧ st.curM = e.order then store st e (Real.cos (2 * Real.pi / e.period * st.dt)) else .abort
  else .ok { st with entry := e }

/-- Body of the loop in version 2 (icgemio_read_data_v2.cpp:58-101). -/
noncomputable def use2 [LinearOrder T] (cal : Cal T) (n m : Int) (t : T) (st : St T) (e : Entry T) : Res (St T) :=
  if e.t0 ≤ t ∧ t < e.t1 ∧ e.degree ≤ n ∧ e.order ≤ m then
    let dt := cal.years t e.t0
    match e.key with
    | .gfc => store st e 1
    | .gfct => store st e 1
    | .trnd => store st e dt
    | .asin => store st e (Real.sin (2 * Real.pi / e.period * dt))
    | .acos => store st e (Real.cos (2 * Real.pi / e.period * dt))
  else .ok { st with entry := e }

/-- The loop and the checks after it (icgemio_read_data_v1.cpp:58-138, icgemio_read_data_v2.cpp:56-126): status and
locals. An entry is used even if its line was in error. -/
def loop (resolve : List Char → Entry T → Res (Nat × Entry T)) (use : St T → Entry T → Res (St T)) :
    List (List Char) → St T → Nat → Res (Nat × St T)
  | [], st, error => .ok (if error ≠ 0 then 1 else 0, st)
  | line :: lines, st, error =>
    if line.length ≥ 256 then .ok (1, st)
    else if error ≠ 0 then .ok (1, st)
    else (resolve line st.entry).bind fun (error, e) => (use st e).bind fun st => loop resolve use lines st error

/-- Header data that the readers use. -/
structure Header where
  v2 : Bool
  maxDegree : Int
  errors : ErrorModel
  gm : ℝ
  re : ℝ
  normalized : Bool

/-- `parse_data_v1` (icgemio_read_data_v1.cpp:11-149) and `parse_data_v2` (icgemio_read_data_v2.cpp:14-137): status and
coefficients. `junk`: the uninitialised entry and matrix contents. -/
def parseWith (h : Header) (resolve : List Char → Entry T → Res (Nat × Entry T)) (use : St T → Entry T → Res (St T))
    (junk : Entry T × (Nat → Nat → ℝ)) (file : Option (List (List Char))) (n m : Int) (co : Coeffs ℝ) :
    Res (Nat × Coeffs ℝ) :=
  (co.resize junk.2 n m).bind fun co =>
  let co := co.clear
  if n > h.maxDegree ∨ m > n then .ok (1, co)
  else match file with
    | none => .ok (1, co)
    | some lines =>
      (loop resolve use lines ⟨co, 0, 0, -1, -1, 0, junk.1⟩ 0).bind fun (status, st) =>
        if status ≠ 0 then .ok (1, st.co)
        else .ok (0, ({ st.co with gm := h.gm, re := h.re, normalized := h.normalized } : Coeffs ℝ).shrink st.maxN st.maxM)

/-- `Icgem::parse_data` (icgemio.hpp:304-314). -/
noncomputable def parseData [LinearOrder T] (cal : Cal T) (h : Header) (junk : Entry T × (Nat → Nat → ℝ))
    (file : Option (List (List Char))) (maxDegree maxOrder : Int) (t : T) (co : Coeffs ℝ) : Res (Nat × Coeffs ℝ) :=
  let n := if maxDegree < 0 then h.maxDegree else maxDegree
  let m := if maxOrder < 0 then n else maxOrder
  if h.v2 then parseWith h (resolve2 cal h.errors) (use2 cal n m t) junk file n m co
  else parseWith h (resolve1 cal h.errors) (use1 cal n m t) junk file n m co

end Verif.Icgem
