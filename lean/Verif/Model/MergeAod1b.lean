import Verif.Model.Chars
/-
The tool that merges AOD1B files (bin/mergeAod1b.py).

Python raises exceptions where the C++ library returns codes, and a `while True` may not end: both are outcomes of their own.
Simplifications: texts are ASCII without carriage returns; `int` does not accept underscores; a `datetime` is its number of
seconds, `strptime` and `strftime` are parameters; the seconds written with `{:.6f}` are exact; paths have no `.`, `..` or links;
the files left behind by a run that raises an exception are not modelled; `print` and messages are not modelled.
-/
namespace Verif.Merge
open Verif.Chars

/-- What a piece of the script does: it gives a value, raises an exception, or does not end. -/
inductive Py (α : Type) where
  | ok (a : α)
  | raise
  | loops

/-- Sequencing. -/
def Py.bind {α β : Type} : Py α → (α → Py β) → Py β
  | .ok a, f => f a
  | .raise, _ => .raise
  | .loops, _ => .loops

/-- A value that may be missing (`KeyError`, `TypeError`, `ValueError`, `FileNotFoundError`). -/
def Py.of {α : Type} : Option α → Py α
  | some a => .ok a
  | none => .raise

/-- `datetime.strptime(s, "%Y-%m-%d %H:%M:%S")` and `strftime`. -/
structure Env where
  strptime : List Char → Option Int
  strftime : Int → List Char

/-- ASCII white space for `str.strip`. -/
def isWs (c : Char) : Bool :=
  c == ' ' || c == '\t' || c == '\n' || c == '\r' || c == '\x0b' || c == '\x0c' || c == '\x1c' || c == '\x1d' || c == '\x1e' ||
    c == '\x1f'

/-- `str.rstrip()`. -/
def rstrip (s : List Char) : List Char := (s.reverse.dropWhile isWs).reverse

/-- `str.strip()`. -/
def strip (s : List Char) : List Char := rstrip (s.dropWhile isWs)

/-- A dictionary in the order of insertion. -/
abbrev Dict := List (List Char × List Char)

/-- `d[k]`. -/
def Dict.get (d : Dict) (k : List Char) : Option (List Char) := (d.find? fun p => p.1 == k).map (·.2)

/-- `d[k] = v`: an existing key keeps its place. -/
def Dict.set : Dict → List Char → List Char → Dict
  | [], k, v => [(k, v)]
  | (k', v') :: d, k, v => if k' = k then (k, v) :: d else (k', v') :: Dict.set d k v

/-- `END OF HEADER` (mergeAod1b.py:20, 33). -/
def theEnd : List Char := "END OF HEADER".toList

/-- The line at the start of a text, without its newline, and what follows. -/
def readLine (s : List Char) : List Char × List Char := (s.takeWhile (· ≠ '\n'), (s.dropWhile (· ≠ '\n')).tail)

theorem readLine_lt (c : Char) (s : List Char) : (readLine (c :: s)).2.length < (c :: s).length := by
  have h : ((c :: s).dropWhile (· ≠ '\n')).length ≤ (c :: s).length := (List.dropWhile_sublist _).length_le
  simp only [readLine, List.length_tail, List.length_cons] at *
  omega

/-- The loop of `readAod1bHeader` (mergeAod1b.py:16-27): key and value around the first colon; a line without a colon raises
`IndexError`. -/
def readHeader : List Char → Dict → Py Dict
  | [], d => .ok d
  | c :: s, d =>
    let l := (readLine (c :: s)).1
    if strip l = theEnd then .ok d
    else match l.dropWhile (· ≠ ':') with
      | [] => .raise
      | _ :: v => readHeader (readLine (c :: s)).2 (d.set (rstrip (l.takeWhile (· ≠ ':'))) (strip v))
termination_by s => s.length
decreasing_by exact readLine_lt c s

/-- `catAod1bData` (mergeAod1b.py:29-36): what follows the end of the header. Without it the loop does not end: at the end of the
file `readline` keeps returning the empty string. -/
def dataOf : List Char → Py (List Char)
  | [] => .loops
  | c :: s => if strip (readLine (c :: s)).1 = theEnd then .ok (readLine (c :: s)).2 else dataOf (readLine (c :: s)).2
termination_by s => s.length
decreasing_by exact readLine_lt c s

/-- An `Aod1b` object (mergeAod1b.py:38-41). -/
structure Obj where
  fn : List Char
  dct : Dict

/-- The keys the script uses (mergeAod1b.py:42-56). -/
def kEpoch : List Char := "TIME EPOCH (GPS TIME)".toList
def kFirst : List Char := "TIME FIRST OBS(SEC PAST EPOCH)".toList
def kLast : List Char := "TIME LAST OBS(SEC PAST EPOCH)".toList
def kSets : List Char := "NUMBER OF DATA SETS".toList
def kRecords : List Char := "NUMBER OF DATA RECORDS".toList

/-- The keys that may differ (mergeAod1b.py:60). -/
def exempt : List (List Char) :=
  [kFirst, kLast, "PRODUCT START CREATE TIME(UTC)".toList, "PRODUCT END CREATE TIME(UTC)".toList, "FILESIZE (BYTES)".toList,
    "FILENAME".toList]

/-- The pattern `[0-9]*.[0-9]* *` for a whole text (mergeAod1b.py:46, 50). -/
def isSeconds (s : List Char) : Bool :=
  match s.dropWhile isDig with
  | [] => !s.isEmpty
  | _ :: t => (t.dropWhile isDig).all (· == ' ')

/-- The pattern `[0-9]{4}-[0-9]{2}-[0-9]{2} [0-9]{2}:[0-9]{2}:[0-9]{2}` at the start of a text: the 19 characters. -/
def dateAt (s : List Char) : Option (List Char) :=
  match s with
  | a :: b :: c :: d :: m1 :: e :: f :: m2 :: g :: h :: sp :: i :: j :: c1 :: k :: l :: c2 :: m :: n :: _ =>
    if [a, b, c, d, e, f, g, h, i, j, k, l, m, n].all isDig && m1 == '-' && m2 == '-' && sp == ' ' && c1 == ':' && c2 == ':' then
      some (s.take 19)
    else none
  | _ => none

/-- `re.match(...)[1]` (mergeAod1b.py:46, 50): the date behind an opening parenthesis with seconds in front of it. (Only one
parenthesis can match: the part in front has at most one character that is no digit or blank, and a date does not begin with four
digits and a parenthesis.) `pre` is what precedes, reversed. -/
def matchDate : List Char → List Char → Option (List Char)
  | _, [] => none
  | pre, c :: s =>
    if c = '(' ∧ isSeconds pre.reverse = true ∧ (dateAt s).isSome = true then dateAt s else matchDate (c :: pre) s

/-- `firstObs`, `lastObs` (mergeAod1b.py:44-51). -/
def obs (E : Env) (k : List Char) (o : Obj) : Py Int :=
  (Py.of (o.dct.get k)).bind fun v => (Py.of (matchDate [] v)).bind fun d => Py.of (E.strptime d)

/-- `timeEpoch` (mergeAod1b.py:42-43). -/
def timeEpoch (E : Env) (o : Obj) : Py Int := (Py.of (o.dct.get kEpoch)).bind fun v => Py.of (E.strptime v)

/-- `int(s)` for a text without white space inside: an optional sign and digits. -/
def pyInt (s : List Char) : Option Int :=
  match strip s with
  | '-' :: ds => if ds ≠ [] ∧ ds.all isDig then some (-(digitsVal ds : Int)) else none
  | '+' :: ds => if ds ≠ [] ∧ ds.all isDig then some (digitsVal ds : Int) else none
  | ds => if ds ≠ [] ∧ ds.all isDig then some (digitsVal ds : Int) else none

/-- `numDataSets`, `numDataRecords` (mergeAod1b.py:52-57). -/
def num (k : List Char) (o : Obj) : Py Int := (Py.of (o.dct.get k)).bind fun v => Py.of (pyInt v)

/-- `headersMatch` (mergeAod1b.py:58-64). -/
def headersMatch : Dict → Dict → Py Bool
  | [], _ => .ok true
  | (k, v) :: d, o =>
    if k ∈ exempt then headersMatch d o
    else (Py.of (Dict.get o k)).bind fun w => if v ≠ w then .ok false else headersMatch d o

/-- `'{:}'.format(n)`. -/
def showInt (n : Int) : List Char := if n < 0 then '-' :: Nat.toDigits 10 n.natAbs else Nat.toDigits 10 n.natAbs

/-- `merge` (mergeAod1b.py:65-78); `none` is `None`. A failed `assert` raises. -/
def merge (E : Env) (self other : Obj) : Py (Option Obj) :=
  (headersMatch self.dct other.dct).bind fun m => if !m then .ok none else
  (obs E kFirst self).bind fun a => (obs E kFirst other).bind fun b =>
  let first := if b < a then other else self
  let second := if b < a then self else other
  (obs E kLast first).bind fun l => (obs E kFirst second).bind fun s =>
  if l < s then
    (obs E kLast second).bind fun sl => (timeEpoch E first).bind fun e =>
    let d := self.dct.set kLast (showInt (sl - e) ++ ".000000 (".toList ++ E.strftime sl ++ ")".toList)
    (num kRecords first).bind fun r1 => (num kRecords second).bind fun r2 =>
    let d := d.set kRecords (' ' :: showInt (r1 + r2))
    (num kSets first).bind fun s1 => (num kSets second).bind fun s2 =>
    .ok (some ⟨self.fn, d.set kSets (' ' :: showInt (s1 + s2))⟩)
  else .raise

/-- `isPriorTo`, `__lt__` (mergeAod1b.py:79-81). -/
def prior (E : Env) (a b : Obj) : Py Bool :=
  (obs E kLast a).bind fun x => (obs E kFirst b).bind fun y => .ok (decide (x < y))

/-- One insertion of a stable sort. -/
def insert (E : Env) (x : Obj) : List Obj → Py (List Obj)
  | [] => .ok [x]
  | y :: ys => (prior E x y).bind fun b => if b then .ok (x :: y :: ys) else (insert E x ys).bind fun zs => .ok (y :: zs)

/-- `sorted` (mergeAod1b.py:89): the result of any stable sort when the comparison is a strict weak order; otherwise that of
insertion from left to right. -/
def sort (E : Env) : List Obj → List Obj → Py (List Obj)
  | [], acc => .ok acc
  | x :: xs, acc => (insert E x acc).bind (sort E xs)

/-- `dump` (mergeAod1b.py:82-84). -/
def dump (d : Dict) : List Char :=
  d.flatMap fun (k, v) => k ++ List.replicate (30 - k.length) ' ' ++ ": ".toList ++ v ++ ['\n']

/-- Files by absolute path. -/
abbrev Disk := List Char → Option (List Char)

/-- The path that a name means in a working directory. -/
def resolve (cwd p : List Char) : List Char := if p.head? = some '/' then p else cwd ++ '/' :: p

/-- `os.path.join(dir, p)`. -/
def join (dir p : List Char) : List Char :=
  if p.head? = some '/' then p else if dir = [] ∨ dir.getLast? = some '/' then dir ++ p else dir ++ '/' :: p

/-- `str.replace('.asc', '.merged.asc')` (mergeAod1b.py:133). -/
def rename : List Char → List Char
  | [] => []
  | c :: s => if ".asc".toList.isPrefixOf (c :: s) then ".merged.asc".toList ++ rename (s.drop 3) else c :: rename s
termination_by s => s.length
decreasing_by all_goals simp only [List.length_cons, List.length_drop]; omega

/-- Writing a file. -/
def Disk.write (d : Disk) (p s : List Char) : Disk := fun q => if q = p then some s else d q

/-- The constructor reads the file (mergeAod1b.py:39-41). -/
def load (d : Disk) (cwd fn : List Char) : Py Obj :=
  (Py.of (d (resolve cwd fn))).bind fun t => (readHeader t []).bind fun h => .ok ⟨fn, h⟩

/-- `sortAod1bFileList` (mergeAod1b.py:86-90), the loading. -/
def loadAll (d : Disk) (cwd : List Char) : List (List Char) → Py (List Obj)
  | [] => .ok []
  | f :: fs => (load d cwd f).bind fun o => (loadAll d cwd fs).bind fun os => .ok (o :: os)

/-- `catAod1bData` of a named file (mergeAod1b.py:29-36). -/
def cat (d : Disk) (cwd fn : List Char) : Py (List Char) := (Py.of (d (resolve cwd fn))).bind dataOf

/-- The loop over the files after the first (mergeAod1b.py:129-131): the merged object, which may be `None`, and the data. -/
def mergeLoop (E : Env) (d : Disk) (cwd : List Char) : List (List Char) → Option Obj → List Char → Py (Option Obj × List Char)
  | [], m, out => .ok (m, out)
  | _ :: _, none, _ => .raise
  | f :: fs, some m, out =>
    (load d cwd f).bind fun o => (merge E m o).bind fun m' => (cat d cwd f).bind fun s => mergeLoop E d cwd fs m' (out ++ s)

/-- The temporary file (mergeAod1b.py:123). -/
def tmpName : List Char := ".aod1bdata".toList

/-- The main program (mergeAod1b.py:121-137): the files afterwards. The name of the list's first file decides that of the output. -/
def run (E : Env) (d : Disk) (cwd : List Char) (files : List (List Char)) (outDir : List Char) : Py Disk :=
  (loadAll d cwd files).bind fun os => (sort E os []).bind fun sorted =>
  match sorted.map (·.fn) with
  | [] => .raise
  | f :: fs =>
    let tmp := resolve cwd tmpName
    let d1 := d.write tmp []
    (load d1 cwd f).bind fun m => (cat d1 cwd f).bind fun s => (mergeLoop E d1 cwd fs (some m) s).bind fun (m, body) =>
    let d2 := d.write tmp body
    let out := resolve cwd (join outDir (rename f))
    let d3 := d2.write out []
    (Py.of m).bind fun m => (Py.of (d3 tmp)).bind fun s => .ok (d2.write out (dump m.dct ++ s))

end Verif.Merge
