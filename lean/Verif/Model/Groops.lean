import Verif.Model.Tide
import Verif.Model.Chars
/-
Reading a GROOPS tide model (src/lib/tide_atlas_groops.cpp): file names, the file list, the Doodson and the admittance matrix,
the atlas.

A file name is the list of its `char`s without the terminating NUL, as in `Verif.Doodson`. A text file is the list of its lines;
`getline(line, max)` fails on a line of `max` characters or more and then stays failed. Messages to stderr are left out. The model
is of the build without SPARSE_ADMITTANCE_MATRIX.
-/
namespace Verif.Groops
open Verif Verif.Doodson Verif.Tide Verif.Chars

/-- `GroopsTideModelFileName` (tide_atlas_groops.cpp:235-239): the bytes copied to `_model` (48) and `_constituentName` (16). -/
structure Name where
  model : List Int
  d : DC
  name : List Int
  sinCos : Int
deriving DecidableEq

/-- `std::toupper` in the "C" locale (tide_atlas_groops.cpp:255). -/
def toUpper (c : Int) : Int := if 97 ≤ c ∧ c ≤ 122 then c - 32 else c

/-- The texts "sin", "cos" and ".gfc". -/
def sinText : List Int := [115, 105, 110]
def cosText : List Int := [99, 111, 115]
def gfcText : List Int := [46, 103, 102, 99]

/-- `compile` (tide_atlas_groops.cpp:241-264) with the arguments that are in effect: model, Doodson number, wave name, 's' or 'c'.
The result of `sprintf` and its NUL must fit in 124 bytes. -/
def compile (m : List Int) (d : DC) (w : List Int) (sincos : Int) : Res (List Int) :=
  (str d 16 true).bind fun b =>
  let text := m ++ 95 :: ((b.takeWhile (· ≠ 0)).map toUpper ++ 95 :: (w ++ 95 :: ((if sincos = 99 then sinText else cosText) ++ gfcText)))
  if text.length + 1 > 124 then .ub else .ok text

/-- `compile(nullptr, nullptr, nullptr, sincos)` (tide_atlas_groops.cpp:241-264): the arguments are the members. A member that
fills its array has no NUL: reading it as a string is undefined. -/
def Name.compile (n : Name) (sincos : Int) : Res (List Int) :=
  if n.model.length ≥ 48 ∨ n.name.length ≥ 16 then .ub else Groops.compile n.model n.d n.name sincos

/-- `while (*str && *str != '_') --str;` from position `k` (tide_atlas_groops.cpp:291-292, 300-301); `none` if it leaves the array. -/
def scanBack (fn : List Int) : Nat → Option Nat
  | 0 => if fn[0]? = some 95 then some 0 else none
  | k + 1 => if fn[k + 1]? = some 95 then some (k + 1) else scanBack fn k

/-- `GroopsTideModelFileName(fn)` (tide_atlas_groops.cpp:266-316). -/
def parse (fn : List Int) : Res Name :=
  let sz := fn.length
  if sz < 9 then .ub
  else
    let badExt := fn.drop (sz - 4) ≠ gfcText
    let trig := (fn.drop (sz - 7)).take 3
    match scanBack fn (sz - 9) with
    | none => .ub
    | some i =>
      if sz - 9 - i > 16 ∨ i = 0 then .ub
      else match scanBack fn (i - 1) with
        | none => .ub
        | some j => (fromChars (fn.drop (j + 1) ++ [0])).bind fun d =>
          if j > 48 then .ub
          else if badExt ∨ (trig ≠ sinText ∧ trig ≠ cosText) then .throw
          else .ok ⟨fn.take j, d, (fn.drop (i + 1)).take (sz - 9 - i), if trig = sinText then 115 else 99⟩

/-- The loop of `validate_file_list` (tide_atlas_groops.cpp:335-349) over `l`; the function is `noexcept`, so that an exception
ends the program. -/
def validateLoop (all : List (List Int)) : List (List Int) → Res Nat
  | [] => .ok 0
  | f :: l =>
    match parse f with
    | .ok n => (n.compile (if n.sinCos = 115 then 99 else 115)).bind fun fr =>
      if fr ∈ all then validateLoop all l else .ok 2
    | .throw => .abort
    | .ub => .ub
    | .abort => .abort

/-- `validate_file_list` (tide_atlas_groops.cpp:326-351). -/
def validate (l : List (List Int)) : Res Nat := if l.Nodup then validateLoop l l else .ok 1

/-- One line of `resolve_file_list` (tide_atlas_groops.cpp:73-87): the first two words. -/
def twoNames (line : List Int) : List (List Int) :=
  let s1 := line.dropWhile (· = 32)
  let s2 := (s1.dropWhile (· ≠ 32)).dropWhile (· = 32)
  [s1.takeWhile (· ≠ 32), s2.takeWhile (· ≠ 32)]

/-- The loop of `resolve_file_list` (tide_atlas_groops.cpp:72-88). -/
def fileListLoop : List (List Int) → List (List Int)
  | [] => []
  | l :: ls => if l.length ≥ 512 then [] else twoNames l ++ fileListLoop ls

/-- `resolve_file_list` (tide_atlas_groops.cpp:61-90); `none`: the file cannot be opened. -/
def fileList : Option (List (List Int)) → List (List Int)
  | none => []
  | some ls => fileListLoop ls

/-- The six integers of a line (tide_atlas_groops.cpp:113-120): the values, the rest and the number of errors. An integer that
cannot be read leaves its slot as it was. -/
def sixInts : List Int → List Char → List Int × Nat
  | [], _ => ([], 0)
  | old :: ds, s =>
    match fromCharsInt (skipWs s) with
    | some (v, r) => let (vs, e) := sixInts ds r; (v :: vs, e)
    | none => let (vs, e) := sixInts ds (skipWs s); (old :: vs, e + 1)

/-- The loop of `parse_doodson` (tide_atlas_groops.cpp:107-121); `none` if there was an error. -/
def doodsonLoop (junk : List Int) : List (List Char) → Option (List (List Int))
  | [] => some []
  | l :: ls =>
    if l.length ≥ 124 then some []
    else match sixInts junk l with
      | (vs, 0) => (doodsonLoop junk ls).map (vs :: ·)
      | _ => none

/-- `parse_doodson` (tide_atlas_groops.cpp:98-139): the rows of the matrix; no rows if it fails. -/
def parseDoodson (junk : List Int) : Option (List (List Char)) → List (List Int)
  | none => []
  | some ls => (doodsonLoop junk ls).getD []

/-- The loop of `parse_admittance` (tide_atlas_groops.cpp:181-213): the matrix is `rows` times `cols`; `none` stands for the error
flag or the failed stream, both of which make the function return an empty matrix. A write to a row that does not exist is
undefined (with Eigen's assertions on, the program stops). -/
def admittanceLoop (rows cols : Nat) : List (List Char) → Nat → (Nat → Nat → ℚ) → Res (Option (Nat → Nat → ℚ))
  | [], _, A => .ok (some A)
  | l :: ls, row, A =>
    if l.length ≥ (cols + 1) * 27 then .ok none
    else if row > rows then .ok none
    else if row = rows ∧ 0 < cols then .ub
    else
      let (vs, e) := readFields ((List.range cols).map (A row)) l
      if e ≠ 0 then .ok none
      else admittanceLoop rows cols ls (row + 1) (fun i j => if i = row then vs.getD j (A i j) else A i j)

/-- `parse_admittance` (tide_atlas_groops.cpp:141-233): `none` is the empty matrix. `junk` is what the memory of a new matrix
holds. -/
def parseAdmittance (junk : Nat → Nat → ℚ) (file : Option (List (List Char))) (k f : Nat) : Res (Option (Nat → Nat → ℚ)) :=
  match file with
  | none => .ok none
  | some ls => admittanceLoop k f ls 0 junk

/-- State of the loop of `groops_atlas`: atlas, `cmaxdeg`, `cmaxord`. -/
structure Build where
  atlas : Atlas
  deg : Int
  ord : Int

/-- The wave `d`, appended if it is not in the atlas (tide_atlas_groops.cpp:402-415). -/
noncomputable def ensureWave (junk : Nat → Nat → ℝ) (a : Atlas) (d : DC) (n m : Int) : Res Atlas :=
  if find a d = a.length then
    match appendNew junk a d n m with
    | (.ok _, a) => .ok a
    | (.ub, _) => .ub
    | (.abort, _) => .abort
    | (.throw, _) => .throw
  else .ok a

/-- One file (tide_atlas_groops.cpp:394-456). `read path c` stands for opening the file as a gravity model and
`parse_data(max_degree, max_order, ..., c)`: status and coefficients. The path must fit in 248 bytes. The name of the atlas is
left out. -/
noncomputable def addFile (junk : Nat → Nat → ℝ) (read : List Int → Coeffs ℝ → Res (Nat × Coeffs ℝ)) (dir : List Int) (n m : Int) (fn : List Int)
    (b : Build) : Res Build :=
  (parse fn).bind fun info =>
  let k := find b.atlas info.d
  (ensureWave junk b.atlas info.d (if n < 0 then b.deg else n) (if m < 0 then b.ord else m)).bind fun a =>
  if dir.length + 1 + fn.length + 1 > 248 then .ub
  else match a[k]? with
    | none => .ub
    | some w =>
      (read (dir ++ 47 :: fn) (if info.sinCos = 115 then w.sin else w.cos)).bind fun (st, c) =>
      if st ≠ 0 then .throw
      else .ok ⟨a.set k (if info.sinCos = 115 then { w with sin := c } else { w with cos := c }),
        if b.deg < c.deg then c.deg else b.deg, if b.ord < c.ord then c.ord else b.ord⟩

/-- `groops_atlas(file_list, dir, max_degree, max_order)` (tide_atlas_groops.cpp:355-461). -/
noncomputable def groopsAtlas (junk : Nat → Nat → ℝ) (read : List Int → Coeffs ℝ → Res (Nat × Coeffs ℝ)) (file : Option (List (List Int)))
    (dir : List Int) (n m : Int) : Res Atlas :=
  let fl := fileList file
  if fl.length < 1 then .throw
  else if fl.length % 2 ≠ 0 then .throw
  else (validate fl).bind fun st =>
    if st ≠ 0 then .throw
    else (forEach fl (addFile junk read dir n m) ⟨[], if n < 0 then 120 else n, if m < 0 then 120 else m⟩).bind fun b => .ok b.atlas

/-- `groops_atlas(file_001, file_002, file_003, dir, mdl, max_degree, max_order)` (tide_atlas_groops.cpp:463-496): the atlas and the
admittance model. -/
noncomputable def groopsAtlasAdm (junk : Nat → Nat → ℝ) (junkI : List Int) (junkA : Nat → Nat → ℚ)
    (read : List Int → Coeffs ℝ → Res (Nat × Coeffs ℝ)) (f1 : Option (List (List Int))) (f2 f3 : Option (List (List Char)))
    (dir : List Int) (n m : Int) : Res (Atlas × Admittance) :=
  (groopsAtlas junk read f1 dir n m).bind fun atlas =>
  let dood := parseDoodson junkI f2
  if dood.length = 0 then .throw
  else (parseAdmittance junkA f3 atlas.length dood.length).bind fun r =>
    match r with
    | none => .throw
    | some A => .ok (atlas, ⟨dood.map fun v => ⟨v.getD 0 0, v.getD 1 0, v.getD 2 0, v.getD 3 0, v.getD 4 0, v.getD 5 0, 0⟩,
        atlas.length, dood.length, fun i j => (A i j : ℝ)⟩)

end Verif.Groops
