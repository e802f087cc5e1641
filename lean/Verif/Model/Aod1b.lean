import Verif.Model.Stream
import Verif.Model.Icgem
/-
AOD1B files (include/aod1b.hpp, src/lib/aod1b): blocks of Stokes coefficients.

The date library is a parameter `date`: it reads an epoch at the start of a text (GPS time, as TT) and returns it with the
rest; failing to do so it throws. Numbers are read exactly (`Verif.Chars`). The text of an open file and the facts from
its header are fields of `Aod`; the header itself is not read here.
-/
namespace Verif.Aod1b
open Verif.Chars Verif.Icgem

/-- `AOD1BCoefficientType`, aod1b.hpp:21. -/
inductive Ty where
  | atm | ocn | glo | oba
  deriving DecidableEq

/-- `Aod1bIn` (aod1b.hpp:84-148) with an open file: the values that the functions below use. -/
structure Aod (T : Type) where
  text : List Char
  maxDegree : Int
  numSets : Int
  first : T
  last : T
  name : List Char

/-- `Aod1bBlockHeader`, aod1b.hpp:100-109. -/
structure Hdr (T : Type) where
  setNr : Int
  numLines : Int
  epoch : T
  type : Ty

/-- Moving a pointer `k` characters; beyond the terminating zero the content is not defined. -/
def adv (k : Nat) (s : List Char) : Res (List Char) := if k ≤ s.length then .ok (s.drop k) else .ub

/-- The four `strncmp` of aod1b_parse_data_block_header.cpp:45-54. -/
def tyOf (s : List Char) : Option Ty :=
  if s.take 3 = "atm".toList then some .atm
  else if s.take 3 = "ocn".toList then some .ocn
  else if s.take 3 = "glo".toList then some .glo
  else if s.take 3 = "oba".toList then some .oba
  else none

variable {T : Type}

/-- `parse_data_block_header` (aod1b_parse_data_block_header.cpp:14-65): status and header. The function is `noexcept`: an
exception of the date library ends the program. After a number out of range the position is simplified as in
`Icgem.readInt`. -/
def parseHeader (date : List Char → Option (T × List Char)) (line : List Char) (h : Hdr T) : Res (Nat × Hdr T) :=
  if line.take 8 ≠ "DATA SET".toList then .ok (1, h)
  else
    let (nr, r, e1) := readInt ws2 h.setNr (line.drop 8)
    (adv 1 r).bind fun s =>
    let (nl, s, e2) := readInt ws2 h.numLines s
    let e3 := if (s.dropWhile ws2).take 17 = "COEFFICIENTS FOR ".toList then 0 else 1
    (adv 17 s).bind fun s =>
    match date (s.dropWhile ws2) with
    | none => .abort
    | some (t, r) =>
      (adv 1 r).bind fun s =>
      let e4 := if (s.dropWhile ws2).take 7 = "OF TYPE".toList then 0 else 1
      (adv 7 s).bind fun s =>
      let h' : Hdr T := { h with setNr := nr, numLines := nl, epoch := t }
      match tyOf (s.dropWhile ws2) with
      | some ty => .ok (if e1 + e2 + e3 + e4 = 0 then 0 else 1, { h' with type := ty })
      | none => .ok (1, h')

/-- The loop of `skip_header` (aod1b_skip_header.cpp:26-29); `k` lines may still be looked at. -/
def skipHeaderLoop : Nat → In → Nat × In
  | k, s =>
    match s.getline 124 with
    | (_, false, s) => (1, s)
    | (line, true, s) =>
      match k with
      | 0 => (1, s)
      | k + 1 => if line.take 13 = "END OF HEADER".toList then (0, s) else skipHeaderLoop k s

/-- `skip_header` (aod1b_skip_header.cpp:12-36). -/
def skipHeader (a : Aod T) (s : In) : Nat × In := skipHeaderLoop 99 (s.seek0 a.text)

/-- The loop of `skip_lines` (aod1b_skip_header.cpp:53-59); `k` is how often `++linenr < num_lines` still holds. -/
def skipLinesLoop : Nat → In → Int × In
  | k, s =>
    match s.getline 124 with
    | (_, false, s) => (0, s)
    | (_, true, s) =>
      match k with
      | 0 => (0, s)
      | k + 1 => if !s.good then (if s.eof then -1 else 1, s) else skipLinesLoop k s

/-- `skip_lines` (aod1b_skip_header.cpp:38-62). -/
def skipLines (s : In) (n : Int) : Int × In := if n = 0 then (0, s) else skipLinesLoop (n - 1).toNat s

/-- The loop of `goto_next_block` for a type (aod1b_goto_next_block.cpp:54-82); `k` is how often `++j < MAXLS` still holds.
After an error one more line is taken by the condition of the loop. -/
def gotoLoop (date : List Char → Option (T × List Char)) (ty : Ty) : Nat → In → Hdr T → Res (Int × In × Hdr T)
  | k, s, h =>
    match s.getline 124 with
    | (_, false, s) => .ok (if s.eof then -1 else 1, s, h)
    | (line, true, s) =>
      match k with
      | 0 => .ok (if s.eof then -1 else 1, s, h)
      | k + 1 =>
        (parseHeader date line h).bind fun (err, h) =>
        if err ≠ 0 then .ok (1, (s.getline 124).2.2, h)
        else if h.type = ty then .ok (0, s, h)
        else gotoLoop date ty k (s.skip 124 h.numLines.toNat) h

/-- `goto_next_block(fin, type, rec)` (aod1b_goto_next_block.cpp:40-83). -/
def gotoNext (date : List Char → Option (T × List Char)) (a : Aod T) (ty : Ty) (s : In) (h : Hdr T) : Res (Int × In × Hdr T) :=
  gotoLoop date ty (a.numSets - 1).toNat s h

/-- `from_chars(..., cs.C(l, m))`: the value is stored only if there is one. -/
def readC (ws : Char → Bool) (co : Coeffs ℝ) (l m : Int) (s : List Char) : Res (Coeffs ℝ × List Char × Nat) :=
  if co.Has l m then
    let (v, r, e) := readNum ws 0 s
    .ok (if e = 0 then { co with C := Coeffs.put co.C l.toNat m.toNat v } else co, r, e)
  else .ub

/-- `from_chars(..., cs.S(l, m))`. -/
def readS (ws : Char → Bool) (co : Coeffs ℝ) (l m : Int) (s : List Char) : Res (Coeffs ℝ × List Char × Nat) :=
  if co.Has l m then
    let (v, r, e) := readNum ws 0 s
    .ok (if e = 0 then { co with S := Coeffs.put co.S l.toNat m.toNat v } else co, r, e)
  else .ub

/-- One line of coefficients (aod1b_collect_coeffs.cpp:67-80, aod1b_get_tidal_wave.cpp:79-90 and 123-134): degree and
order, whether they were used, the errors, the coefficients. In the tidal reader the two integers start undefined; as
they are only used if both were read, this makes no difference. -/
def line1 (ws : Char → Bool) (n m : Int) (line : List Char) (co : Coeffs ℝ) : Res (Int × Int × Bool × Nat × Coeffs ℝ) :=
  let (l, r, e1) := readInt ws 0 line
  let (o, r, e2) := readInt ws 0 r
  if l ≤ n ∧ o ≤ m ∧ e1 + e2 = 0 then
    (readC ws co l o r).bind fun (co, r, e3) =>
    (readS ws co l o r).bind fun (co, _, e4) =>
    .ok (l, o, true, e3 + e4, co)
  else .ok (l, o, false, e1 + e2, co)

/-- Local variables of the reading loop: the stream, the coefficients, the largest degree and order used. -/
structure Got where
  s : In
  co : Coeffs ℝ
  d : Int
  o : Int

/-- The reading loop (aod1b_collect_coeffs.cpp:65-82), at most `k` lines more: errors and the variables. -/
def collectLoop (ws : Char → Bool) (n m : Int) : Nat → Got → Res (Nat × Got)
  | 0, g => .ok (0, g)
  | k + 1, g =>
    match g.s.getline 124 with
    | (_, false, s) => .ok (0, { g with s := s })
    | (line, true, s) =>
      (line1 ws n m line g.co).bind fun (l, o, used, err, co) =>
      let g' : Got := ⟨s, co, if used then max g.d l else g.d, if used then max g.o o else g.o⟩
      if err ≠ 0 then .ok (err, g') else collectLoop ws n m k g'

/-- Reading and checking (aod1b_collect_coeffs.cpp:51-114). -/
def collectInto (s : In) (n m lines : Int) (co : Coeffs ℝ) (allow : Bool) (junk : Nat → Nat → ℝ) : Res (Int × In × Coeffs ℝ) :=
  (collectLoop ws1 n m lines.toNat ⟨s, co.clear, 0, 0⟩).bind fun (err, g) =>
  if err ≠ 0 ∨ g.s.good = false then .ok (1, g.s, g.co)
  else if allow then (g.co.cresize junk g.d g.o).bind fun co => .ok (0, g.s, co)
  else if g.d ≠ n ∨ g.o ≠ m then .ok (-1, g.s, g.co)
  else .ok (0, g.s, g.co)

/-- `collect_coeffs` (aod1b_collect_coeffs.cpp:13-115). `junk` is what new memory holds. -/
def collectCoeffs (a : Aod T) (s : In) (n m lines : Int) (co : Coeffs ℝ) (allow : Bool) (junk : Nat → Nat → ℝ) :
    Res (Int × In × Coeffs ℝ) :=
  if n < m ∨ n > a.maxDegree then .ok (1, s, co)
  else if allow then (co.resize junk n m).bind fun co => collectInto s n m lines co true junk
  else if co.deg < n ∨ co.ord < m then .ok (1, s, co)
  else collectInto s n m lines co false junk

/-! ### The block iterator -/

/-- `Aod1bDataBlockIterator` (aod1b.hpp:387-393). -/
structure It (T : Type) where
  s : In
  hdr : Hdr T

/-- `set_begin` (aod1b.hpp:432-448). -/
def It.setBegin (date : List Char → Option (T × List Char)) (a : Aod T) (ty : Ty) (it : It T) : Res (It T) :=
  match skipHeader a it.s.clear with
  | (0, s) =>
    (gotoNext date a ty s it.hdr).bind fun (j, s, h) => if j ≠ 0 then .throw else .ok ⟨s, h⟩
  | _ => .throw

/-- `collect(cs, max_degree, max_order, allow_resizing)` (aod1b.hpp:464-477). -/
def It.collect (a : Aod T) (it : It T) (co : Coeffs ℝ) (maxDegree maxOrder : Int) (allow : Bool) (junk : Nat → Nat → ℝ) :
    Res (Int × It T × Coeffs ℝ) :=
  let n := if maxDegree < 0 then a.maxDegree else maxDegree
  let m := if maxOrder < 0 then a.maxDegree else maxOrder
  (collectCoeffs a it.s n m it.hdr.numLines co allow junk).bind fun (j, s, co) =>
  .ok (if j ≠ 0 then 1 else 0, { it with s := s }, co)

/-- `skip()` (aod1b.hpp:451). -/
def It.skip (it : It T) : It T := { it with s := (skipLines it.s it.hdr.numLines).2 }

/-- `advance()` (aod1b.hpp:488-492); `min` is `Datetime::min()`, which marks the end. -/
def It.advance (date : List Char → Option (T × List Char)) (a : Aod T) (ty : Ty) (min : T) (it : It T) : Res (Int × It T) :=
  (gotoNext date a ty it.s it.hdr).bind fun (j, s, h) =>
  .ok (j, ⟨s, if j < 0 then { h with epoch := min } else h⟩)

/-! ### Tidal files -/

/-- The header of a block in a tidal file (aod1b_get_tidal_wave.cpp:61-75, 105-119): `none` for an error, or the announced
number of lines. The result of `getline` is not looked at. -/
def tidalHeader (nr kind : List Char) (s : In) : Res (Option Int × In) :=
  let (line, _, s) := s.getline 124
  let e1 := if (line.dropWhile ws2).take 12 = nr then 0 else 1
  (adv 12 line).bind fun r =>
  let (n, r, e2) := readInt ws2 0 r
  let e3 := if (r.dropWhile ws2).take 24 = kind then 0 else 1
  .ok (if e1 + e2 + e3 = 0 then some n else none, s)

/-- One block of a tidal file (aod1b_get_tidal_wave.cpp:61-101, 103-145). The lines are read as in `collectLoop`; the
largest degree and order are not used. -/
def tidalBlock (nr kind : List Char) (n m : Int) (s : In) (co : Coeffs ℝ) : Res (Nat × In × Coeffs ℝ) :=
  (tidalHeader nr kind s).bind fun
  | (none, s) => .ok (1, s, co)
  | (some lines, s) =>
    (collectLoop ws2 n m lines.toNat ⟨s, co, 0, 0⟩).bind fun (err, g) =>
    .ok (if err ≠ 0 ∨ g.s.good = false then 1 else 0, g.s, g.co)

/-- The degree (order) that is read (aod1b_get_tidal_wave.cpp:27-30): a negative request means all. -/
def request (a : Aod T) (d : Int) : Int := if d < 0 then a.maxDegree else d

/-- `get_tidal_wave_coeffs` (aod1b_get_tidal_wave.cpp:13-158): status and the two sets. -/
def getTidal (a : Aod T) (cc cs : Coeffs ℝ) (maxDegree maxOrder : Int) : Res (Nat × Coeffs ℝ × Coeffs ℝ) :=
  match skipHeader a (In.start a.text) with
  | (0, s) =>
    let n := request a maxDegree
    let m := request a maxOrder
    if n < m ∨ n > a.maxDegree then .ok (1, cc, cs)
    else if (cc.deg < n ∨ cc.ord < m) ∨ (cs.deg < n ∨ cs.ord < m) then .ok (1, cc, cs)
    else
      (tidalBlock "DATA SET 01:".toList "COEFFICIENTS OF TYPE cos".toList n m s cc.clear).bind fun (e, s, cc) =>
      if e ≠ 0 then .ok (1, cc, cs.clear)
      else
        (tidalBlock "DATA SET 02:".toList "COEFFICIENTS OF TYPE sin".toList n m s cs.clear).bind fun (e, s, cs) =>
        if e ≠ 0 then .ok (1, cc, cs)
        else .ok (if (s.getline 124).2.2.eof then 0 else 1, cc, cs)
  | _ => .ok (1, cc, cs)

/-! ### File names -/

/-- `"%02d"` of a number that is not negative. -/
def twoDigits (n : Nat) : List Char := if n < 10 then '0' :: (toString n).toList else (toString n).toList

/-- `"%02d"`. -/
def dec2 (i : Int) : List Char := if i < 0 then '-' :: (toString i.natAbs).toList else twoDigits i.toNat

/-- `Aod1bNonTidalProductNaming::filename` (aod1bnontidalproductnaming.cpp:7-23): the bytes of `buf` afterwards. `date`
is the text that the date library writes for `YYYY-MM-DD`; `old` is what the buffer held (its length is the size of the
buffer). -/
def filename (date : List Char) (rl : Int) (sat : Char) (gz : Bool) (old : List Char) : Res (List Char) :=
  let plain := "AOD1B_".toList ++ date ++ ['_', sat, '_'] ++ dec2 rl ++ ".asc".toList ++ ['\x00']
  if plain.length ≤ old.length then
    let buf := plain ++ old.drop plain.length
    if gz then
      if 31 ≤ buf.length then .ok (buf.take 27 ++ ['.', 'g', 'z', '\x00'] ++ buf.drop 31) else .ub
    else .ok buf
  else .ub

/-- A C string in memory: the characters up to the zero. -/
def cstr (mem : List Char) : List Char := mem.takeWhile (· ≠ '\x00')

/-- What follows the last `/` (`strrchr`), or `none`. -/
def basename (s : List Char) : Option (List Char) :=
  if '/' ∈ s then some (s.reverse.takeWhile (· ≠ '/')).reverse else none

/-- `resolve_rl` (aod1bnontidalproductnaming.cpp:25-39): without a `/` the null pointer is used; a base name of less than
19 characters is read past its end. -/
def resolveRl (path : List Char) : Res Int :=
  match basename path with
  | none => .ub
  | some b =>
    if b.length < 19 then .ub
    else match fromCharsInt ((b.drop 19).take 2) with
      | some (v, _) => .ok v
      | none => .ok (-100)

end Verif.Aod1b
