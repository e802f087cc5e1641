import Verif.Model.Aod1bStream
import Verif.Model.Aod1bHeader
/-
The constructor of the dealiasing data stream and the search for the file of the next day
(include/aod1b_data_stream.hpp:281-299, 406-430; src/lib/aod1b/aod1b.cpp:5-17).
-/
namespace Verif.Aod1b
open Verif

/-- What the stream depends on: the files by their path; the date library (reading headers and block headers, the epoch as a number
of days, the mark for the end, the integral Modified Julian Day of an epoch, the text `YYYY-MM-DD` of such a day); what new memory
holds. -/
structure World (T : Type) where
  disk : List Char → Option (List Char)
  head : Head.Env T
  date : List Char → Option (T × List Char)
  day : T → ℝ
  min : T
  mjd : T → Int
  ymd : Int → List Char
  junk : Nat → Nat → ℝ
  junkHdr : Hdr T
  junkChars : Nat → Char

namespace World
variable {T : Type} [DecidableEq T] (W : World T)

/-- `Aod1bIn(fn)` (aod1b.cpp:5-17): the members of the header and the open file. A file whose degree or number of sets is not set is
undefined here already (in the program: at their first use). -/
def openFile (fn : List Char) : Res (Head.Data T × Aod T) :=
  (Head.construct W.head (W.disk fn)).bind fun h => (h.aod fn ((W.disk fn).getD [])).bind fun a => .ok (h, a)

/-- `std::filesystem::path::operator/` for a relative second path. -/
def join (dir name : List Char) : List Char :=
  if dir = [] then name else if dir.getLast? = some '/' then dir ++ name else dir ++ '/' :: name

/-- The path of the next file (aod1b_data_stream.hpp:282-289): release from the name of the current file, date from the day after its
last epoch, in a buffer of 256 characters. -/
def nextPath (dir : List Char) (a : Aod T) : Res (List Char) :=
  (resolveRl a.name).bind fun rl =>
  (filename (W.ymd (W.mjd a.last + 1)) rl 'X' false ((List.range 256).map W.junkChars)).bind fun pfn =>
  let full := join dir (cstr pfn)
  if full.length < 256 then .ok full else .ub

/-- The next file (aod1b_data_stream.hpp:282-299): `none` if it cannot be opened or its header cannot be read. -/
def feed (dir : List Char) (a : Aod T) : Res (Option (Aod T)) :=
  (W.nextPath dir a).bind fun pfn =>
  match W.openFile pfn with
  | .ok (_, a') => .ok (some a')
  | .throw => .ok none
  | .ub => .ub
  | .abort => .abort

/-- What the functions of the stream depend on, for blocks of type `ty` and the directory given. -/
def env (ty : Ty) (dir : List Char) : Env T := ⟨W.date, W.day, W.min, ty, W.feed dir, W.junk⟩

/-- `StokesCoeffs(n, n, GM, Re)` as the constructors below call it (stokes_coefficients.hpp:93-96). Simplification: a negative degree
is undefined. -/
def newSet (n : Int) (gm re : ℚ) : Res (Coeffs ℝ) :=
  if n < 0 then .ub else .ok ⟨n, n, (n + 1).toNat, W.junk, W.junk, gm, re, true⟩

/-- The constructors of `Aod1bDataStream` (aod1b_data_stream.hpp:406-430); `dir` is empty for the first one. -/
def newStream (fn dir : List Char) : Res (Ds T) :=
  (W.openFile fn).bind fun (h, a) =>
  match h.gm, h.re with
  | some gm, some re => (W.newSet a.maxDegree gm re).bind fun c =>
      .ok ⟨a, ⟨In.start a.text, W.junkHdr⟩, W.junkHdr, W.junkHdr, W.junkHdr, c, c, c, !dir.isEmpty⟩
  | _, _ => .ub

end World
end Verif.Aod1b
