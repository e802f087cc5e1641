import Verif.Model.Base
import Mathlib.Data.List.Basic
/-
Planet identifiers and kernel loading (src/lib/planets). Characters are `Nat` codes; a C string is the
list of its characters without the terminating zero.
-/
namespace Verif.Planets

/-- `dso::Planet` (planets.hpp:20-29). -/
inductive Planet where
  | earth | moon | sun | mercury | venus | mars | jupiter | saturn
deriving DecidableEq, Repr

/-- `PlanetId` (planet_to_naif_id.cpp:16-24). -/
def planetId : List (Planet × Int) :=
  [(.earth, 399), (.moon, 301), (.sun, 10), (.mercury, 199), (.venus, 299), (.mars, 499), (.jupiter, 599),
   (.saturn, 699)]

/-- `std::numeric_limits<int>::max()`. -/
def intMax : Int := 2147483647

/-- `planet_to_naif_id` (planet_to_naif_id.cpp:27-33): the status and the id. -/
def planetToNaifId (p : Planet) : Int × Int :=
  let id := match planetId.find? (fun e => e.1 == p) with
    | some e => e.2
    | none => intMax
  (if id = intMax then 1 else 0, id)

/-- Decimal digits of a number, most significant first (`std::to_chars`). `fuel` bounds the number of
digits. -/
def digitsAux : Nat → Nat → List Nat → List Nat
  | 0, _, acc => acc
  | fuel + 1, n, acc =>
    let acc := (48 + n % 10) :: acc
    if n / 10 = 0 then acc else digitsAux fuel (n / 10) acc

/-- `std::to_chars(int)`: the characters written. -/
def toChars (i : Int) : List Nat :=
  if i < 0 then 45 :: digitsAux (i.natAbs + 1) i.natAbs [] else digitsAux (i.natAbs + 1) i.natAbs []

/-- `planet_to_naif_idstr` (planet_to_naif_id.cpp:35-48). `buf` is the caller's buffer of `bufsz`
characters; the result is the status and the buffer. When the number does not fit, `to_chars` leaves the
buffer unspecified: `junk`. A negative size makes `memset` run out of bounds. -/
def planetToNaifIdStr (junk : List Nat) (p : Planet) (bufsz : Int) : Res (Int × List Nat) :=
  if bufsz < 0 then .ub else
  let buf := List.replicate bufsz.toNat 0
  let (st, id) := planetToNaifId p
  if st ≠ 0 then .ok (1, buf) else
  let t := toChars id
  if t.length ≤ bufsz then .ok (0, t ++ buf.drop t.length) else .ok (2, junk)

/-- The C string stored in a buffer: the characters before the first zero. No zero: no string (a reader
runs past the buffer). -/
def cstr (buf : List Nat) : Res (List Nat) :=
  if 0 ∈ buf then .ok (buf.takeWhile (· ≠ 0)) else .ub

/-! ### Kernels -/

/-- `FILLEN` (kernel.cpp:5). -/
def FILLEN : Nat := 128

/-- `strncmp(a, b, n) == 0` for zero-terminated strings: the first `n` characters agree, where reading
stops at the zero. -/
def strncmpEq : List Nat → List Nat → Nat → Bool
  | _, _, 0 => true
  | [], [], _ => true
  | a :: as, b :: bs, n + 1 => a == b && strncmpEq as bs n
  | _, _, _ => false

/-- The files loaded by SPICE, in the order of loading (`ktotal_c`/`kdata_c`/`furnsh_c`, not part of
/repo). `furnsh_c` appends; `kdata_c` returns a name in a buffer of `FILLEN` characters, i.e. its first
`FILLEN - 1` characters. -/
abbrev Pool := List (List Nat)

/-- `load_if_unloaded` (kernel.cpp:10-33). -/
def loadIfUnloaded (pool : Pool) (kernel : List Nat) : Pool :=
  if pool.any (fun f => strncmpEq (f.take (FILLEN - 1)) kernel kernel.length) then pool
  else pool ++ [kernel]

end Verif.Planets
