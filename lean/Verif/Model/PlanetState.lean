import Verif.Model.Planets
import Verif.Model.Vec
import Verif.Model.Iau
/-
Positions and states of the planets and the gravitational constants of Sun and Moon
(src/lib/planets/planet_pos.cpp, planet_state.cpp, kernel_consts.cpp, include/planets.hpp).

CSPICE is not part of /repo. It is represented by the functions the library calls, with their results;
`none` is an error signalled by CSPICE. What happens then depends on CSPICE's error action: by default the
program ends; with the action RETURN the call comes back without having assigned its outputs.
-/
namespace Verif.Planets
open Verif

/-- CSPICE's error action (`erract_c`): the default ends the program. -/
inductive ErrorAction where
  | abort | return
deriving DecidableEq, Repr

/-- The ephemeris functions of CSPICE that the library calls, for the kernels loaded. -/
structure Spice where
  /-- `unitim_c(epoch, from, to)`. -/
  unitim : ℝ → String → String → ℝ
  /-- `spkezp_c(targ, et, ref, abcorr, obs)`: position in km and light time. -/
  spkezp : Int → ℝ → String → String → Int → Option (V3 × ℝ)
  /-- `spkezr_c(targ, et, ref, abcorr, obs)`: position in km, velocity in km/s and light time. The bodies
  are strings. -/
  spkezr : List Nat → ℝ → String → String → List Nat → Option ((V3 × V3) × ℝ)
  /-- The error action in force. -/
  action : ErrorAction

/-- Reading the outputs of a CSPICE call: on an error the program ends, or the outputs are uninitialised. -/
def Spice.outputs {α : Type _} (s : Spice) : Option α → Res α
  | some a => .ok a
  | none => match s.action with
    | .abort => .abort
    | .return => .ub

/-- `MjdEpoch::julian_date()` (library `datetime`), without rounding. -/
noncomputable def julianDate (tt : Iau.Epoch) : ℝ := 2400000.5 + (tt.mjd + tt.f)

/-- `mjdtt2et` (planets.hpp:68-71). -/
noncomputable def mjdtt2et (s : Spice) (tt : Iau.Epoch) : ℝ := s.unitim (julianDate tt) "JDTDT" "ET"

/-- `j2planet_pos_from` (planets.hpp:94-100): the status and the position. -/
def j2planetPosFrom (s : Spice) (et : ℝ) (target observer : Int) : Res (Int × V3) := do
  let r ← s.outputs (s.spkezp target et "J2000" "NONE" observer)
  .ok (0, r.1)

/-- `j2planet_state_from` (planets.hpp:129-135). -/
def j2planetStateFrom (s : Spice) (et : ℝ) (target observer : List Nat) : Res (Int × V3 × V3) := do
  let r ← s.outputs (s.spkezr target et "J2000" "NONE" observer)
  .ok (0, r.1)

/-- `planet_pos` (planet_pos.cpp:3-22): the status and the position; `old` is the caller's vector. -/
noncomputable def planetPos (s : Spice) (p : Planet) (tt : Iau.Epoch) (old : V3) : Res (Int × V3) :=
  let (st, pid) := planetToNaifId p
  if st ≠ 0 then .ok (2, old) else do
  let (status, data) ← j2planetPosFrom s (mjdtt2et s tt) pid 399
  .ok (status, ⟨data.x * 1e3, data.y * 1e3, data.z * 1e3⟩)

/-- The characters of the literal `"399"` (planet_state.cpp:19). -/
def earthStr : List Nat := [51, 57, 57]

/-- `planet_state` (planet_state.cpp:3-31): the status, the position and the velocity. -/
noncomputable def planetState (s : Spice) (junk : List Nat) (p : Planet) (tt : Iau.Epoch) (old : V3 × V3) :
    Res (Int × V3 × V3) := do
  let (errc, trg) ← planetToNaifIdStr junk p 8
  if errc ≠ 0 then .ok (1, old) else do
  let trg ← cstr trg
  let (status, pos, vel) ← j2planetStateFrom s (mjdtt2et s tt) trg earthStr
  .ok (status, ⟨pos.x * 1e3, pos.y * 1e3, pos.z * 1e3⟩, ⟨vel.x * 1e3, vel.y * 1e3, vel.z * 1e3⟩)

/-! ### Gravitational constants -/

/-- The files on disk: the body constants a kernel file defines (`none`: CSPICE cannot load the file). -/
abbrev Disk := List Nat → Option (String → String → Option ℝ)

/-- `bodvrd_c(body, item, ...)` with the files of the pool loaded in order: CSPICE keeps one pool of
variables in which a file loaded later replaces the values of an earlier one. -/
def bodvrd (disk : Disk) : Pool → String → String → Option ℝ
  | [], _, _ => none
  | f :: fs, body, item =>
    match bodvrd disk fs body item with
    | some v => some v
    | none => match disk f with
      | some k => k body item
      | none => none

/-- What a `bodvrd_c` call leaves in the caller's variable: after an error with the action RETURN it keeps
its old value. -/
def assigned (action : ErrorAction) (old : ℝ) : Option ℝ → Res ℝ
  | some v => .ok v
  | none => match action with
    | .abort => .abort
    | .return => .ok old

/-- `load_if_unloaded` (kernel.cpp:10-33) with files that may be missing. -/
def loadKernel (disk : Disk) (action : ErrorAction) (pool : Pool) (k : List Nat) : Res Pool :=
  let pool' := loadIfUnloaded pool k
  if pool' = pool then .ok pool
  else if (disk k).isSome then .ok pool'
  else match action with
    | .abort => .abort
    | .return => .ok pool

/-- `sun_moon_gm` (kernel_consts.cpp:4-21): the status, the pool, the two constants. `sun0`, `moon0` are
the values of the caller's variables before the call. -/
noncomputable def sunMoonGm (disk : Disk) (action : ErrorAction) (pool : Pool) (sun0 moon0 : ℝ) (useSi : Int)
    (pck : Option (List Nat)) : Res (Int × Pool × ℝ × ℝ) := do
  let pool ← match pck with
    | some k => loadKernel disk action pool k
    | none => .ok pool
  let sun ← assigned action sun0 (bodvrd disk pool "SUN" "GM")
  let moon ← assigned action moon0 (bodvrd disk pool "MOON" "GM")
  if useSi ≠ 0 then .ok (0, pool, sun * 1e9, moon * 1e9) else .ok (0, pool, sun, moon)

end Verif.Planets
