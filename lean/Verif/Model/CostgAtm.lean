import Verif.Model.CostgTide
import Verif.Model.Aod1bHeader
/-
The checks of atmospheric tides against the benchmark: check_09aod1b_atmosphericTides_icrf.cpp and
check_09aod1b_atmosphericTides_S1_icrf.cpp (test/costg_benchmark).

Simplifications: those of Verif/Model/CostgTide.lean; `disk` gives the contents of files.
-/
namespace Verif.Tide
open Verif

variable {T : Type} [DecidableEq T]

/-- `AtmosphericTide::append_wave` (atm_tides_append_wave.cpp:4-53) on the file of this name: the constructor of `Aod1bIn` reads the header (line 12);
if it throws the status is 1 (36-42). A header without a wave leaves the default one (aod1b.hpp:147, doodson.hpp:67-68,500). -/
noncomputable def Atm.appendFile (E : Aod1b.Head.Env T) (junk : Nat → Nat → ℝ) (x : Atm) (name : List Char) (file : Option (List Char))
    (n m : Int) : Res (Nat × Atm) :=
  match Aod1b.Head.construct E file with
  | .throw => x.append (T := T) junk none n m
  | .ub => .ub
  | .abort => .abort
  | .ok h => (h.aod name (file.getD [])).bind fun a => x.append junk (some (a, (h.wave.map (·.d)).getD ⟨0, 0, 0, 0, 0, 0, 0⟩)) n m

end Verif.Tide

namespace Verif.Costg
open Verif

/-- `AtmosphericTide`. -/
noncomputable def atmObj : TideObj Tide.Atm := ⟨Tide.Atm.coeffs, Tide.Atm.mcs, fun x c => { x with mcs := c }⟩

variable {T : Type} [DecidableEq T]

/-- The waves (check_09aod1b_atmosphericTides_icrf.cpp:61-68): the first that fails ends the program with status 1 (`none`). -/
noncomputable def appendAll (E : Aod1b.Head.Env T) (junk : Nat → Nat → ℝ) (disk : List Char → Option (List Char)) :
    List (List Char) → Tide.Atm → Res (Option Tide.Atm)
  | [], x => .ok (some x)
  | f :: fs, x => (x.appendFile E junk f (disk f) 180 180).bind fun (st, x) => if st ≠ 0 then .ok none else appendAll E junk disk fs x

/-- check_09aod1b_atmosphericTides_icrf.cpp:20-120. -/
noncomputable def checkAtm (E : Aod1b.Head.Env T) (junk : Nat → Nat → ℝ) (disk : List Char → Option (List Char)) (waves : List (List Char))
    (tt dat : ℚ → ℚ) :=
  checkTide atmObj tt dat (appendAll E junk disk waves Tide.Atm.new) 180

/-- check_09aod1b_atmosphericTides_S1_icrf.cpp:20-118. -/
noncomputable def checkAtmS1 (E : Aod1b.Head.Env T) (junk : Nat → Nat → ℝ) (disk : List Char → Option (List Char)) (wave : List Char)
    (tt dat : ℚ → ℚ) :=
  checkTide atmObj tt dat ((Tide.Atm.new.appendFile E junk wave (disk wave) 180 180).bind fun (st, x) => .ok (if st ≠ 0 then none else some x)) 180

end Verif.Costg
