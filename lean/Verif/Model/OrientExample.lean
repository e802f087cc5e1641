import Verif.Model.Orient
/-
The example program examples/eop_interpolation.cpp.

Simplifications as in Model/Orient. The lines `[RAW]` are not modelled, nor is rounding by `printf`. `add_seconds` of the library `datetime` returns
the later epoch and leaves its own unchanged, as its use on constant objects shows (i2c_astropy.cpp:80-81); the member that changes the epoch is
`add_seconds_inplace` (test/unit_tests/aod1b_dealias_multiday.cpp:50).
-/
namespace Verif.Orient
open Verif Verif.Eop

/-- A Modified Julian Date as an epoch. -/
noncomputable def epochOfMjd (t : ℝ) : Iau.Epoch := ⟨⌊t⌋, Int.fract t, Int.fract_nonneg _, Int.fract_lt_one _⟩

/-- What the loop of the program holds: the series, the epoch, the record, and the lines `[COR]` printed, the last one first; or the program has
ended with an exit status. -/
inductive Example where
  | running (s : Series ℝ) (t : Iau.Epoch) (e : Rec ℝ) (lines : List (Rec ℝ))
  | ended (status : Int) (lines : List (Rec ℝ))

open Classical in
/-- One turn of the loop (eop_interpolation.cpp:38-82): the epoch returned by `add_seconds` is dropped. `last_epoch` is the epoch of the last
record (eop.hpp:259-262). -/
noncomputable def Example.step (dat : ℝ → ℝ) : Example → Res Example
  | .ended k ls => .ok (.ended k ls)
  | .running s t e ls =>
    match s.vec.getLast? with
    | none => .ub
    | some l =>
      if (t.mjd : ℝ) + t.f < l.t then
        (interpolated dat s t e).bind fun (s, e, inside) => .ok (if inside then .running s t e (e :: ls) else .ended 1 ls)
      else .ok (.ended 0 ls)

/-- The state after `n` turns. -/
noncomputable def Example.turns (dat : ℝ → ℝ) : Nat → Example → Res Example
  | 0, x => .ok x
  | n + 1, x => (x.step dat).bind fun x => Example.turns dat n x

/-- The program up to the `n`-th turn of its loop (eop_interpolation.cpp:7-88): 9 records are asserted. `old` is the record declared before the loop. -/
noncomputable def eopExample (tt dat : ℚ → ℚ) (datTT : ℝ → ℝ) (junkE : List ℚ) (old : Rec ℝ) (eop : Option (List (List Char))) (n : Nat) : Res Example :=
  (series tt dat junkE eop 57750 57759).bind fun
    | none => .ok (.ended 1 [])
    | some s =>
      if s.vec.length = 9 then
        match s.vec.head? with
        | none => .ub
        | some r => Example.turns datTT n (.running s (epochOfMjd r.t) old [])
      else .abort

end Verif.Orient
