import Verif.Model.Costg
import Verif.Model.Orient
/-
The check of `deop_libration` against a file of reference values (test/iers/eop_libration.cpp).

Simplifications: numbers are exact; messages are not modelled. `dat` is ΔAT, as in Model/Orient.
-/
namespace Verif.LibrationCheck
open Verif Verif.Chars Verif.EopTides

/-- The epoch of a row (eop_libration.cpp:53-56): `(int)d[0]` and the seconds, put together by the constructor of `MjdEpoch`. -/
noncomputable def epoch (t : ℚ) : Res Iau.Epoch :=
  (Costg.epochOf t).bind fun e =>
    let x : ℝ := (e.1 : ℝ) + ((e.2 : ℚ) : ℝ) / 86400
    .ok ⟨⌊x⌋, Int.fract x, Int.fract_nonneg _, Int.fract_lt_one _⟩

/-- The libration at an epoch (eop_libration.cpp:58-65): sidereal time is taken as if UT1 were UTC. -/
noncomputable def libration (dat : ℝ → ℝ) (t : Iau.Epoch) : Diurnal :=
  deopLibration (Orient.fundarg t.jcenturies) (Iau.gmst82 (Orient.tt2ut1 dat t 0))

/-- The four comparisons (eop_libration.cpp:11-13, 71-78); `v` are the numbers behind the epoch. -/
def accepts (v : List ℚ) (c : Diurnal) : Prop :=
  |((v.getD 0 0 : ℚ) : ℝ) - c.dut1| < 1e-1 ∧ |((v.getD 1 0 : ℚ) : ℝ) - c.dlod| < 1 ∧
    |((v.getD 2 0 : ℚ) : ℝ) - c.dxp| < 1 ∧ |((v.getD 3 0 : ℚ) : ℝ) - c.dyp| < 1

open Classical in
/-- The loop over the lines (eop_libration.cpp:36-79). `junk` are the numbers of `d`, which are written before they are used unless the
program ends. -/
noncomputable def loop (dat : ℝ → ℝ) (junk : List ℚ) (s : In) : Res Int :=
  match h : s.getline 512 with
  | (_, false, _) => .ok 0
  | (line, true, s') =>
    match readFields junk line with
    | (t :: v, 0) => (epoch t).bind fun e => if accepts v (libration dat e) then loop dat junk s' else .ok 1
    | _ => .abort
termination_by s.rest.length
decreasing_by all_goals exact Costg.getline_lt h

/-- The program (eop_libration.cpp:15-82); `none`: the file cannot be opened. -/
noncomputable def program (dat : ℝ → ℝ) (junk : Fin 5 → ℚ) (argc : Int) (file : Option (List Char)) : Res Int :=
  if argc ≠ 2 then .ok 1
  else match file with
    | none => .ok 2
    | some text => loop dat (List.ofFn junk) (In.start text)

end Verif.LibrationCheck
