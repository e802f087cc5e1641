import Verif.Model.LibrationCheck
/-
The check of `deop_zonal_tide` against a file of reference values (test/iers/eop_rgzont2.cpp).

Simplifications: numbers are exact; messages are not modelled.
-/
namespace Verif.ZonalCheck
open Verif Verif.Chars Verif.EopTides

/-- The zonal tides at an epoch in seconds and radians per second (eop_rgzont2.cpp:55-66); the epoch (eop_rgzont2.cpp:50-53) is made as in
`LibrationCheck.epoch`. -/
noncomputable def zonal (t : Iau.Epoch) : Zonal :=
  let z := deopZonalTide (Orient.fundarg t.jcenturies)
  ⟨z.dut1 * 1e-6, z.dlod * 1e-6, z.domega * 1e-14⟩

/-- The three comparisons (eop_rgzont2.cpp:10-12, 73-78); `v` are the numbers behind the epoch. -/
def accepts (v : List ℚ) (c : Zonal) : Prop :=
  |((v.getD 0 0 : ℚ) : ℝ) - c.dut1| * 1e6 < 1e-6 ∧ |((v.getD 1 0 : ℚ) : ℝ) - c.dlod| * 1e6 < 1e-7 ∧
    |((v.getD 2 0 : ℚ) : ℝ) - c.domega| < 1e-14

open Classical in
/-- The loop over the lines (eop_rgzont2.cpp:33-79). `junk` are the numbers of `d`, which are written before they are used unless the
program ends. -/
noncomputable def loop (junk : List ℚ) (s : In) : Res Int :=
  match h : s.getline 512 with
  | (_, false, _) => .ok 0
  | (line, true, s') =>
    match readFields junk line with
    | (t :: v, 0) => (LibrationCheck.epoch t).bind fun e => if accepts v (zonal e) then loop junk s' else .ok 1
    | _ => .abort
termination_by s.rest.length
decreasing_by all_goals exact Costg.getline_lt h

/-- The program (eop_rgzont2.cpp:14-82); `none`: the file cannot be opened. -/
noncomputable def program (junk : Fin 4 → ℚ) (argc : Int) (file : Option (List Char)) : Res Int :=
  if argc ≠ 2 then .ok 1
  else match file with
    | none => .ok 2
    | some text => loop (List.ofFn junk) (In.start text)

end Verif.ZonalCheck
