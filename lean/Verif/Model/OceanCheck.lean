import Verif.Model.LibrationCheck
/-
The check of `deop_ocean_tide` against a file of reference values (test/iers/eop_oceantide.cpp).

Simplifications: numbers are exact; messages are not modelled. `leap` is ΔAT on a UTC day, `dat` that on the UTC day of a TT epoch
(library `datetime`).
-/
namespace Verif.OceanCheck
open Verif Verif.Chars Verif.EopTides

/-- The epoch of a row in TT (eop_oceantide.cpp:48-56): `(int)d[0]` and the seconds are a date in UTC, which `utc2tt` converts. -/
noncomputable def epoch (leap : Int → ℝ) (t : ℚ) : Res Iau.Epoch :=
  (Costg.epochOf t).bind fun e =>
    let x : ℝ := (e.1 : ℝ) + (((e.2 : ℚ) : ℝ) + leap e.1 + 32.184) / 86400
    .ok ⟨⌊x⌋, Int.fract x, Int.fract_nonneg _, Int.fract_lt_one _⟩

/-- The ocean tides at an epoch (eop_oceantide.cpp:54-63): sidereal time is taken as if UT1 were UTC. -/
noncomputable def ocean (dat : ℝ → ℝ) (t : Iau.Epoch) : Diurnal :=
  deopOceanTide (Orient.fundarg t.jcenturies) (Iau.gmst82 (Orient.tt2ut1 dat t 0))

/-- The three comparisons (eop_oceantide.cpp:10-11, 69-74); `v` are the numbers behind the epoch. -/
def accepts (v : List ℚ) (c : Diurnal) : Prop :=
  |((v.getD 0 0 : ℚ) : ℝ) - c.dxp| < 5 ∧ |((v.getD 1 0 : ℚ) : ℝ) - c.dyp| < 5 ∧ |((v.getD 2 0 : ℚ) : ℝ) - c.dut1| < 1

open Classical in
/-- The loop over the lines (eop_oceantide.cpp:31-75). `junk` are the numbers of `d`, which are written before they are used unless the
program ends. -/
noncomputable def loop (leap : Int → ℝ) (dat : ℝ → ℝ) (junk : List ℚ) (s : In) : Res Int :=
  match h : s.getline 512 with
  | (_, false, _) => .ok 0
  | (line, true, s') =>
    match readFields junk line with
    | (t :: v, 0) => (epoch leap t).bind fun e => if accepts v (ocean dat e) then loop leap dat junk s' else .ok 1
    | _ => .abort
termination_by s.rest.length
decreasing_by all_goals exact Costg.getline_lt h

/-- The program (eop_oceantide.cpp:13-78); `none`: the file cannot be opened. -/
noncomputable def program (leap : Int → ℝ) (dat : ℝ → ℝ) (junk : Fin 4 → ℚ) (argc : Int) (file : Option (List Char)) : Res Int :=
  if argc ≠ 2 then .ok 1
  else match file with
    | none => .ok 2
    | some text => loop leap dat (List.ofFn junk) (In.start text)

end Verif.OceanCheck
