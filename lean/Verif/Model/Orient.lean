import Verif.Model.Eop
import Verif.Model.EopFile
import Verif.Model.EopTides
import Verif.Model.Gcrs
import Verif.Model.Costg
import Verif.Model.CostgTide
/-
Earth orientation at an epoch from a series of records, as the programs of the project compute it: test/costg_benchmark/tcheck_eops.cpp,
test/costg_benchmark/check_c2i.cpp, test/unit_tests/i2c_astropy.cpp, examples/eop_interpolation.cpp.

Simplifications: numbers are exact; the number of arguments is right; messages are not modelled.
-/
namespace Verif.Orient
open Verif Verif.Eop Verif.EopTides

/-- The numbers of a record as reals. -/
noncomputable def real (r : Rec ℚ) : Rec ℝ := ⟨r.t, r.xp, r.yp, r.dut, r.lod, r.dX, r.dY, r.dat, r.xrt, r.yrt⟩

/-- A series with real numbers. -/
noncomputable def realSeries (s : Series ℚ) : Series ℝ := ⟨s.vec.map real, s.cap, s.last⟩

/-- `fundarg` (fundarg.cpp:3-21), and the first five of the arguments that `xycip06a` stores. -/
noncomputable def fundarg (T : ℝ) : Fin 5 → ℝ := ![Fundarg.fal03 T, Fundarg.falp03 T, Fundarg.faf03 T, Fundarg.fad03 T, Fundarg.faom03 T]

/-- `regularize()` (regularize.cpp:4-22): the zonal tides at a Modified Julian Date TT. -/
noncomputable def regularize (s : Series ℝ) : Series ℝ :=
  s.regularize (fun t => (deopZonalTide (fundarg ((t - 51544.5) / 36525))).dut1)
    (fun t => (deopZonalTide (fundarg ((t - 51544.5) / 36525))).dlod)

/-- `tt2ut1` (library `datetime`): UT1 is UTC plus `dut`, UTC is TAI minus ΔAT, TT is 32.184 s ahead of TAI. `dat` is ΔAT on the UTC day of a
TT epoch, as in `interpolate`. -/
noncomputable def tt2ut1 (dat : ℝ → ℝ) (tt : Iau.Epoch) (dut : ℝ) : Iau.Epoch :=
  let t : ℝ := (tt.mjd : ℝ) + tt.f + (dut - dat ((tt.mjd : ℝ) + tt.f) - 32.184) / 86400
  ⟨⌊t⌋, Int.fract t, Int.fract_nonneg _, Int.fract_lt_one _⟩

/-- A correction of pole, UT1 and length of day in 1e-6 of their units (tcheck_eops.cpp:76-83, 86-93). -/
noncomputable def addDaily (e : Rec ℝ) (d : Diurnal) : Rec ℝ :=
  { e with xp := e.xp + d.dxp * 1e-6, yp := e.yp + d.dyp * 1e-6, dut := e.dut + d.dut1 * 1e-6, lod := e.lod + d.dlod * 1e-6 }

/-- A correction of UT1 and length of day (tcheck_eops.cpp:96-105). -/
noncomputable def addZonal (e : Rec ℝ) (z : Zonal) : Rec ℝ := { e with dut := e.dut + z.dut1 * 1e-6, lod := e.lod + z.dlod * 1e-6 }

/-- One epoch up to the zonal tides (tcheck_eops.cpp:52-57, 69-93; check_c2i.cpp:73-107; i2c_astropy.cpp:97-103, 116-140; eop_interpolation.cpp:40-76): the
record, or `none` out of bounds. The status of `approx_dut1` is not looked at. `old` is the record before. -/
noncomputable def interpolated (dat : ℝ → ℝ) (s : Series ℝ) (tt : Iau.Epoch) (old : Rec ℝ) : Res (Series ℝ × Rec ℝ × Bool) :=
  (s.interpolate dat ((tt.mjd : ℝ) + tt.f) old 5).bind fun (st, e, s) =>
    if st = .prior ∨ st = .later then .ok (s, e, false)
    else (s.approxDut1 dat ((tt.mjd : ℝ) + tt.f)).bind fun (_, d, s) =>
      let g := Iau.gmst tt (tt2ut1 dat tt d)
      let fa := fundarg tt.jcenturies
      .ok (s, addDaily (addDaily e (deopLibration fa g)) (deopOceanTide fa g), true)

/-- One epoch with the zonal tides (tcheck_eops.cpp:52-105, i2c_astropy.cpp:97-152). -/
noncomputable def oriented (dat : ℝ → ℝ) (s : Series ℝ) (tt : Iau.Epoch) (old : Rec ℝ) : Res (Series ℝ × Rec ℝ × Bool) :=
  (interpolated dat s tt old).bind fun (s, e, b) =>
    .ok (s, if b then addZonal e (deopZonalTide (fundarg tt.jcenturies)) else e, b)

/-- `parse_iers_C04` and `regularize` (tcheck_eops.cpp:31-44, check_c2i.cpp:51-64, i2c_astropy.cpp:80-93); `none`: exit status 1. -/
noncomputable def series (tt dat : ℚ → ℚ) (junk : List ℚ) (eop : Option (List (List Char))) (start fin : ℚ) : Res (Option (Series ℝ)) :=
  (parseC04 tt dat junk eop start fin Series.new).bind fun (st, s) =>
    .ok (if st ≠ 0 then none else some (regularize (realSeries s)))

/-- `rad2sec` and the tolerances (tcheck_eops.cpp:15-16). -/
noncomputable def rad2sec (x : ℝ) : ℝ := x * (648000 / Real.pi)

/-- The assertions (tcheck_eops.cpp:124-134), for pole coordinates `X`, `Y` and the locators `s`, `sp`. -/
def accepts (c : Costg.Eops) (e : Rec ℝ) (X Y s sp : ℝ) : Prop :=
  rad2sec |(c.xp : ℝ) - Angle.sec2rad e.xp| < 1e-1 ∧ rad2sec |(c.yp : ℝ) - Angle.sec2rad e.yp| < 1e-1 ∧
    rad2sec |(c.sp : ℝ) - sp| < 1e-1 ∧ |(c.dUT1 : ℝ) - e.dut| < 1e1 ∧ |(c.lod : ℝ) - e.lod| < 1e1 ∧
    rad2sec |(c.X : ℝ) - X| < 1e-1 ∧ rad2sec |(c.Y : ℝ) - Y| < 1e-1 ∧ rad2sec |(c.s : ℝ) - s| < 1e-1

open Classical in
/-- The loop over the epochs (tcheck_eops.cpp:51-137). -/
noncomputable def eopsLoop (dat : ℝ → ℝ) : Series ℝ → Rec ℝ → List Costg.Eops → Res Int
  | _, _, [] => .ok 0
  | ser, old, c :: cs =>
    let tt := Costg.ttOf c.epoch
    (oriented dat ser tt old).bind fun (ser, e, inside) =>
      if inside = false then .ok 1
      else (Cip.xycip06a tt.jcenturies).bind fun r =>
        let s := Cip.s06With tt.jcenturies r.x r.y r.outargs
        if accepts c e (r.x + Angle.sec2rad e.dX) (r.y + Angle.sec2rad e.dY) s (Iau.sp00 tt) then eopsLoop dat ser e cs else .abort

/-- The program (tcheck_eops.cpp:18-138): the epochs of the file are read from two days before to two days after the first epoch, which is taken
without a check. `old` is the record declared before the loop. -/
noncomputable def checkEops (tt dat : ℚ → ℚ) (datTT : ℝ → ℝ) (junk : Fin 9 → ℚ) (junkE : List ℚ) (old : Rec ℝ) (ref : Option (List Char))
    (eop : Option (List (List Char))) : Res Int :=
  (Costg.parseEops junk ref).bind fun cs =>
    match cs with
    | [] => .ub
    | c :: _ =>
      (series tt dat junkE eop (c.epoch.1 + c.epoch.2 / 86400 - 2) (c.epoch.1 + c.epoch.2 / 86400 + 2)).bind fun
        | none => .ok 1
        | some ser => eopsLoop datTT ser old cs

end Verif.Orient
