import Verif.Model.RoundedEop
import Verif.Model.RoundedEopTides
import Verif.Model.RoundedGcrs
import Verif.Model.OrientFrames
/-
From a series of Earth orientation parameters to the rotation at an epoch in floating-point arithmetic: what the program
test/unit_tests/i2c_astropy.cpp does for every row, as in `Model/Orient`, with the rounding `fl` after every operation on doubles, products fused
with a sum excepted (`Model/Arith`). What the library `datetime` says of an epoch is a parameter.
-/
namespace Verif.RoundedOrient
open Verif Verif.Eop Verif.EopTides Verif.Rounded

/-- What is asked of an epoch (library `datetime`), as doubles: fraction of the day, days since J2000, Julian centuries since J2000; and the epoch in
UT1 of an epoch in TT, for a value of UT1-UTC. -/
structure Clock where
  frac : Iau.Epoch → ℝ
  days : Iau.Epoch → ℝ
  cents : Iau.Epoch → ℝ
  ut1 : Iau.Epoch → ℝ → Iau.Epoch

section
variable (fl : Arith) (fsin fcos fatan s2r : ℝ → ℝ) (fatan2 : ℝ → ℝ → ℝ) (qmul : Quat → Quat → Quat) (dd : ℝ → ℝ → ℝ) (ck : Clock)

/-- `approx_dut1` (approx_dut1.cpp:3-49). -/
noncomputable def approxDut1 (dat : ℝ → ℝ) (s : Series ℝ) (t : ℝ) : Res (Status × ℝ × Series ℝ) :=
  (s.hunt t).bind fun it =>
  let s := { s with last := some it }
  if it = 0 then
    match s.vec[0]? with
    | some r => .ok (.prior, r.dut, s)
    | none => .ub
  else if it = s.vec.length then
    match s.vec[it - 1]? with
    | some r => .ok (.later, r.dut, s)
    | none => .ub
  else
    match s.vec[it - 1]?, s.vec[it]? with
    | some x0, some x1 => .ok (.linear, fl (RoundedEop.lin fl dd x0 x1 t (RoundedEop.ut1tai fl) + dat t), s)
    | _, _ => .ub

/-- A correction of pole, UT1 and length of day in 1e-6 of their units (i2c_astropy.cpp:126-129, 136-139). -/
noncomputable def addDaily (e : Rec ℝ) (d : Diurnal) : Rec ℝ :=
  { e with
    xp := fl (e.xp + fl.pr 0 (d.dxp * lit fl 1e-6))
    yp := fl (e.yp + fl.pr 1 (d.dyp * lit fl 1e-6))
    dut := fl (e.dut + fl.pr 2 (d.dut1 * lit fl 1e-6))
    lod := fl (e.lod + fl.pr 3 (d.dlod * lit fl 1e-6)) }

/-- A correction of UT1 and length of day (i2c_astropy.cpp:150-151). -/
noncomputable def addZonal (e : Rec ℝ) (z : Zonal) : Rec ℝ :=
  { e with dut := fl (e.dut + fl.pr 0 (z.dut1 * lit fl 1e-6)), lod := fl (e.lod + fl.pr 1 (z.dlod * lit fl 1e-6)) }

/-- One epoch (i2c_astropy.cpp:97-152): the record with its tidal variations, or `false` out of bounds. The arguments are the first five of those that
`xycip06a` stores. The status of `approx_dut1` is not looked at. -/
noncomputable def oriented (dat : ℝ → ℝ) (s : Series ℝ) (tt : Iau.Epoch) (old : Rec ℝ) : Res (Series ℝ × Rec ℝ × Bool) :=
  (RoundedEop.interpolate fl dd dat s ((tt.mjd : ℝ) + tt.f) old 5).bind fun (st, e, s) =>
    if st = .prior ∨ st = .later then .ok (s, e, false)
    else (approxDut1 fl dd dat s ((tt.mjd : ℝ) + tt.f)).bind fun (_, d, s) =>
      let t := ck.cents tt
      let g := gmst fl s2r t (ck.frac (ck.ut1 tt d)) (ck.days (ck.ut1 tt d))
      let fa : Fin 5 → ℝ := fun i => (RoundedCip.fargs14 fl s2r t).getD i 0
      let e := addDaily fl e (RoundedEopTides.deopLibration fl fsin fcos fa g)
      let e := addDaily fl e (RoundedEopTides.deopOceanTide fl fsin fcos fa g)
      .ok (s, addZonal fl e (RoundedEopTides.deopZonalTide fl fsin fcos fa), true)

/-- The rotation at that epoch (i2c_astropy.cpp:97-158; c2i06a.cpp:4-29): `none` out of bounds. -/
noncomputable def rotation (dat : ℝ → ℝ) (s : Series ℝ) (tt : Iau.Epoch) (old : Rec ℝ) : Res (Series ℝ × Option Quat) :=
  (oriented fl fsin fcos s2r dd ck dat s tt old).bind fun (s, e, inside) =>
    if inside = false then .ok (s, none)
    else (RoundedGcrs.c2i06a fl fsin fcos fatan s2r fatan2 qmul (ck.cents tt) (ck.frac (ck.ut1 tt e.dut)) (ck.days (ck.ut1 tt e.dut))
      (Orient.eopRec e)).bind fun q => .ok (s, some q)

/-- The loop over the epochs (i2c_astropy.cpp:96-163), one series for all of them: the rotations in order, and `false` if the loop ended at an epoch out of
bounds. The records that `interpolate` writes to are locals of the loop. -/
noncomputable def rotations (dat : ℝ → ℝ) (s : Series ℝ) : List (Iau.Epoch × Rec ℝ) → Res (Series ℝ × List Quat × Bool)
  | [] => .ok (s, [], true)
  | (tt, old) :: rest => (rotation fl fsin fcos fatan s2r fatan2 qmul dd ck dat s tt old).bind fun (s, q) =>
    match q with
    | none => .ok (s, [], false)
    | some q => (rotations dat s rest).bind fun (s, qs, b) => .ok (s, q :: qs, b)

end

end Verif.RoundedOrient
