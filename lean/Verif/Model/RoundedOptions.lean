import Verif.Model.RoundedOrient
import Verif.Model.RoundedState
/-
What the program test/unit_tests/i2c_astropy.cpp computes from the record of an epoch on: four ways of taking a position, two of them with its velocity, from ITRS to
GCRS. The assertions are in `Model/RoundedCheck`, the reading of the files in `Model/OrientFrames`. The program makes the
epochs TT and UT1 from one in TAI (`tai2tt`, `tai2ut1`); here the epoch is the one in TT, and `Clock.ut1` makes the one in UT1 from it, as `c2i06a` does.
-/
namespace Verif.RoundedOptions
open Verif Verif.Eop Verif.Rounded Verif.RoundedOrient

/-- What one turn of the loop computes: positions by options 1 to 4 (`p1` to `p4`), velocities by options 3 and 4. -/
structure Out where
  p1 : V3
  p2 : V3
  p3 : V3
  v3 : V3
  p4 : V3
  v4 : V3

section
variable (fl : Arith) (fsin fcos fatan s2r : ℝ → ℝ) (fatan2 : ℝ → ℝ → ℝ) (qmul : Quat → Quat → Quat) (mmul : M3 → M3 → M3) (rot : Quat → V3 → V3)
  (mv : M3 → V3 → V3) (dd : ℝ → ℝ → ℝ) (ck : Clock)

/-- The four options for one record (i2c_astropy.cpp:154-196). Option 1: `q1.conjugate() * ri` (158-159); 2: `q2.conjugate() * ri` (166-167); 3: the two
quaternions and the rotation vector (174-181); 4: the quaternion and its derivative (189-196). -/
noncomputable def four (t f tu : ℝ) (e : EarthRot.EopRec) (ri vi : V3) : Res Out :=
  (RoundedGcrs.c2i06a fl fsin fcos fatan s2r fatan2 qmul t f tu e).bind fun q1 =>
  (RoundedGcrs.c2i06aBz fl fsin fcos fatan s2r fatan2 t f tu e).bind fun q2 =>
  (RoundedGcrs.c2i06aPQ fl fsin fcos fatan s2r fatan2 qmul t f tu e).bind fun (qc, qt, om) =>
  (RoundedGcrs.c2i06aD fl fsin fcos fatan s2r fatan2 qmul mmul t f tu e).bind fun (q3, dM) =>
  let s3 := RoundedState.toCelestial2 fl rot qc qt om ri vi
  let s4 := RoundedState.toCelestial fl rot mv q3 dM ri vi
  .ok ⟨rot q1.conj ri, rot q2.conj ri, s3.1, s3.2, s4.1, s4.2⟩

/-- One turn of the loop (i2c_astropy.cpp:97-201): `none` if the epoch is out of bounds, where the program returns 1. -/
noncomputable def turnOf (dat : ℝ → ℝ) (s : Series ℝ) (tt : Iau.Epoch) (old : Rec ℝ) (ri vi : V3) : Res (Series ℝ × Option Out) :=
  (oriented fl fsin fcos s2r dd ck dat s tt old).bind fun (s, e, inside) =>
    if inside = false then .ok (s, none)
    else (four fl fsin fcos fatan s2r fatan2 qmul mmul rot mv (ck.cents tt) (ck.frac (ck.ut1 tt e.dut)) (ck.days (ck.ut1 tt e.dut))
      (Orient.eopRec e) ri vi).bind fun o => .ok (s, some o)

/-- A row of the reference file: the epoch, the position and velocity in ITRS; and the indeterminate contents of the record that `interpolate` writes to. -/
structure Row where
  tt : Iau.Epoch
  ri : V3
  vi : V3
  old : Rec ℝ

/-- The loop (i2c_astropy.cpp:96-204), one series for all rows: the results in order, and what the program returns: 1 at the first epoch that is out of bounds,
otherwise 0. -/
noncomputable def loop (dat : ℝ → ℝ) (s : Series ℝ) : List Row → Res (Series ℝ × List Out × Int)
  | [] => .ok (s, [], 0)
  | x :: rest => (turnOf fl fsin fcos fatan s2r fatan2 qmul mmul rot mv dd ck dat s x.tt x.old x.ri x.vi).bind fun (s, o) =>
    match o with
    | none => .ok (s, [], 1)
    | some o => (loop dat s rest).bind fun (s, os, c) => .ok (s, o :: os, c)

/-- The program from the series that was read on (i2c_astropy.cpp:92-204): `regularize`, then the loop. `cents` is `jcenturies_sinceJ2000` of the epoch of a record
(library `datetime`). -/
noncomputable def program (cents dat : ℝ → ℝ) (s : Series ℝ) (rows : List Row) : Res (Series ℝ × List Out × Int) :=
  loop fl fsin fcos fatan s2r fatan2 qmul mmul rot mv dd ck dat (RoundedEopTides.regularize fl fsin fcos s2r cents s) rows

end

end Verif.RoundedOptions
