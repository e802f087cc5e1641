import Verif.Model.EarthRot
import Verif.Model.Cip
import Verif.Model.Cio
import Verif.Model.Iau
/-
The transformation functions of include/earth_rotation.hpp as they are called: with an epoch of TT and an EOP
record (src/lib/earth_rotation/*.cpp). `tt2ut1` is the conversion of the library `datetime`; it is a parameter.
-/
namespace Verif.EarthRot
open Verif Verif.Quat Verif.Angle Verif.Iau Verif.Cip

/-- `EopRecord`: pole coordinates and CIP corrections in arcseconds, UT1-UTC and length of day in seconds. -/
structure EopRec where
  xp : ℝ
  yp : ℝ
  dut : ℝ
  lod : ℝ
  dX : ℝ
  dY : ℝ

/-- The quantities all four functions compute first (c2i06a.cpp:8-28, 35-62, c2i06abz.cpp:51-71,
c2i06apq.cpp:8-29). -/
noncomputable def argsAt (tt2ut1 : Epoch → ℝ → Epoch) (tt : Epoch) (eops : EopRec) : Res Args :=
  (xycip06a tt.jcenturies).bind fun r =>
    let s := s06With tt.jcenturies r.x r.y r.outargs
    .ok ⟨r.x, r.y, s, sp00 tt, era00 (tt2ut1 tt eops.dut), eops.dX, eops.dY, eops.xp, eops.yp, eops.lod⟩

/-- `c2i06a(tt, eops)` (c2i06a.cpp:4-29). -/
noncomputable def c2i06aAt (tt2ut1 : Epoch → ℝ → Epoch) (tt : Epoch) (eops : EopRec) : Res (Option Quat) :=
  (argsAt tt2ut1 tt eops).bind fun a => .ok (c2i06a a)

/-- `c2i06a(tt, eops, dMdt)` (c2i06a.cpp:31-64). -/
noncomputable def c2i06aDAt (tt2ut1 : Epoch → ℝ → Epoch) (tt : Epoch) (eops : EopRec) : Res (Option (Quat × M3)) :=
  (argsAt tt2ut1 tt eops).bind fun a => .ok (c2i06aD a)

/-- `c2i06a_bz(tt, eops)` (c2i06abz.cpp:49-72). -/
noncomputable def c2i06aBzAt (tt2ut1 : Epoch → ℝ → Epoch) (tt : Epoch) (eops : EopRec) : Res (Option Quat) :=
  (argsAt tt2ut1 tt eops).bind fun a => .ok (c2i06aBz a)

/-- `c2i06a(tt, eops, qc2tirs, qtirs2i)` (c2i06apq.cpp:4-33). -/
noncomputable def c2i06aPQAt (tt2ut1 : Epoch → ℝ → Epoch) (tt : Epoch) (eops : EopRec) :
    Res (Option (Quat × Quat × V3)) :=
  (argsAt tt2ut1 tt eops).bind fun a => .ok (c2i06aPQ a)

end Verif.EarthRot
