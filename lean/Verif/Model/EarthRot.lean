import Verif.Model.Quat
import Verif.Model.Angle
import Mathlib.Analysis.SpecialFunctions.Trigonometric.Arctan
import Mathlib.Analysis.SpecialFunctions.Complex.Arg
/-
Earth rotation: include/earth_rotation.hpp and src/lib/earth_rotation. Arithmetic and elementary functions are exact. The series for the CIP
coordinates, for s, s' and for the Earth rotation angle are inputs (`Verif.Model.Iau` has the angles).
-/
namespace Verif.EarthRot
open Verif Verif.Quat Verif.Angle

/-- `std::atan2(y, x)`. -/
noncomputable def atan2 (y x : ℝ) : ℝ := Complex.arg ⟨x, y⟩

/-- `std::atan(std::sqrt(r2 / (1e0 - r2)))`: for r2 = 1 the quotient is infinite and the result a quarter turn; over 1 it is not a number. -/
noncomputable def polar (r2 : ℝ) : Option ℝ :=
  if r2 < 1 then some (Real.arctan (Real.sqrt (r2 / (1 - r2)))) else if r2 = 1 then some (Real.pi / 2) else none

/-- `detail::xycip2spherical`: the angles (d, e) (earth_rotation.hpp:95-106); `none`: d is not a number. -/
noncomputable def spherical (X Y : ℝ) : Option (ℝ × ℝ) :=
  let r2 := X * X + Y * Y
  let e := if 0 < r2 then atan2 Y X else 0
  (polar r2).map fun d => (d, e)

/-- `detail::C` (earth_rotation.hpp:136-143). -/
noncomputable def C (X Y s : ℝ) : Option Quat := (spherical X Y).map fun (d, e) => aaZ (e + s) * aaY (-d) * aaZ (-e)

/-- `detail::C_qimpl` (earth_rotation.hpp:165-181). -/
noncomputable def Cq (X Y s : ℝ) : Option Quat := (spherical X Y).map fun (d, _) =>
  let z := Real.cos d
  let cs2 := Real.cos (s / 2)
  let ss2 := Real.sin (s / 2)
  let f := 1 / Real.sqrt (2 * (1 + z))
  ⟨f * (cs2 * (1 + z)), f * (cs2 * Y - ss2 * (-X)), f * (cs2 * (-X) + ss2 * Y), f * (ss2 * (1 + z))⟩

/-- `detail::C_rxyimpl` (earth_rotation.hpp:202-215). -/
noncomputable def Crxy (x y s : ℝ) : M3 :=
  let a := 1 / 2 + 1 / 8 * (x * x + y * y)
  (aaZ s).mat * ⟨1 - a * x * x, -a * x * y, -x, -a * x * y, 1 - a * y * y, -y, x, y, 1 - a * (x * x + y * y)⟩

/-- `detail::dRdt` (earth_rotation.hpp:231-240). -/
noncomputable def dRdt (era omega : ℝ) : M3 :=
  let os := omega * Real.sin era
  let oc := omega * Real.cos era
  ⟨-os, oc, 0, -oc, -os, 0, 0, 0, 0⟩

/-- `detail::c2i` (earth_rotation.hpp:302-308). -/
noncomputable def c2i (era s sp d e xp yp : ℝ) : Quat := aaX yp * aaY xp * aaZ (-sp - era + e + s) * aaY (-d) * aaZ (-e)

/-- `detail::c2tirs` (earth_rotation.hpp:335-340). -/
noncomputable def c2tirs (era s d e : ℝ) : Quat := aaZ (-era + e + s) * aaY (-d) * aaZ (-e)

/-- `detail::tirs2i` (earth_rotation.hpp:355-359). -/
noncomputable def tirs2i (xp yp sp : ℝ) : Quat := aaX yp * aaY xp * aaZ (-sp)

/-- `iers2010::OmegaEarth` (iersconst.hpp). -/
noncomputable def omegaEarth : ℝ := 7.2921151467064e-5

/-- `earth_rotation_rate` (earth_rotation.hpp:368-370). -/
noncomputable def rate (dlod : ℝ) : ℝ := omegaEarth * (1 - dlod / 86400)

/-- `earth_rotation_axis` (earth_rotation.hpp:372-374). -/
noncomputable def axis (lod : ℝ) : V3 := ⟨0, 0, rate lod⟩

/-- `detail::gcrs2itrs_quaternion` (c2i06abz.cpp:5-47). -/
noncomputable def bz (era s sp X Y xp yp : ℝ) : Option Quat :=
  let cxp2 := Real.cos (xp / 2)
  let sxp2 := Real.sin (xp / 2)
  let cyp2 := Real.cos (yp / 2)
  let syp2 := Real.sin (yp / 2)
  let tw := cxp2 * cyp2
  let aw := cxp2 * syp2
  let bw := cyp2 * sxp2
  let cw := sxp2 * syp2
  let thetap := era + sp - s
  let ct2 := Real.cos (thetap / 2)
  let st2 := Real.sin (thetap / 2)
  let r2 := X * X + Y * Y
  let e := if 0 < r2 then atan2 Y X else 0
  (polar r2).map fun d =>
  let X := Real.sin d * Real.cos e
  let Y := Real.sin d * Real.sin e
  let Z := Real.cos d
  let pZ := 1 + Z
  let fac := 1 / Real.sqrt (2 * pZ)
  ⟨fac * (ct2 * (X * bw - Y * aw + pZ * tw) + st2 * (X * aw + Y * bw + pZ * cw)),
   fac * (ct2 * (X * cw + Y * tw + pZ * aw) + st2 * (-X * tw + Y * cw - pZ * bw)),
   fac * (ct2 * (-X * tw + Y * cw + pZ * bw) + st2 * (-X * cw - Y * tw + pZ * aw)),
   fac * (ct2 * (-X * aw - Y * bw + pZ * cw) + st2 * (X * bw - Y * aw - pZ * tw))⟩

/-- What the functions below are called with: CIP coordinates of the model, CIO locator s, TIO locator s' and Earth rotation angle at the epoch
(radians), and the Earth orientation parameters dX, dY, xp, yp (arcseconds), lod (seconds). -/
structure Args where
  X : ℝ
  Y : ℝ
  s : ℝ
  sp : ℝ
  era : ℝ
  dX : ℝ
  dY : ℝ
  xp : ℝ
  yp : ℝ
  lod : ℝ

/-- Corrected CIP coordinates (c2i06a.cpp:18-19). -/
noncomputable def Args.Xc (a : Args) : ℝ := a.X + sec2rad a.dX
noncomputable def Args.Yc (a : Args) : ℝ := a.Y + sec2rad a.dY

/-- `c2i06a` (c2i06a.cpp:4-29). -/
noncomputable def c2i06a (a : Args) : Option Quat :=
  (spherical a.Xc a.Yc).map fun (d, e) => c2i a.era a.s a.sp d e (sec2rad a.xp) (sec2rad a.yp)

/-- `c2i06a` with the derivative: rotation and dM/dt (c2i06a.cpp:31-64). -/
noncomputable def c2i06aD (a : Args) : Option (Quat × M3) :=
  (C a.Xc a.Yc a.s).bind fun q => (spherical a.Xc a.Yc).map fun (d, e) =>
    (c2i a.era a.s a.sp d e (sec2rad a.xp) (sec2rad a.yp), (tirs2i (sec2rad a.xp) (sec2rad a.yp) a.sp).mat * dRdt a.era (rate a.lod) * q.mat)

/-- `c2i06a_bz` (c2i06abz.cpp:49-72). -/
noncomputable def c2i06aBz (a : Args) : Option Quat := bz a.era a.s a.sp a.Xc a.Yc (sec2rad a.xp) (sec2rad a.yp)

/-- `c2i06a` with two quaternions: GCRS to TIRS, TIRS to ITRS, rotation vector (c2i06apq.cpp:4-33). -/
noncomputable def c2i06aPQ (a : Args) : Option (Quat × Quat × V3) :=
  (spherical a.Xc a.Yc).map fun (d, e) => (c2tirs a.era a.s d e, tirs2i (sec2rad a.xp) (sec2rad a.yp) a.sp, axis a.lod)

end Verif.EarthRot
