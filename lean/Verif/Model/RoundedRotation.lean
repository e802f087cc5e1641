import Verif.Model.RoundedGcrs
/-
The other forms of the rotation from GCRS to ITRS in floating-point arithmetic: the closed form `c2i06a_bz`, the two quaternions and the axis of
`c2i06a(tt, eops, qc2tirs, qtirs2i)`, the derivative of `c2i06a(tt, eops, dMdt)`. As in `Model/RoundedGcrs` the rounding `fl` follows every operation,
products fused with a sum excepted, and the functions of the C library are parameters. From Eigen: products of quaternions and of matrices are parameters,
since their sums are formed in another order where vector instructions are used; the matrix of a quaternion is Eigen's `toRotationMatrix`; a product
of a quaternion and a matrix is the product of its matrix and the matrix.
-/
namespace Verif.RoundedGcrs
open Verif Verif.Rounded Verif.RoundedCip

section
variable (fl : Arith) (fsin fcos fatan s2r : ℝ → ℝ) (fatan2 : ℝ → ℝ → ℝ) (qmul : Quat → Quat → Quat) (mmul : M3 → M3 → M3)

/-- Sum or difference. -/
def pm (plus : Bool) (a b : ℝ) : ℝ := if plus then a + b else a - b

/-- Three products, added or subtracted from left to right (c2i06abz.cpp:36-43). -/
noncomputable def row (k : ℕ) (σ τ : Bool) (a b c : ℝ) : ℝ := fl (pm τ (fl (pm σ (fl.pr k a) (fl.pr (k + 1) b))) (fl.pr (k + 2) c))

/-- `fac * (ct2 * p + st2 * q)` (c2i06abz.cpp:36-43). -/
noncomputable def entry (k : ℕ) (fac ct2 st2 p q : ℝ) : ℝ := fl (fac * fl (fl.pr k (ct2 * p) + fl.pr (k + 1) (st2 * q)))

/-- `detail::gcrs2itrs_quaternion` (c2i06abz.cpp:5-47). -/
noncomputable def bz (era s sp Xcip Ycip xp yp : ℝ) : Quat :=
  let cxp2 := fcos (fl (xp / 2))
  let sxp2 := fsin (fl (xp / 2))
  let cyp2 := fcos (fl (yp / 2))
  let syp2 := fsin (fl (yp / 2))
  let tw := fl (cxp2 * cyp2)
  let aw := fl (cxp2 * syp2)
  let bw := fl (cyp2 * sxp2)
  let cw := fl (sxp2 * syp2)
  let thetap := fl (fl (era + sp) - s)
  let ct2 := fcos (fl (thetap / 2))
  let st2 := fsin (fl (thetap / 2))
  let de := spherical fl fatan fatan2 Xcip Ycip
  let X := fl (fsin de.1 * fcos de.2)
  let Y := fl (fsin de.1 * fsin de.2)
  let Z := fcos de.1
  let pZ := fl (1 + Z)
  let fac := fl (1 / fl (Real.sqrt (fl (2 * pZ))))
  ⟨entry fl 100 fac ct2 st2 (row fl 0 false true (X * bw) (Y * aw) (pZ * tw)) (row fl 3 true true (X * aw) (Y * bw) (pZ * cw)),
   entry fl 102 fac ct2 st2 (row fl 6 true true (X * cw) (Y * tw) (pZ * aw)) (row fl 9 true false (-X * tw) (Y * cw) (pZ * bw)),
   entry fl 104 fac ct2 st2 (row fl 12 true true (-X * tw) (Y * cw) (pZ * bw)) (row fl 15 false true (-X * cw) (Y * tw) (pZ * aw)),
   entry fl 106 fac ct2 st2 (row fl 18 false true (-X * aw) (Y * bw) (pZ * cw)) (row fl 21 false false (X * bw) (Y * aw) (pZ * tw))⟩

/-- `c2i06a_bz` (c2i06abz.cpp:49-72); arguments as for `c2i06a`. -/
noncomputable def c2i06aBz (t f tu : ℝ) (eops : EarthRot.EopRec) : Res Quat :=
  (xycip06a fl fsin fcos s2r t).bind fun p =>
    let s := s06 fl fsin fcos s2r (fun i => (fargs14 fl s2r t).getD i 0) t p.1 p.2
    .ok (bz fl fsin fcos fatan fatan2 (era00 fl f tu) s (sp00 fl s2r t) (fl (p.1 + s2r eops.dX)) (fl (p.2 + s2r eops.dY)) (s2r eops.xp) (s2r eops.yp))

/-- `detail::c2tirs` (earth_rotation.hpp:335-340). -/
noncomputable def c2tirs (era s d e : ℝ) : Quat :=
  qmul (qmul (aaZ fl fsin fcos (fl (fl (-era + e) + s))) (aaY fl fsin fcos (-d))) (aaZ fl fsin fcos (-e))

/-- `detail::tirs2i` (earth_rotation.hpp:355-359). -/
noncomputable def tirs2i (xp yp sp : ℝ) : Quat := qmul (qmul (aaX fl fsin fcos yp) (aaY fl fsin fcos xp)) (aaZ fl fsin fcos (-sp))

/-- `earth_rotation_rate` (earth_rotation.hpp:368-370). -/
noncomputable def rate (lod : ℝ) : ℝ := fl (fl EarthRot.omegaEarth * fl (1 - fl (lod / 86400)))

/-- `c2i06a` with two quaternions (c2i06apq.cpp:4-33). -/
noncomputable def c2i06aPQ (t f tu : ℝ) (eops : EarthRot.EopRec) : Res (Quat × Quat × V3) :=
  (xycip06a fl fsin fcos s2r t).bind fun p =>
    let s := s06 fl fsin fcos s2r (fun i => (fargs14 fl s2r t).getD i 0) t p.1 p.2
    let de := spherical fl fatan fatan2 (fl (p.1 + s2r eops.dX)) (fl (p.2 + s2r eops.dY))
    .ok (c2tirs fl fsin fcos qmul (era00 fl f tu) s de.1 de.2, tirs2i fl fsin fcos qmul (s2r eops.xp) (s2r eops.yp) (sp00 fl s2r t),
      ⟨0, 0, rate fl eops.lod⟩)

/-- `detail::C` (earth_rotation.hpp:136-143). -/
noncomputable def celestialQ (X Y s : ℝ) : Quat :=
  let de := spherical fl fatan fatan2 X Y
  qmul (qmul (aaZ fl fsin fcos (fl (de.2 + s))) (aaY fl fsin fcos (-de.1))) (aaZ fl fsin fcos (-de.2))

/-- `Quaterniond::toRotationMatrix` of Eigen. -/
noncomputable def toMat (q : Quat) : M3 :=
  let tx := fl (2 * q.x)
  let ty := fl (2 * q.y)
  let tz := fl (2 * q.z)
  let twx := fl (tx * q.w)
  let twy := fl (ty * q.w)
  let twz := fl (tz * q.w)
  let txx := fl (tx * q.x)
  let txy := fl (ty * q.x)
  let txz := fl (tz * q.x)
  let tyy := fl (ty * q.y)
  let tyz := fl (tz * q.y)
  let tzz := fl (tz * q.z)
  ⟨fl (1 - fl (tyy + tzz)), fl (txy - twz), fl (txz + twy), fl (txy + twz), fl (1 - fl (txx + tzz)), fl (tyz - twx), fl (txz - twy), fl (tyz + twx),
   fl (1 - fl (txx + tyy))⟩

/-- `detail::dRdt` (earth_rotation.hpp:231-240). -/
noncomputable def dRdt (era omega : ℝ) : M3 :=
  let os := fl (omega * fsin era)
  let oc := fl (omega * fcos era)
  ⟨-os, oc, 0, -oc, -os, 0, 0, 0, 0⟩

/-- `c2i06a` with the derivative: rotation and dM/dt (c2i06a.cpp:31-64). -/
noncomputable def c2i06aD (t f tu : ℝ) (eops : EarthRot.EopRec) : Res (Quat × M3) :=
  (xycip06a fl fsin fcos s2r t).bind fun p =>
    let s := s06 fl fsin fcos s2r (fun i => (fargs14 fl s2r t).getD i 0) t p.1 p.2
    let X := fl (p.1 + s2r eops.dX)
    let Y := fl (p.2 + s2r eops.dY)
    let de := spherical fl fatan fatan2 X Y
    .ok (c2i fl fsin fcos qmul (era00 fl f tu) s (sp00 fl s2r t) de.1 de.2 (s2r eops.xp) (s2r eops.yp),
      mmul (mmul (toMat fl (tirs2i fl fsin fcos qmul (s2r eops.xp) (s2r eops.yp) (sp00 fl s2r t))) (dRdt fl fsin fcos (era00 fl f tu) (rate fl eops.lod)))
        (toMat fl (celestialQ fl fsin fcos fatan fatan2 qmul X Y s)))

end

/-- The product of two matrices with the sums from left to right, no vector instructions. -/
noncomputable def matProduct (fl : Arith) (a b : M3) : M3 :=
  let s (k : ℕ) (x y z : ℝ) := fl (fl (fl.pr k x + fl.pr (k + 1) y) + fl.pr (k + 2) z)
  ⟨s 0 (a.xx * b.xx) (a.xy * b.yx) (a.xz * b.zx), s 3 (a.xx * b.xy) (a.xy * b.yy) (a.xz * b.zy), s 6 (a.xx * b.xz) (a.xy * b.yz) (a.xz * b.zz),
   s 9 (a.yx * b.xx) (a.yy * b.yx) (a.yz * b.zx), s 12 (a.yx * b.xy) (a.yy * b.yy) (a.yz * b.zy), s 15 (a.yx * b.xz) (a.yy * b.yz) (a.yz * b.zz),
   s 18 (a.zx * b.xx) (a.zy * b.yx) (a.zz * b.zx), s 21 (a.zx * b.xy) (a.zy * b.yy) (a.zz * b.zy), s 24 (a.zx * b.xz) (a.zy * b.yz) (a.zz * b.zz)⟩

end Verif.RoundedGcrs
