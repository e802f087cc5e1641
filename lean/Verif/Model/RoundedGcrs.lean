import Verif.Model.RoundedCip
import Verif.Model.Cio
import Verif.Model.Gcrs
/-
The rotation from GCRS to ITRS in floating-point arithmetic: `s06`, `sp00`, `detail::xycip2spherical`, `detail::c2i` and `c2i06a` as in
`Model/Cio`, `Model/Iau`, `Model/EarthRot` and `Model/Gcrs`, with the rounding `fl` after every operation and every literal, products fused with a sum excepted (`Model/Arith`). `fsin`, `fcos`,
`fatan`, `fatan2` are the functions of the C library; `std::sqrt` rounds the exact root. From the library Eigen: `AngleAxisd` becomes a
quaternion by sine and cosine of half the angle, and the product of two quaternions is a parameter, since its sums are formed in another order
where vector instructions are used.
-/
namespace Verif.RoundedGcrs
open Verif Verif.Cip Verif.Rounded Verif.RoundedCip

section
variable (fl : Arith) (fsin fcos fatan s2r : ℝ → ℝ) (fatan2 : ℝ → ℝ → ℝ) (qmul : Quat → Quat → Quat)

/-- `CioSeriesData::arg` (s06.cpp:28-37): five products, then nine more if there is a planetary multiplier. -/
noncomputable def rowArg (s : Row) (fargs : ℕ → ℝ) : ℝ := if s.hasPlanetary then dot fl 13 s.f fargs else dot fl 4 s.f fargs

/-- Body of the loops of `detail::s06` (s06.cpp:279-286 and the four that follow). -/
noncomputable def plainSum (fargs : ℕ → ℝ) (rows : List Row) : ℝ :=
  rows.foldl (fun c s =>
    let arg := rowArg fl s fargs
    let ca := fcos arg
    let sa := fsin arg
    fl (c + fl (fl.pr 0 (lit fl (s.acj / 100) * ca) + fl.pr 1 (lit fl (s.asj / 100) * sa)))) 0

/-- `detail::s06` (s06.cpp:274-348). The factors of the products with `t` are the other way round in the source. -/
noncomputable def s06 (fargs : ℕ → ℝ) (t x y : ℝ) : ℝ :=
  let c4 := plainSum fl fsin fcos fargs c4Series
  let c3 := plainSum fl fsin fcos fargs c3Series
  let c2 := plainSum fl fsin fcos fargs c2Series
  let c1 := plainSum fl fsin fcos fargs c1Series
  let c0 := plainSum fl fsin fcos fargs c0Series
  let cpoly := horner fl t [94, 3808.65, -122.68, -72574.11, 27.98, 15.62]
  let cseries := fl (c0 + fl.pr 0 (t * fl (c1 + fl.pr 1 (t * fl (c2 + fl.pr 2 (t * fl (c3 + fl.pr 3 (t * c4))))))))
  fl (s2r (fl (fl (cseries + cpoly) * lit fl 1e-6)) - fl (fl (x * y) / 2))

/-- `sp00` (iau.hpp:72-77). -/
noncomputable def sp00 (t : ℝ) : ℝ := s2r (fl (lit fl (-47e-6) * t))

/-- `detail::xycip2spherical`: the angles (d, e) (earth_rotation.hpp:95-106); `r2` less than 1 is assumed. -/
noncomputable def spherical (X Y : ℝ) : ℝ × ℝ :=
  let r2 := fl (fl.pr 0 (X * X) + fl.pr 1 (Y * Y))
  let e := if 0 < r2 then fatan2 Y X else 0
  (fatan (fl (Real.sqrt (fl (r2 / fl (1 - r2))))), e)

/-- `AngleAxisd(t, Vector3d::UnitX())` as a quaternion; likewise y and z. -/
noncomputable def aaX (t : ℝ) : Quat := ⟨fcos (fl (t / 2)), fsin (fl (t / 2)), 0, 0⟩
noncomputable def aaY (t : ℝ) : Quat := ⟨fcos (fl (t / 2)), 0, fsin (fl (t / 2)), 0⟩
noncomputable def aaZ (t : ℝ) : Quat := ⟨fcos (fl (t / 2)), 0, 0, fsin (fl (t / 2))⟩

/-- `detail::c2i` (earth_rotation.hpp:302-308). -/
noncomputable def c2i (era s sp d e xp yp : ℝ) : Quat :=
  qmul (qmul (qmul (qmul (aaX fl fsin fcos yp) (aaY fl fsin fcos xp)) (aaZ fl fsin fcos (fl (fl (fl (-sp - era) + e) + s))))
    (aaY fl fsin fcos (-d))) (aaZ fl fsin fcos (-e))

/-- `c2i06a` (c2i06a.cpp:4-29); `t` is `tt.jcenturies_sinceJ2000()`, `f` and `tu` fraction of day and days since J2000 of the UT1 epoch. -/
noncomputable def c2i06a (t f tu : ℝ) (eops : EarthRot.EopRec) : Res Quat :=
  (xycip06a fl fsin fcos s2r t).bind fun p =>
    let s := s06 fl fsin fcos s2r (fun i => (fargs14 fl s2r t).getD i 0) t p.1 p.2
    let X := fl (p.1 + s2r eops.dX)
    let Y := fl (p.2 + s2r eops.dY)
    let de := spherical fl fatan fatan2 X Y
    .ok (c2i fl fsin fcos qmul (era00 fl f tu) s (sp00 fl s2r t) de.1 de.2 (s2r eops.xp) (s2r eops.yp))

end

/-- The product of two quaternions as Eigen computes it without vector instructions (Eigen/src/Geometry/Quaternion.h, `quat_product`). -/
noncomputable def product (fl : Arith) (a b : Quat) : Quat :=
  ⟨fl (fl (fl (fl.pr 0 (a.w * b.w) - fl.pr 1 (a.x * b.x)) - fl.pr 2 (a.y * b.y)) - fl.pr 3 (a.z * b.z)),
   fl (fl (fl (fl.pr 4 (a.w * b.x) + fl.pr 5 (a.x * b.w)) + fl.pr 6 (a.y * b.z)) - fl.pr 7 (a.z * b.y)),
   fl (fl (fl (fl.pr 8 (a.w * b.y) + fl.pr 9 (a.y * b.w)) + fl.pr 10 (a.z * b.x)) - fl.pr 11 (a.x * b.z)),
   fl (fl (fl (fl.pr 12 (a.w * b.z) + fl.pr 13 (a.z * b.w)) + fl.pr 14 (a.x * b.y)) - fl.pr 15 (a.y * b.x))⟩

end Verif.RoundedGcrs
