import Verif.Model.Rounded
import Verif.Model.PointMass
/-
Acceleration due to a point mass in floating-point arithmetic (src/lib/gravity/point_mass_acceleration.cpp): as in `Model/PointMass`, with the
rounding `fl` after every operation. `sq` is `squaredNorm()` of Eigen, which forms the sum of three squares in an order of its own. `const auto s`
is an expression: its differences are formed again at every use, with the same result.
-/
namespace Verif.RoundedPoint
open Verif

section
variable (fl : ℝ → ℝ) (sq : V3 → ℝ)

/-- `r - rcb`, a component at a time. -/
noncomputable def diff (a b : V3) : V3 := ⟨fl (a.x - b.x), fl (a.y - b.y), fl (a.z - b.z)⟩

/-- `v.squaredNorm() * v.norm()` (point_mass_acceleration.cpp:8, 10, 21, 23); `norm()` is the root of `squaredNorm()`. -/
noncomputable def cube (v : V3) : ℝ := fl (sq v * fl (Real.sqrt (sq v)))

/-- A component of `(s / S3 + rcb / Rcb3) * (-GMcb)` (point_mass_acceleration.cpp:12, 31). -/
noncomputable def comp (s S3 b R3 GM : ℝ) : ℝ := fl (fl (fl (s / S3) + fl (b / R3)) * -GM)

/-- `point_mass_acceleration` without Jacobian (point_mass_acceleration.cpp:3-13). -/
noncomputable def acc (r rcb : V3) (GM : ℝ) : V3 :=
  let Rcb3 := cube fl sq rcb
  let s := diff fl r rcb
  let S3 := cube fl sq s
  ⟨comp fl s.x S3 rcb.x Rcb3 GM, comp fl s.y S3 rcb.y Rcb3 GM, comp fl s.z S3 rcb.z Rcb3 GM⟩

/-- An entry of `(-GMcb) * (Identity() / S3 - 3e0 * s * s.transpose() / S5)` (point_mass_acceleration.cpp:27-28): `one` is the entry of the
identity, `a` and `b` are components of `s`. -/
noncomputable def entry (one a b S3 S5 GM : ℝ) : ℝ := fl (-GM * fl (fl (one / S3) - fl (fl (fl (3 * a) * b) / S5)))

/-- `point_mass_acceleration` with Jacobian: acceleration and J (point_mass_acceleration.cpp:15-32). -/
noncomputable def accJ (r rcb : V3) (GM : ℝ) : V3 × M3 :=
  let Rcb3 := cube fl sq rcb
  let s := diff fl r rcb
  let S3 := cube fl sq s
  let S5 := fl (S3 * sq s)
  (⟨comp fl s.x S3 rcb.x Rcb3 GM, comp fl s.y S3 rcb.y Rcb3 GM, comp fl s.z S3 rcb.z Rcb3 GM⟩,
   ⟨entry fl 1 s.x s.x S3 S5 GM, entry fl 0 s.x s.y S3 S5 GM, entry fl 0 s.x s.z S3 S5 GM,
    entry fl 0 s.y s.x S3 S5 GM, entry fl 1 s.y s.y S3 S5 GM, entry fl 0 s.y s.z S3 S5 GM,
    entry fl 0 s.z s.x S3 S5 GM, entry fl 0 s.z s.y S3 S5 GM, entry fl 1 s.z s.z S3 S5 GM⟩)

end

/-- The sum of squares as Eigen forms it for three components without vector instructions (Eigen/src/Core/Redux.h: half of the terms, then the
other half). -/
noncomputable def squares (fl : Rounded.Arith) (v : V3) : ℝ :=
  fl (fl.pr 0 (v.x * v.x) + fl (fl.pr 1 (v.y * v.y) + fl.pr 2 (v.z * v.z)))

end Verif.RoundedPoint
