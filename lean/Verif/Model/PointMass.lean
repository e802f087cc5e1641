import Verif.Model.Mat3
/-
Acceleration due to a point mass, in a frame that falls with the Earth (src/lib/gravity/point_mass_acceleration.cpp). Arithmetic is exact.
-/
namespace Verif.PointMass
open Verif

/-- `point_mass_acceleration` without Jacobian (point_mass_acceleration.cpp:3-13). -/
noncomputable def acc (r rcb : V3) (GM : ℝ) : V3 :=
  let Rcb3 := rcb.dot rcb * rcb.norm
  let s := r - rcb
  let S3 := s.dot s * s.norm
  (-GM) * (S3⁻¹ * s + Rcb3⁻¹ * rcb)

/-- `s * s.transpose()`. -/
noncomputable def outer (s : V3) : M3 := ⟨s.x * s.x, s.x * s.y, s.x * s.z, s.y * s.x, s.y * s.y, s.y * s.z, s.z * s.x, s.z * s.y, s.z * s.z⟩

/-- `point_mass_acceleration` with Jacobian: acceleration and J (point_mass_acceleration.cpp:15-32). -/
noncomputable def accJ (r rcb : V3) (GM : ℝ) : V3 × M3 :=
  let Rcb3 := rcb.dot rcb * rcb.norm
  let s := r - rcb
  let S3 := s.dot s * s.norm
  let S5 := S3 * s.dot s
  ((-GM) * (S3⁻¹ * s + Rcb3⁻¹ * rcb), (-GM) * (S3⁻¹ * (1 : M3) + (-(3 * S5⁻¹)) * outer s))

end Verif.PointMass
