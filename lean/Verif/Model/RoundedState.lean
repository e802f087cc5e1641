import Verif.Model.RoundedRotation
/-
The documented use of the rotation and its derivative (earth_rotation.hpp:50-58): position and velocity from GCRS to ITRS and back, in floating-point
arithmetic. `rot` is Eigen's product of a quaternion and a vector, `mv` its product of a matrix and a vector: parameters, with the ones that are computed
without vector instructions below.
-/
namespace Verif.RoundedState
open Verif Verif.Rounded

/-- The sum of two vectors. -/
noncomputable def add (fl : Arith) (a b : V3) : V3 := ⟨fl (a.x + b.x), fl (a.y + b.y), fl (a.z + b.z)⟩

section
variable (fl : Arith) (rot : Quat → V3 → V3) (mv : M3 → V3 → V3)

/-- `q_c2i * r`, `q_c2i * v + dMdt * r` (earth_rotation.hpp:26, 54). -/
noncomputable def toTerrestrial (q : Quat) (dM : M3) (r v : V3) : V3 × V3 := (rot q r, add fl (rot q v) (mv dM r))

/-- `q_c2i.conjugate() * r1`, `q_c2i.conjugate() * v1 + dMdt.transpose() * r1` (earth_rotation.hpp:56). -/
noncomputable def toCelestial (q : Quat) (dM : M3) (r v : V3) : V3 × V3 := (rot q.conj r, add fl (rot q.conj v) (mv dM.transpose r))

end

/-- `Vector3d::cross` of Eigen; the first product of each difference is number `k`, `k + 2`, `k + 4`. -/
noncomputable def cross (fl : Arith) (k : ℕ) (a b : V3) : V3 :=
  ⟨fl (fl.pr k (a.y * b.z) - fl.pr (k + 1) (a.z * b.y)), fl (fl.pr (k + 2) (a.z * b.x) - fl.pr (k + 3) (a.x * b.z)),
   fl (fl.pr (k + 4) (a.x * b.y) - fl.pr (k + 5) (a.y * b.x))⟩

/-- The difference of two vectors. -/
noncomputable def sub (fl : Arith) (a b : V3) : V3 := ⟨fl (a.x - b.x), fl (a.y - b.y), fl (a.z - b.z)⟩

section
variable (fl : Arith) (rot : Quat → V3 → V3)

/-- With the two quaternions and the rotation vector of the other form of `c2i06a`: `q_tirs2i * (q_c2tirs * r)`,
`q_tirs2i * (q_c2tirs * v - omega.cross(q_c2tirs * r))` (test/unit_tests/c2i_vel.cpp:8485-8489). -/
noncomputable def toTerrestrial2 (q p : Quat) (om r v : V3) : V3 × V3 :=
  (rot p (rot q r), rot p (sub fl (rot q v) (cross fl 0 om (rot q r))))

/-- `q_c2tirs.conjugate() * (q_tirs2i.conjugate() * r)`,
`q_c2tirs.conjugate() * (q_tirs2i.conjugate() * v + omega.cross(q_tirs2i.conjugate() * r))` (test/unit_tests/c2i_vel.cpp:8499-8501,
test/unit_tests/i2c_astropy.cpp:176-181). -/
noncomputable def toCelestial2 (q p : Quat) (om r v : V3) : V3 × V3 :=
  (rot q.conj (rot p.conj r), rot q.conj (add fl (rot p.conj v) (cross fl 0 om (rot p.conj r))))

end

/-- `QuaternionBase::_transformVector` of Eigen: uv = vec × v; uv += uv; v + w uv + vec × uv. -/
noncomputable def transformVector (fl : Arith) (q : Quat) (v : V3) : V3 :=
  let uv := cross fl 0 ⟨q.x, q.y, q.z⟩ v
  let uv := add fl uv uv
  add fl (add fl v ⟨fl.pr 6 (q.w * uv.x), fl.pr 7 (q.w * uv.y), fl.pr 8 (q.w * uv.z)⟩) (cross fl 9 ⟨q.x, q.y, q.z⟩ uv)

/-- The product of a matrix and a vector with the sums from left to right. -/
noncomputable def mulVec (fl : Arith) (a : M3) (v : V3) : V3 :=
  let s (k : ℕ) (x y z : ℝ) := fl (fl (fl.pr k x + fl.pr (k + 1) y) + fl.pr (k + 2) z)
  ⟨s 0 (a.xx * v.x) (a.xy * v.y) (a.xz * v.z), s 3 (a.yx * v.x) (a.yy * v.y) (a.yz * v.z), s 6 (a.zx * v.x) (a.zy * v.y) (a.zz * v.z)⟩

end Verif.RoundedState
