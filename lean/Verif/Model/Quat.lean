import Verif.Model.Mat3
import Mathlib.Analysis.SpecialFunctions.Trigonometric.Basic
/-
Quaternions: the part of Eigen that the library uses (`Quaterniond`, `AngleAxisd` about a coordinate axis). Components are exact reals.
-/
namespace Verif

/-- `Eigen::Quaterniond`, components w, x, y, z. -/
@[ext] structure Quat where
  w : ℝ
  x : ℝ
  y : ℝ
  z : ℝ

namespace Quat

/-- `operator*` of two quaternions (Eigen/src/Geometry/Quaternion.h, `quat_product`). -/
noncomputable instance : Mul Quat := ⟨fun a b =>
  ⟨a.w * b.w - a.x * b.x - a.y * b.y - a.z * b.z,
   a.w * b.x + a.x * b.w + a.y * b.z - a.z * b.y,
   a.w * b.y + a.y * b.w + a.z * b.x - a.x * b.z,
   a.w * b.z + a.z * b.w + a.x * b.y - a.y * b.x⟩⟩

/-- `conjugate`. -/
noncomputable def conj (q : Quat) : Quat := ⟨q.w, -q.x, -q.y, -q.z⟩

/-- `squaredNorm`. -/
noncomputable def sqNorm (q : Quat) : ℝ := q.w * q.w + q.x * q.x + q.y * q.y + q.z * q.z

/-- `toRotationMatrix` (Eigen/src/Geometry/Quaternion.h). -/
noncomputable def mat (q : Quat) : M3 :=
  ⟨1 - (2 * q.y * q.y + 2 * q.z * q.z), 2 * q.y * q.x - 2 * q.z * q.w, 2 * q.z * q.x + 2 * q.y * q.w,
   2 * q.y * q.x + 2 * q.z * q.w, 1 - (2 * q.x * q.x + 2 * q.z * q.z), 2 * q.z * q.y - 2 * q.x * q.w,
   2 * q.z * q.x - 2 * q.y * q.w, 2 * q.z * q.y + 2 * q.x * q.w, 1 - (2 * q.x * q.x + 2 * q.y * q.y)⟩

/-- `AngleAxisd(t, Vector3d::UnitX())` as a quaternion; likewise y and z. -/
noncomputable def aaX (t : ℝ) : Quat := ⟨Real.cos (t / 2), Real.sin (t / 2), 0, 0⟩
noncomputable def aaY (t : ℝ) : Quat := ⟨Real.cos (t / 2), 0, Real.sin (t / 2), 0⟩
noncomputable def aaZ (t : ℝ) : Quat := ⟨Real.cos (t / 2), 0, 0, Real.sin (t / 2)⟩

theorem mul_def (a b : Quat) : a * b =
  ⟨a.w * b.w - a.x * b.x - a.y * b.y - a.z * b.z,
   a.w * b.x + a.x * b.w + a.y * b.z - a.z * b.y,
   a.w * b.y + a.y * b.w + a.z * b.x - a.x * b.z,
   a.w * b.z + a.z * b.w + a.x * b.y - a.y * b.x⟩ := rfl

end Quat
end Verif
