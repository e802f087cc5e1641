import Mathlib.Analysis.Real.Sqrt
/-
Three-dimensional vectors: the part of Eigen that the library uses (`Matrix<double,3,1>`: `+`, `-`,
scaling, `dot`, `cross`, `norm`). Components are exact reals.
-/
namespace Verif

/-- `Eigen::Matrix<double,3,1>`. -/
@[ext] structure V3 where
  x : ℝ
  y : ℝ
  z : ℝ

namespace V3

noncomputable instance : Add V3 := ⟨fun a b => ⟨a.x + b.x, a.y + b.y, a.z + b.z⟩⟩
noncomputable instance : Sub V3 := ⟨fun a b => ⟨a.x - b.x, a.y - b.y, a.z - b.z⟩⟩
noncomputable instance : Neg V3 := ⟨fun a => ⟨-a.x, -a.y, -a.z⟩⟩
noncomputable instance : HMul ℝ V3 V3 := ⟨fun s a => ⟨s * a.x, s * a.y, s * a.z⟩⟩
instance : Zero V3 := ⟨⟨0, 0, 0⟩⟩

/-- `dot`. -/
noncomputable def dot (a b : V3) : ℝ := a.x * b.x + a.y * b.y + a.z * b.z

/-- `cross`. -/
noncomputable def cross (a b : V3) : V3 :=
  ⟨a.y * b.z - a.z * b.y, a.z * b.x - a.x * b.z, a.x * b.y - a.y * b.x⟩

/-- `norm`. -/
noncomputable def norm (a : V3) : ℝ := Real.sqrt (a.dot a)

@[simp] theorem add_x (a b : V3) : (a + b).x = a.x + b.x := rfl
@[simp] theorem add_y (a b : V3) : (a + b).y = a.y + b.y := rfl
@[simp] theorem add_z (a b : V3) : (a + b).z = a.z + b.z := rfl
@[simp] theorem sub_x (a b : V3) : (a - b).x = a.x - b.x := rfl
@[simp] theorem sub_y (a b : V3) : (a - b).y = a.y - b.y := rfl
@[simp] theorem sub_z (a b : V3) : (a - b).z = a.z - b.z := rfl
@[simp] theorem neg_x (a : V3) : (-a).x = -a.x := rfl
@[simp] theorem neg_y (a : V3) : (-a).y = -a.y := rfl
@[simp] theorem neg_z (a : V3) : (-a).z = -a.z := rfl
@[simp] theorem smul_x (s : ℝ) (a : V3) : (s * a).x = s * a.x := rfl
@[simp] theorem smul_y (s : ℝ) (a : V3) : (s * a).y = s * a.y := rfl
@[simp] theorem smul_z (s : ℝ) (a : V3) : (s * a).z = s * a.z := rfl
@[simp] theorem zero_x : (0 : V3).x = 0 := rfl
@[simp] theorem zero_y : (0 : V3).y = 0 := rfl
@[simp] theorem zero_z : (0 : V3).z = 0 := rfl

end V3
end Verif
