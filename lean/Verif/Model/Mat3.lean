import Verif.Model.Vec
/-
3x3 matrices: the part of Eigen that the library uses (`Matrix<double,3,3>`). Components are exact reals.
-/
namespace Verif

/-- `Eigen::Matrix<double,3,3>`. -/
@[ext] structure M3 where
  xx : ℝ
  xy : ℝ
  xz : ℝ
  yx : ℝ
  yy : ℝ
  yz : ℝ
  zx : ℝ
  zy : ℝ
  zz : ℝ

namespace M3

noncomputable instance : Add M3 := ⟨fun a b => ⟨a.xx + b.xx, a.xy + b.xy, a.xz + b.xz, a.yx + b.yx, a.yy + b.yy, a.yz + b.yz, a.zx + b.zx, a.zy + b.zy, a.zz + b.zz⟩⟩
noncomputable instance : HMul ℝ M3 M3 := ⟨fun s a => ⟨s * a.xx, s * a.xy, s * a.xz, s * a.yx, s * a.yy, s * a.yz, s * a.zx, s * a.zy, s * a.zz⟩⟩
instance : Zero M3 := ⟨⟨0, 0, 0, 0, 0, 0, 0, 0, 0⟩⟩
instance : One M3 := ⟨⟨1, 0, 0, 0, 1, 0, 0, 0, 1⟩⟩

/-- Matrix product. -/
noncomputable instance : Mul M3 := ⟨fun a b =>
  ⟨a.xx * b.xx + a.xy * b.yx + a.xz * b.zx, a.xx * b.xy + a.xy * b.yy + a.xz * b.zy, a.xx * b.xz + a.xy * b.yz + a.xz * b.zz,
   a.yx * b.xx + a.yy * b.yx + a.yz * b.zx, a.yx * b.xy + a.yy * b.yy + a.yz * b.zy, a.yx * b.xz + a.yy * b.yz + a.yz * b.zz,
   a.zx * b.xx + a.zy * b.yx + a.zz * b.zx, a.zx * b.xy + a.zy * b.yy + a.zz * b.zy, a.zx * b.xz + a.zy * b.yz + a.zz * b.zz⟩⟩

/-- Matrix times vector. -/
noncomputable instance : HMul M3 V3 V3 := ⟨fun a v =>
  ⟨a.xx * v.x + a.xy * v.y + a.xz * v.z, a.yx * v.x + a.yy * v.y + a.yz * v.z, a.zx * v.x + a.zy * v.y + a.zz * v.z⟩⟩

/-- `transpose`. -/
def transpose (a : M3) : M3 := ⟨a.xx, a.yx, a.zx, a.xy, a.yy, a.zy, a.xz, a.yz, a.zz⟩

/-- `trace`. -/
noncomputable def trace (a : M3) : ℝ := a.xx + a.yy + a.zz

/-- `determinant`. -/
noncomputable def det (a : M3) : ℝ :=
  a.xx * (a.yy * a.zz - a.yz * a.zy) - a.xy * (a.yx * a.zz - a.yz * a.zx) + a.xz * (a.yx * a.zy - a.yy * a.zx)

theorem add_def (a b : M3) : a + b = ⟨a.xx + b.xx, a.xy + b.xy, a.xz + b.xz, a.yx + b.yx, a.yy + b.yy, a.yz + b.yz, a.zx + b.zx, a.zy + b.zy, a.zz + b.zz⟩ := rfl
theorem smul_def (s : ℝ) (a : M3) : s * a = (⟨s * a.xx, s * a.xy, s * a.xz, s * a.yx, s * a.yy, s * a.yz, s * a.zx, s * a.zy, s * a.zz⟩ : M3) := rfl
theorem zero_def : (0 : M3) = ⟨0, 0, 0, 0, 0, 0, 0, 0, 0⟩ := rfl
theorem one_def : (1 : M3) = ⟨1, 0, 0, 0, 1, 0, 0, 0, 1⟩ := rfl
theorem mul_def (a b : M3) : a * b =
  ⟨a.xx * b.xx + a.xy * b.yx + a.xz * b.zx, a.xx * b.xy + a.xy * b.yy + a.xz * b.zy, a.xx * b.xz + a.xy * b.yz + a.xz * b.zz,
   a.yx * b.xx + a.yy * b.yx + a.yz * b.zx, a.yx * b.xy + a.yy * b.yy + a.yz * b.zy, a.yx * b.xz + a.yy * b.yz + a.yz * b.zz,
   a.zx * b.xx + a.zy * b.yx + a.zz * b.zx, a.zx * b.xy + a.zy * b.yy + a.zz * b.zy, a.zx * b.xz + a.zy * b.yz + a.zz * b.zz⟩ := rfl
theorem mulVec_def (a : M3) (v : V3) : a * v =
  (⟨a.xx * v.x + a.xy * v.y + a.xz * v.z, a.yx * v.x + a.yy * v.y + a.yz * v.z, a.zx * v.x + a.zy * v.y + a.zz * v.z⟩ : V3) := rfl

end M3
end Verif
