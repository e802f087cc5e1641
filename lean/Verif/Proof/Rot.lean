import Verif.Model.EarthRot
import Verif.Spec.EarthRot
import Mathlib.Tactic.LinearCombination
import Mathlib.Tactic.FieldSimp
import Mathlib.Tactic.Positivity
/-
Rotation matrices and quaternions.
-/
namespace Verif

namespace M3

theorem mul_assoc (a b c : M3) : a * b * c = a * (b * c) := by
  simp only [mul_def]
  ext <;> simp only <;> ring

theorem one_mul (a : M3) : 1 * a = a := by
  simp only [mul_def, one_def]
  ext <;> simp only <;> ring

theorem mul_one (a : M3) : a * 1 = a := by
  simp only [mul_def, one_def]
  ext <;> simp only <;> ring

theorem mulVec_mul (a b : M3) (v : V3) : a * b * v = a * (b * v) := by
  simp only [mul_def, mulVec_def]
  ext <;> simp only <;> ring

theorem one_mulVec (v : V3) : (1 : M3) * v = v := by
  simp only [one_def, mulVec_def]
  ext <;> simp only <;> ring

theorem transpose_mul (a b : M3) : (a * b).transpose = b.transpose * a.transpose := by
  simp only [transpose, mul_def]
  ext <;> simp only <;> ring

theorem det_mul (a b : M3) : (a * b).det = a.det * b.det := by
  simp only [det, mul_def]
  ring

theorem transpose_transpose (a : M3) : a.transpose.transpose = a := rfl

end M3

namespace Quat

/-- The rotation matrix, homogeneous form. -/
noncomputable def hom (q : Quat) : M3 :=
  ⟨q.w * q.w + q.x * q.x - q.y * q.y - q.z * q.z, 2 * q.y * q.x - 2 * q.z * q.w, 2 * q.z * q.x + 2 * q.y * q.w,
   2 * q.y * q.x + 2 * q.z * q.w, q.w * q.w - q.x * q.x + q.y * q.y - q.z * q.z, 2 * q.z * q.y - 2 * q.x * q.w,
   2 * q.z * q.x - 2 * q.y * q.w, 2 * q.z * q.y + 2 * q.x * q.w, q.w * q.w - q.x * q.x - q.y * q.y + q.z * q.z⟩

theorem hom_mul (a b : Quat) : (a * b).hom = a.hom * b.hom := by
  unfold hom
  simp only [mul_def, M3.mul_def]
  ext <;> simp only <;> ring

theorem mat_hom {q : Quat} (h : q.sqNorm = 1) : q.mat = q.hom := by
  unfold sqNorm at h
  unfold mat hom
  ext <;> simp only
  · linear_combination (-1 : ℝ) * h
  · linear_combination (-1 : ℝ) * h
  · linear_combination (-1 : ℝ) * h

theorem sqNorm_mul (a b : Quat) : (a * b).sqNorm = a.sqNorm * b.sqNorm := by
  unfold sqNorm
  simp only [mul_def]
  ring

/-- A unit quaternion. -/
def Unit (q : Quat) : Prop := q.sqNorm = 1

theorem Unit.mul {a b : Quat} (ha : Unit a) (hb : Unit b) : Unit (a * b) := by
  unfold Unit at *
  rw [sqNorm_mul, ha, hb, _root_.mul_one]

theorem mat_mul {a b : Quat} (ha : Unit a) (hb : Unit b) : (a * b).mat = a.mat * b.mat := by
  rw [mat_hom (ha.mul hb), mat_hom ha, mat_hom hb, hom_mul]

theorem unit_X (t : ℝ) : Unit (aaX t) := by
  unfold Unit sqNorm aaX
  have := Real.cos_sq_add_sin_sq (t / 2)
  simp only
  linear_combination this

theorem unit_Y (t : ℝ) : Unit (aaY t) := by
  unfold Unit sqNorm aaY
  have := Real.cos_sq_add_sin_sq (t / 2)
  simp only
  linear_combination this

theorem unit_Z (t : ℝ) : Unit (aaZ t) := by
  unfold Unit sqNorm aaZ
  have := Real.cos_sq_add_sin_sq (t / 2)
  simp only
  linear_combination this

end Quat

namespace EarthRot
open Verif Verif.Quat

theorem halves (t : ℝ) : Real.cos t = 1 - 2 * Real.sin (t / 2) * Real.sin (t / 2) ∧ Real.sin t = 2 * Real.sin (t / 2) * Real.cos (t / 2) := by
  have h1 := Real.cos_two_mul (t / 2)
  have h2 := Real.sin_two_mul (t / 2)
  have h3 := Real.cos_sq_add_sin_sq (t / 2)
  rw [show 2 * (t / 2) = t from by ring] at h1 h2
  exact ⟨by linear_combination h1 + 2 * h3, h2⟩

theorem mat_X (t : ℝ) : (aaX t).mat = R1 (-t) := by
  obtain ⟨c, s⟩ := halves t
  unfold mat aaX R1
  rw [Real.cos_neg, Real.sin_neg, c, s]
  ext <;> simp only <;> ring

theorem mat_Y (t : ℝ) : (aaY t).mat = R2 (-t) := by
  obtain ⟨c, s⟩ := halves t
  unfold mat aaY R2
  rw [Real.cos_neg, Real.sin_neg, c, s]
  ext <;> simp only <;> ring

theorem mat_Z (t : ℝ) : (aaZ t).mat = R3 (-t) := by
  obtain ⟨c, s⟩ := halves t
  unfold mat aaZ R3
  rw [Real.cos_neg, Real.sin_neg, c, s]
  ext <;> simp only <;> ring

theorem R1_transpose (t : ℝ) : (R1 t).transpose = R1 (-t) := by
  unfold R1 M3.transpose
  rw [Real.cos_neg, Real.sin_neg, neg_neg]

theorem R2_transpose (t : ℝ) : (R2 t).transpose = R2 (-t) := by
  unfold R2 M3.transpose
  rw [Real.cos_neg, Real.sin_neg, neg_neg]

theorem R3_transpose (t : ℝ) : (R3 t).transpose = R3 (-t) := by
  unfold R3 M3.transpose
  rw [Real.cos_neg, Real.sin_neg, neg_neg]

theorem R3_mul (a b : ℝ) : R3 a * R3 b = R3 (a + b) := by
  unfold R3
  rw [M3.mul_def, Real.cos_add, Real.sin_add]
  ext <;> simp only <;> ring

theorem IsRotation.mul {a b : M3} (ha : IsRotation a) (hb : IsRotation b) : IsRotation (a * b) := by
  obtain ⟨a1, a2, a3⟩ := ha
  obtain ⟨b1, b2, b3⟩ := hb
  refine ⟨?_, ?_, by rw [M3.det_mul, a3, b3, one_mul]⟩
  · rw [M3.transpose_mul, M3.mul_assoc, ← M3.mul_assoc b, b1, M3.one_mul, a1]
  · rw [M3.transpose_mul, M3.mul_assoc, ← M3.mul_assoc _ a, a2, M3.one_mul, b2]

theorem rot_R1 (t : ℝ) : IsRotation (R1 t) := by
  have := Real.cos_sq_add_sin_sq t
  refine ⟨?_, ?_, ?_⟩
  · unfold R1 M3.transpose; rw [M3.mul_def, M3.one_def]; ext <;> simp only <;> first | ring1 | linear_combination this
  · unfold R1 M3.transpose; rw [M3.mul_def, M3.one_def]; ext <;> simp only <;> first | ring1 | linear_combination this
  · unfold R1 M3.det; simp only; linear_combination this

theorem rot_R2 (t : ℝ) : IsRotation (R2 t) := by
  have := Real.cos_sq_add_sin_sq t
  refine ⟨?_, ?_, ?_⟩
  · unfold R2 M3.transpose; rw [M3.mul_def, M3.one_def]; ext <;> simp only <;> first | ring1 | linear_combination this
  · unfold R2 M3.transpose; rw [M3.mul_def, M3.one_def]; ext <;> simp only <;> first | ring1 | linear_combination this
  · unfold R2 M3.det; simp only; linear_combination this

theorem rot_R3 (t : ℝ) : IsRotation (R3 t) := by
  have := Real.cos_sq_add_sin_sq t
  refine ⟨?_, ?_, ?_⟩
  · unfold R3 M3.transpose; rw [M3.mul_def, M3.one_def]; ext <;> simp only <;> first | ring1 | linear_combination this
  · unfold R3 M3.transpose; rw [M3.mul_def, M3.one_def]; ext <;> simp only <;> first | ring1 | linear_combination this
  · unfold R3 M3.det; simp only; linear_combination this

theorem unit_c2i (era s sp d e xp yp : ℝ) : Unit (c2i era s sp d e xp yp) :=
  ((((unit_X _).mul (unit_Y _)).mul (unit_Z _)).mul (unit_Y _)).mul (unit_Z _)

theorem unit_c2tirs (era s d e : ℝ) : Unit (c2tirs era s d e) := ((unit_Z _).mul (unit_Y _)).mul (unit_Z _)

theorem unit_tirs2i (xp yp sp : ℝ) : Unit (tirs2i xp yp sp) := ((unit_X _).mul (unit_Y _)).mul (unit_Z _)

theorem mat_c2i (era s sp d e xp yp : ℝ) : (c2i era s sp d e xp yp).mat = R1 (-yp) * R2 (-xp) * R3 (sp + era - e - s) * R2 d * R3 e := by
  unfold c2i
  rw [mat_mul ((((unit_X _).mul (unit_Y _)).mul (unit_Z _)).mul (unit_Y _)) (unit_Z _), mat_mul (((unit_X _).mul (unit_Y _)).mul (unit_Z _)) (unit_Y _),
    mat_mul ((unit_X _).mul (unit_Y _)) (unit_Z _), mat_mul (unit_X _) (unit_Y _), mat_X, mat_Y, mat_Z, mat_Y, mat_Z, neg_neg, neg_neg]
  congr 4
  ring

theorem mat_c2tirs (era s d e : ℝ) : (c2tirs era s d e).mat = R3 (era - e - s) * R2 d * R3 e := by
  unfold c2tirs
  rw [mat_mul ((unit_Z _).mul (unit_Y _)) (unit_Z _), mat_mul (unit_Z _) (unit_Y _), mat_Z, mat_Y, mat_Z, neg_neg, neg_neg]
  congr 3
  ring

theorem mat_tirs2i (xp yp sp : ℝ) : (tirs2i xp yp sp).mat = R1 (-yp) * R2 (-xp) * R3 sp := by
  unfold tirs2i
  rw [mat_mul ((unit_X _).mul (unit_Y _)) (unit_Z _), mat_mul (unit_X _) (unit_Y _), mat_X, mat_Y, mat_Z, neg_neg]

/-- The sine and cosine of the angle d. -/
theorem polar_spec {r2 d : ℝ} (h0 : 0 ≤ r2) (h : polar r2 = some d) : r2 ≤ 1 ∧ Real.sin d = Real.sqrt r2 ∧ Real.cos d = Real.sqrt (1 - r2) ∧ 0 ≤ d ∧ d ≤ Real.pi / 2 := by
  unfold polar at h
  by_cases h1 : r2 < 1
  · rw [if_pos h1] at h
    cases h
    have hp : 0 < 1 - r2 := by linarith
    have e : 1 + Real.sqrt (r2 / (1 - r2)) ^ 2 = 1 / (1 - r2) := by
      rw [Real.sq_sqrt (div_nonneg h0 hp.le)]
      field_simp
      ring
    have sp : 0 < Real.sqrt (1 - r2) := Real.sqrt_pos.2 hp
    refine ⟨h1.le, ?_, ?_, Real.arctan_nonneg.2 (Real.sqrt_nonneg _), (Real.arctan_lt_pi_div_two _).le⟩
    · rw [Real.sin_arctan, e, Real.sqrt_div h0, Real.sqrt_div zero_le_one, Real.sqrt_one]
      field_simp
    · rw [Real.cos_arctan, e, Real.sqrt_div zero_le_one, Real.sqrt_one]
      field_simp
  · rw [if_neg h1] at h
    by_cases h2 : r2 = 1
    · rw [if_pos h2] at h
      cases h
      subst h2
      refine ⟨le_refl _, ?_, ?_, by positivity, le_refl _⟩
      · rw [Real.sin_pi_div_two, Real.sqrt_one]
      · rw [Real.cos_pi_div_two, sub_self, Real.sqrt_zero]
    · rw [if_neg h2] at h
      cases h

theorem polar_some {r2 : ℝ} (h : r2 ≤ 1) : ∃ d, polar r2 = some d := by
  unfold polar
  by_cases h1 : r2 < 1
  · rw [if_pos h1]; exact ⟨_, rfl⟩
  · rw [if_neg h1, if_pos (le_antisymm h (not_lt.1 h1))]; exact ⟨_, rfl⟩

theorem atan2_spec {X Y : ℝ} (h : 0 < X * X + Y * Y) : Real.sqrt (X * X + Y * Y) * Real.cos (atan2 Y X) = X ∧ Real.sqrt (X * X + Y * Y) * Real.sin (atan2 Y X) = Y := by
  have hz : (⟨X, Y⟩ : ℂ) ≠ 0 := by
    intro k
    have k1 := congrArg Complex.re k
    have k2 := congrArg Complex.im k
    simp only [Complex.zero_re, Complex.zero_im] at k1 k2
    rw [k1, k2] at h
    norm_num at h
  have hn : ‖(⟨X, Y⟩ : ℂ)‖ = Real.sqrt (X * X + Y * Y) := by
    rw [Complex.norm_def, Complex.normSq_mk]
  have hp : 0 < Real.sqrt (X * X + Y * Y) := Real.sqrt_pos.2 h
  unfold atan2
  constructor
  · rw [Complex.cos_arg hz, hn]
    generalize Real.sqrt (X * X + Y * Y) = ρ at hp
    field_simp
  · rw [Complex.sin_arg, hn]
    generalize Real.sqrt (X * X + Y * Y) = ρ at hp
    field_simp

end EarthRot
end Verif
