import Verif.Proof.Rot
import Verif.Spec.Harmonic
import Mathlib.Analysis.SpecialFunctions.Trigonometric.Deriv
/-
Properties C60, C61, C62: Earth rotation.
-/
namespace Verif.EarthRot
open Verif Verif.Quat Verif.Harmonic Verif.Angle

/-! ### C62: the angles of the pole -/

/-- C62: the angles are given exactly when X² + Y² ≤ 1, and then X = sin d cos e, Y = sin d sin e, with d between 0 and a quarter turn, so that cos d is
the third coordinate of the pole. -/
theorem spherical_value (X Y : ℝ) (h : X ^ 2 + Y ^ 2 ≤ 1) : ∃ d e, spherical X Y = some (d, e) ∧ Real.sin d * Real.cos e = X ∧ Real.sin d * Real.sin e = Y ∧
    Real.cos d = Real.sqrt (1 - X ^ 2 - Y ^ 2) ∧ 0 ≤ d ∧ d ≤ Real.pi / 2 := by
  have h0 : 0 ≤ X * X + Y * Y := add_nonneg (mul_self_nonneg _) (mul_self_nonneg _)
  obtain ⟨d, hd⟩ := polar_some (r2 := X * X + Y * Y) (by linarith [h, sq X, sq Y])
  obtain ⟨_, hs, hc, hd0, hd1⟩ := polar_spec h0 hd
  unfold spherical
  dsimp only
  rw [hd]
  refine ⟨d, _, rfl, ?_, ?_, ?_, hd0, hd1⟩
  · by_cases hp : 0 < X * X + Y * Y
    · rw [if_pos hp, hs]; exact (atan2_spec hp).1
    · have hz : X * X + Y * Y = 0 := le_antisymm (not_lt.1 hp) h0
      have hx : X = 0 := by nlinarith [mul_self_nonneg X, mul_self_nonneg Y]
      rw [hs, hz, Real.sqrt_zero, zero_mul, hx]
  · by_cases hp : 0 < X * X + Y * Y
    · rw [if_pos hp, hs]; exact (atan2_spec hp).2
    · have hz : X * X + Y * Y = 0 := le_antisymm (not_lt.1 hp) h0
      have hy : Y = 0 := by nlinarith [mul_self_nonneg X, mul_self_nonneg Y]
      rw [hs, hz, Real.sqrt_zero, zero_mul, hy]
  · rw [hc]; congr 1; ring

/-- C62: outside the unit disc there is no angle. -/
theorem spherical_outside (X Y : ℝ) (h : 1 < X ^ 2 + Y ^ 2) : spherical X Y = none := by
  have : ¬(X * X + Y * Y < 1) := by nlinarith
  have h' : ¬(X * X + Y * Y = 1) := by nlinarith
  unfold spherical polar
  simp only
  rw [if_neg this, if_neg h']
  rfl

theorem spherical_inside {X Y d e : ℝ} (h : spherical X Y = some (d, e)) : X ^ 2 + Y ^ 2 ≤ 1 := by
  by_contra k
  rw [spherical_outside X Y (not_le.1 k)] at h
  cases h

/-- What the angles satisfy, when they are given. -/
theorem spherical_spec {X Y d e : ℝ} (h : spherical X Y = some (d, e)) : Real.sin d * Real.cos e = X ∧ Real.sin d * Real.sin e = Y ∧
    Real.cos d = Real.sqrt (1 - X ^ 2 - Y ^ 2) ∧ 0 ≤ d ∧ d ≤ Real.pi / 2 := by
  obtain ⟨d', e', h', k⟩ := spherical_value X Y (spherical_inside h)
  rw [h] at h'
  cases h'
  exact k

example : ∃ d e, spherical (1 / 2) (-1 / 3) = some (d, e) ∧ Real.sin d * Real.cos e = 1 / 2 ∧ Real.sin d * Real.sin e = -1 / 3 := by
  obtain ⟨d, e, h, a, b, _⟩ := spherical_value (1 / 2) (-1 / 3) (by norm_num)
  exact ⟨d, e, h, a, b⟩

/-! ### C60: rotations -/

/-- C60: GCRS to CIRS is the transpose of the matrix Q of the Conventions. -/
theorem C_matrix (X Y s : ℝ) (h : X ^ 2 + Y ^ 2 ≤ 1) : ∃ q d e, C X Y s = some q ∧ spherical X Y = some (d, e) ∧ q.mat = (celestial d e s).transpose := by
  obtain ⟨d, e, hs, _⟩ := spherical_value X Y h
  refine ⟨_, d, e, by unfold C; rw [hs]; rfl, hs, ?_⟩
  simp only
  rw [mat_mul ((unit_Z _).mul (unit_Y _)) (unit_Z _), mat_mul (unit_Z _) (unit_Y _), mat_Z, mat_Y, mat_Z]
  unfold celestial
  simp only [M3.transpose_mul, R2_transpose, R3_transpose, neg_neg, ← M3.mul_assoc, R3_mul]
  congr 3
  ring

/-- C60, C62: the rotation carries the pole (X, Y, Z) to the third axis. -/
theorem C_pole (X Y s : ℝ) (q : Quat) (h : C X Y s = some q) : q.mat * (⟨X, Y, Real.sqrt (1 - X ^ 2 - Y ^ 2)⟩ : V3) = ⟨0, 0, 1⟩ := by
  have hin : X ^ 2 + Y ^ 2 ≤ 1 := by
    by_contra k
    unfold C at h
    rw [spherical_outside X Y (not_le.1 k)] at h
    cases h
  obtain ⟨q', d, e, h', hs, hm⟩ := C_matrix X Y s hin
  rw [h] at h'
  cases h'
  obtain ⟨hx, hy, hz, _, _⟩ := spherical_spec hs
  rw [hm, ← hx, ← hy]
  rw [show Real.sqrt (1 - (Real.sin d * Real.cos e) ^ 2 - (Real.sin d * Real.sin e) ^ 2) = Real.cos d from by rw [hx, hy, hz]]
  have e1 := Real.cos_sq_add_sin_sq e
  have e2 := Real.cos_sq_add_sin_sq d
  unfold celestial
  simp only [M3.transpose_mul, R2_transpose, R3_transpose, neg_neg, M3.mulVec_mul]
  have s1 : R3 e * (⟨Real.sin d * Real.cos e, Real.sin d * Real.sin e, Real.cos d⟩ : V3) = ⟨Real.sin d, 0, Real.cos d⟩ := by
    unfold R3
    rw [M3.mulVec_def]
    ext <;> simp only
    · linear_combination Real.sin d * e1
    · ring
    · ring
  have s2 : R2 d * (⟨Real.sin d, 0, Real.cos d⟩ : V3) = ⟨0, 0, 1⟩ := by
    unfold R2
    rw [M3.mulVec_def]
    ext <;> simp only
    · ring
    · ring
    · linear_combination e2
  have s3 : ∀ t, R3 t * (⟨0, 0, 1⟩ : V3) = ⟨0, 0, 1⟩ := by
    intro t
    unfold R3
    rw [M3.mulVec_def]
    ext <;> simp only <;> ring
  rw [s1, s2, s3, s3]

/-- Half of the angle d. -/
theorem half_d {d : ℝ} (h0 : 0 ≤ d) (h1 : d ≤ Real.pi / 2) : 0 < Real.cos (d / 2) ∧ Real.sqrt (2 * (1 + Real.cos d)) = 2 * Real.cos (d / 2) ∧
    1 + Real.cos d = 2 * Real.cos (d / 2) ^ 2 ∧ Real.sin d = 2 * Real.sin (d / 2) * Real.cos (d / 2) := by
  have hpi := Real.pi_pos
  have hc : 0 < Real.cos (d / 2) := Real.cos_pos_of_mem_Ioo ⟨by linarith, by linarith⟩
  have e1 : 1 + Real.cos d = 2 * Real.cos (d / 2) ^ 2 := by
    have := Real.cos_two_mul (d / 2)
    rw [show 2 * (d / 2) = d from by ring] at this
    linarith
  refine ⟨hc, ?_, e1, (halves d).2⟩
  rw [e1, show 2 * (2 * Real.cos (d / 2) ^ 2) = (2 * Real.cos (d / 2)) ^ 2 from by ring]
  exact Real.sqrt_sq (by linarith)

/-- A rotation by -d about the second axis seen from a frame rotated by e. -/
theorem conj_Y (d e : ℝ) : aaZ e * aaY (-d) * aaZ (-e) = ⟨Real.cos (d / 2), Real.sin (d / 2) * Real.sin e, -(Real.sin (d / 2) * Real.cos e), 0⟩ := by
  obtain ⟨c, s⟩ := halves e
  have h := Real.cos_sq_add_sin_sq (e / 2)
  rw [c, s]
  unfold aaZ aaY
  simp only [Quat.mul_def, neg_div, Real.cos_neg, Real.sin_neg]
  generalize Real.cos (d / 2) = cd
  generalize Real.sin (d / 2) = sd
  generalize Real.cos (e / 2) = ce at *
  generalize Real.sin (e / 2) = se at *
  ext <;> simp only
  · linear_combination cd * h
  · ring
  · linear_combination (-sd) * h
  · ring

theorem quat_assoc (a b c : Quat) : a * b * c = a * (b * c) := by
  simp only [Quat.mul_def]
  ext <;> simp only <;> ring

theorem aaZ_add (a b : ℝ) : aaZ (a + b) = aaZ a * aaZ b := by
  unfold aaZ
  simp only [Quat.mul_def, add_div, Real.cos_add, Real.sin_add]
  ext <;> simp only <;> ring

/-- C60: the closed form with half angles is the same quaternion. -/
theorem Cq_eq (X Y s : ℝ) : Cq X Y s = C X Y s := by
  unfold Cq C
  cases h : spherical X Y with
  | none => rfl
  | some de =>
    obtain ⟨d, e⟩ := de
    obtain ⟨hx, hy, _, hd0, hd1⟩ := spherical_spec h
    obtain ⟨hc, hq, h1, hs⟩ := half_d hd0 hd1
    simp only [Option.map_some]
    congr 1
    rw [add_comm e s, aaZ_add, quat_assoc (aaZ s), quat_assoc, conj_Y, hq, h1, ← hx, ← hy, hs]
    unfold aaZ
    simp only [Quat.mul_def]
    generalize Real.cos (d / 2) = cd at *
    ext <;> simp only <;> field_simp <;> ring

/-- C60: the closed form of the whole rotation (Bizouard and Cheng) is the same quaternion. -/
theorem bz_eq (era s sp X Y xp yp : ℝ) : bz era s sp X Y xp yp = (spherical X Y).map fun (d, e) => c2i era s sp d e xp yp := by
  unfold bz
  cases h : spherical X Y with
  | none =>
    have : polar (X * X + Y * Y) = none := by
      unfold spherical at h
      simpa using h
    simp only [this]
    rfl
  | some de =>
    obtain ⟨d, e⟩ := de
    obtain ⟨hx, hy, _, hd0, hd1⟩ := spherical_spec h
    obtain ⟨hc, hq, h1, hs⟩ := half_d hd0 hd1
    unfold spherical at h
    simp only [Option.map_eq_some_iff, Prod.mk.injEq] at h
    obtain ⟨d', hp, rfl, he⟩ := h
    simp only [hp, Option.map_some, he]
    congr 1
    unfold c2i
    rw [show -sp - era + e + s = -(era + sp - s) + e from by ring, aaZ_add, ← quat_assoc _ _ (aaZ e), quat_assoc _ (aaZ e) (aaY (-d')), quat_assoc _ _ (aaZ (-e)), conj_Y, hq, h1, hs]
    unfold aaX aaY aaZ
    simp only [Quat.mul_def, neg_div, Real.cos_neg, Real.sin_neg]
    generalize Real.cos (d' / 2) = cd at *
    ext <;> simp only <;> field_simp <;> ring

/-- C60: the whole rotation is the inverse of Q R W of the Conventions, with the corrected pole. -/
theorem c2i06a_matrix (a : Args) (h : a.Xc ^ 2 + a.Yc ^ 2 ≤ 1) : ∃ q d e, c2i06a a = some q ∧ spherical a.Xc a.Yc = some (d, e) ∧
    q.mat = (celestial d e a.s * spin a.era * polarMotion a.sp (sec2rad a.xp) (sec2rad a.yp)).transpose := by
  obtain ⟨d, e, hs, _⟩ := spherical_value a.Xc a.Yc h
  refine ⟨_, d, e, by unfold c2i06a; rw [hs]; rfl, hs, ?_⟩
  rw [mat_c2i]
  unfold celestial spin polarMotion
  simp only [M3.transpose_mul, R1_transpose, R2_transpose, R3_transpose, neg_neg]
  generalize sec2rad a.xp = xp
  generalize sec2rad a.yp = yp
  rw [show a.sp + a.era - e - a.s = a.sp + (a.era + (-a.s + -e)) from by ring, ← R3_mul, ← R3_mul, ← R3_mul]
  simp only [M3.mul_assoc]

/-- C60: every result is a rotation. -/
theorem rotations (a : Args) : (∀ q, c2i06a a = some q → IsRotation q.mat) ∧ (∀ q, C a.Xc a.Yc a.s = some q → IsRotation q.mat) ∧
    (∀ q p ω, c2i06aPQ a = some (q, p, ω) → IsRotation q.mat ∧ IsRotation p.mat) ∧ (∀ q, c2i06aBz a = some q → IsRotation q.mat) := by
  have hc : ∀ era s sp d e xp yp, IsRotation (c2i era s sp d e xp yp).mat := by
    intro era s sp d e xp yp
    rw [mat_c2i]
    exact ((((rot_R1 _).mul (rot_R2 _)).mul (rot_R3 _)).mul (rot_R2 _)).mul (rot_R3 _)
  refine ⟨?_, ?_, ?_, ?_⟩
  · intro q h
    unfold c2i06a at h
    obtain ⟨⟨d, e⟩, _, rfl⟩ := Option.map_eq_some_iff.1 h
    exact hc _ _ _ _ _ _ _
  · intro q h
    unfold C at h
    obtain ⟨⟨d, e⟩, _, rfl⟩ := Option.map_eq_some_iff.1 h
    simp only
    rw [mat_mul ((unit_Z _).mul (unit_Y _)) (unit_Z _), mat_mul (unit_Z _) (unit_Y _), mat_Z, mat_Y, mat_Z]
    exact ((rot_R3 _).mul (rot_R2 _)).mul (rot_R3 _)
  · intro q p ω h
    unfold c2i06aPQ at h
    obtain ⟨⟨d, e⟩, _, h⟩ := Option.map_eq_some_iff.1 h
    simp only [Prod.mk.injEq] at h
    obtain ⟨rfl, rfl, -⟩ := h
    rw [mat_c2tirs, mat_tirs2i]
    exact ⟨((rot_R3 _).mul (rot_R2 _)).mul (rot_R3 _), ((rot_R1 _).mul (rot_R2 _)).mul (rot_R3 _)⟩
  · intro q h
    unfold c2i06aBz at h
    rw [bz_eq] at h
    obtain ⟨⟨d, e⟩, _, rfl⟩ := Option.map_eq_some_iff.1 h
    exact hc _ _ _ _ _ _ _

/-- C60: the closed form and the product agree. -/
theorem bz_agrees (a : Args) : c2i06aBz a = c2i06a a := by
  unfold c2i06aBz c2i06a
  exact bz_eq _ _ _ _ _ _ _

/-- C60: the one-step rotation is polar motion times the rotation to TIRS, as quaternions; the two are returned together. -/
theorem pq_agrees (a : Args) : c2i06a a = (c2i06aPQ a).map fun (q, p, _) => p * q := by
  unfold c2i06aPQ c2i06a
  cases spherical a.Xc a.Yc with
  | none => rfl
  | some de =>
    obtain ⟨d, e⟩ := de
    simp only [Option.map_some]
    congr 1
    unfold c2i tirs2i c2tirs
    rw [show -a.sp - a.era + e + a.s = -a.sp + (-a.era + e + a.s) from by ring, aaZ_add]
    simp only [quat_assoc]

/-- C60: all functions fail for the same arguments: those whose corrected pole is outside the unit disc. -/
theorem fail_together (a : Args) : (c2i06a a = none ↔ 1 < a.Xc ^ 2 + a.Yc ^ 2) ∧ (c2i06aPQ a = none ↔ 1 < a.Xc ^ 2 + a.Yc ^ 2) ∧ (c2i06aD a = none ↔ 1 < a.Xc ^ 2 + a.Yc ^ 2) := by
  by_cases h : 1 < a.Xc ^ 2 + a.Yc ^ 2
  · unfold c2i06a c2i06aPQ c2i06aD C
    rw [spherical_outside _ _ h]
    simp [h]
  · obtain ⟨d, e, hs, _⟩ := spherical_value a.Xc a.Yc (not_lt.1 h)
    unfold c2i06a c2i06aPQ c2i06aD C
    rw [hs]
    simp [h]

/-! ### C60: the approximate matrix -/

/-- With the exact coefficient 1 / (1 + cos d), the matrix in X and Y is the rotation. -/
theorem C_xy (X Y s : ℝ) (q : Quat) (h : C X Y s = some q) :
    q.mat = (aaZ s).mat * (let a := 1 / (1 + Real.sqrt (1 - X ^ 2 - Y ^ 2)); ⟨1 - a * X * X, -a * X * Y, -X, -a * X * Y, 1 - a * Y * Y, -Y, X, Y, 1 - a * (X * X + Y * Y)⟩) := by
  unfold C at h
  obtain ⟨⟨d, e⟩, hs, rfl⟩ := Option.map_eq_some_iff.1 h
  obtain ⟨hx, hy, hz, hd0, hd1⟩ := spherical_spec hs
  simp only
  rw [add_comm e s, aaZ_add, quat_assoc (aaZ s), quat_assoc, conj_Y, mat_mul (unit_Z _) (by
    unfold Quat.Unit Quat.sqNorm
    simp only
    linear_combination (Real.sin (d / 2) ^ 2) * Real.cos_sq_add_sin_sq e + Real.cos_sq_add_sin_sq (d / 2))]
  congr 1
  rw [← hz, ← hx, ← hy]
  obtain ⟨hc, -, h1, h2⟩ := half_d hd0 hd1
  have h3 := Real.cos_sq_add_sin_sq (d / 2)
  have h4 := Real.cos_sq_add_sin_sq e
  rw [h1, h2]
  unfold Quat.mat
  generalize Real.cos (d / 2) = cd at *
  generalize Real.sin (d / 2) = sd at *
  generalize Real.cos e = ce at *
  generalize Real.sin e = se at *
  ext <;> simp only <;> field_simp <;> ring_nf

/-- C60: the matrix in X and Y takes a truncated coefficient; it is within 3/8 r⁶ of the rotation, where r² = X² + Y². -/
theorem Crxy_close (X Y s : ℝ) (q : Quat) (h : C X Y s = some q) : let b := 3 / 8 * (X ^ 2 + Y ^ 2) ^ 3
    |(Crxy X Y s).xx - q.mat.xx| ≤ b ∧ |(Crxy X Y s).xy - q.mat.xy| ≤ b ∧ (Crxy X Y s).xz = q.mat.xz ∧
    |(Crxy X Y s).yx - q.mat.yx| ≤ b ∧ |(Crxy X Y s).yy - q.mat.yy| ≤ b ∧ (Crxy X Y s).yz = q.mat.yz ∧
    (Crxy X Y s).zx = q.mat.zx ∧ (Crxy X Y s).zy = q.mat.zy ∧ |(Crxy X Y s).zz - q.mat.zz| ≤ b := by
  intro b
  have hin : X ^ 2 + Y ^ 2 ≤ 1 := by
    unfold C at h
    obtain ⟨⟨d, e⟩, hs, _⟩ := Option.map_eq_some_iff.1 h
    exact spherical_inside hs
  rw [C_xy X Y s q h, mat_Z]
  have hz : Real.sqrt (1 - X ^ 2 - Y ^ 2) ^ 2 = 1 - X ^ 2 - Y ^ 2 := Real.sq_sqrt (by linarith)
  have hz0 : 0 ≤ Real.sqrt (1 - X ^ 2 - Y ^ 2) := Real.sqrt_nonneg _
  generalize Real.sqrt (1 - X ^ 2 - Y ^ 2) = z at hz hz0
  have hr0 : 0 ≤ X ^ 2 + Y ^ 2 := by positivity
  have hz1 : z ≤ 1 := by nlinarith
  -- difference of the coefficients
  obtain ⟨δ, hδ⟩ : ∃ δ, δ = 1 / (1 + z) - (1 / 2 + 1 / 8 * (X * X + Y * Y)) := ⟨_, rfl⟩
  have hr : X ^ 2 + Y ^ 2 = 1 - z ^ 2 := by linarith
  have hd : δ = (1 - z) ^ 2 * (z + 3) / (8 * (1 + z)) := by
    rw [hδ, show X * X + Y * Y = 1 - z ^ 2 from by linarith [hr]]
    have : (1 + z) ≠ 0 := by linarith
    field_simp
    ring
  have hδ0 : 0 ≤ δ := by rw [hd]; positivity
  have hδ1 : δ ≤ 3 / 8 * (X ^ 2 + Y ^ 2) ^ 2 := by
    rw [hd, hr, div_le_iff₀ (by positivity)]
    have : z + 3 ≤ 3 * (1 + z) ^ 3 := by nlinarith [mul_nonneg hz0 hz0, mul_nonneg (mul_nonneg hz0 hz0) hz0]
    calc (1 - z) ^ 2 * (z + 3) ≤ (1 - z) ^ 2 * (3 * (1 + z) ^ 3) := mul_le_mul_of_nonneg_left this (sq_nonneg _)
      _ = _ := by ring
  have ha : 1 / (1 + z) = δ + (1 / 2 + 1 / 8 * (X * X + Y * Y)) := by rw [hδ]; ring
  have key : ∀ k, |k| ≤ X ^ 2 + Y ^ 2 → |δ * k| ≤ b := by
    intro k hk
    rw [abs_mul, abs_of_nonneg hδ0]
    calc δ * |k| ≤ 3 / 8 * (X ^ 2 + Y ^ 2) ^ 2 * (X ^ 2 + Y ^ 2) := mul_le_mul hδ1 hk (abs_nonneg _) (by positivity)
      _ = b := by simp only [b]; ring
  have hcs := Real.cos_sq_add_sin_sq (-s)
  unfold Crxy
  simp only
  rw [mat_Z, ha]
  unfold R3
  simp only [M3.mul_def]
  generalize Real.cos (-s) = c at hcs
  generalize Real.sin (-s) = sn at hcs
  have b1 : ∀ u v w : ℝ, u ^ 2 + v ^ 2 = 1 → w ^ 2 ≤ X ^ 2 + Y ^ 2 → |w * (u * X + v * Y)| ≤ X ^ 2 + Y ^ 2 := by
    intro u v w huv hw
    have : (w * (u * X + v * Y)) ^ 2 ≤ (X ^ 2 + Y ^ 2) ^ 2 := by
      have e1 : (u * X + v * Y) ^ 2 ≤ X ^ 2 + Y ^ 2 := by
        have : (u * X + v * Y) ^ 2 + (u * Y - v * X) ^ 2 = X ^ 2 + Y ^ 2 := by linear_combination (X ^ 2 + Y ^ 2) * huv
        nlinarith [sq_nonneg (u * Y - v * X)]
      rw [mul_pow, sq (X ^ 2 + Y ^ 2)]
      exact mul_le_mul hw e1 (sq_nonneg _) hr0
    exact abs_le_of_sq_le_sq this hr0
  have hx : X ^ 2 ≤ X ^ 2 + Y ^ 2 := by nlinarith
  have hy : Y ^ 2 ≤ X ^ 2 + Y ^ 2 := by nlinarith
  have hcs' : (-sn) ^ 2 + c ^ 2 = 1 := by linarith
  refine ⟨?_, ?_, by ring, ?_, ?_, by ring, by ring, by ring, ?_⟩
  · convert key _ (b1 c sn X hcs hx) using 2; ring
  · convert key _ (b1 c sn Y hcs hy) using 2; ring
  · convert key _ (b1 (-sn) c X hcs' hx) using 2; ring
  · convert key _ (b1 (-sn) c Y hcs' hy) using 2; ring
  · convert key (X ^ 2 + Y ^ 2) (by rw [abs_of_nonneg hr0]) using 2; ring

/-- C60 fails for the matrix in X and Y: it is a rotation only at the pole itself. -/
theorem Crxy_fails (X Y s : ℝ) : IsRotation (Crxy X Y s) ↔ X = 0 ∧ Y = 0 := by
  constructor
  · intro ⟨_, h, _⟩
    have k : (aaZ s).mat.transpose * (aaZ s).mat = 1 := by rw [mat_Z]; exact (rot_R3 _).2.1
    unfold Crxy at h
    simp only [M3.transpose_mul] at h
    rw [M3.mul_assoc, ← M3.mul_assoc (aaZ s).mat.transpose, k, M3.one_mul] at h
    have hz := congrArg M3.zz h
    simp only [M3.mul_def, M3.transpose, M3.one_def] at hz
    have hr0 : 0 ≤ X * X + Y * Y := add_nonneg (mul_self_nonneg _) (mul_self_nonneg _)
    have hp : (X * X + Y * Y) ^ 3 * (8 + (X * X + Y * Y)) = 0 := by linear_combination 64 * hz
    have : X * X + Y * Y = 0 := by
      rcases mul_eq_zero.1 hp with k | k
      · exact pow_eq_zero_iff (by norm_num) |>.1 k
      · linarith
    constructor <;> nlinarith [mul_self_nonneg X, mul_self_nonneg Y]
  · rintro ⟨rfl, rfl⟩
    have : Crxy 0 0 s = (aaZ s).mat := by
      unfold Crxy
      simp only [mul_zero, sub_zero, neg_zero, add_zero]
      exact M3.mul_one _
    rw [this, mat_Z]
    exact rot_R3 _

/-! ### C61: rates -/

/-- A linear map of a motion. -/
theorem moves_mat (A : M3) {p : ℝ → V3} {v : V3} {t : ℝ} (h : Moves p v t) : Moves (fun τ => A * p τ) (A * v) t := by
  obtain ⟨hx, hy, hz⟩ := h
  unfold Moves
  simp only [M3.mulVec_def]
  exact ⟨((hx.const_mul _).add (hy.const_mul _)).add (hz.const_mul _), ((hx.const_mul _).add (hy.const_mul _)).add (hz.const_mul _),
    ((hx.const_mul _).add (hy.const_mul _)).add (hz.const_mul _)⟩

/-- C61: dR/dt is the derivative of R3(ERA), for any Earth rotation angle that grows at the given rate. -/
theorem dRdt_derivative (era : ℝ → ℝ) (ω t : ℝ) (h : HasDerivAt era ω t) (u : V3) : Moves (fun τ => R3 (era τ) * u) (dRdt (era t) ω * u) t := by
  have hc := h.cos
  have hs := h.sin
  unfold Moves R3 dRdt
  simp only [M3.mulVec_def]
  refine ⟨?_, ?_, ?_⟩
  · exact (((hc.mul_const u.x).add (hs.mul_const u.y)).add (hasDerivAt_const t (0 * u.z))).congr_deriv (by ring)
  · exact (((hs.neg.mul_const u.x).add (hc.mul_const u.y)).add (hasDerivAt_const t (0 * u.z))).congr_deriv (by ring)
  · exact (hasDerivAt_const t (0 * u.x + 0 * u.y + 1 * u.z)).congr_deriv (by ring)

/-- The parts of the rotation with a derivative. -/
theorem parts {a : Args} {q : Quat} {dM : M3} (h : c2i06aD a = some (q, dM)) : ∃ (T B : M3), IsRotation T ∧ IsRotation B ∧
    (∀ τ, ∃ q', c2i06a { a with era := τ } = some q' ∧ q'.mat = T * R3 τ * B) ∧ c2i06a a = some q ∧ dM = T * dRdt a.era (rate a.lod) * B ∧
    ∃ q1 p ω, c2i06aPQ a = some (q1, p, ω) ∧ ω = ⟨0, 0, rate a.lod⟩ ∧ p.mat = T ∧ q1.mat = R3 a.era * B := by
  unfold c2i06aD C at h
  cases hs : spherical a.Xc a.Yc with
  | none => rw [hs] at h; cases h
  | some de =>
    obtain ⟨d, e⟩ := de
    rw [hs] at h
    simp only [Option.map_some, Option.bind_some, Option.some.injEq, Prod.mk.injEq] at h
    obtain ⟨rfl, rfl⟩ := h
    refine ⟨(tirs2i (sec2rad a.xp) (sec2rad a.yp) a.sp).mat, R3 (-e - a.s) * R2 d * R3 e, ?_, ((rot_R3 _).mul (rot_R2 _)).mul (rot_R3 _), ?_, ?_, ?_, ?_⟩
    · rw [mat_tirs2i]; exact ((rot_R1 _).mul (rot_R2 _)).mul (rot_R3 _)
    · intro τ
      have hs' : spherical ({ a with era := τ } : Args).Xc ({ a with era := τ } : Args).Yc = some (d, e) := hs
      refine ⟨_, by unfold c2i06a; rw [hs']; rfl, ?_⟩
      rw [mat_c2i, mat_tirs2i]
      simp only
      rw [show a.sp + τ - e - a.s = a.sp + (τ + (-e - a.s)) from by ring, ← R3_mul, ← R3_mul]
      simp only [M3.mul_assoc]
    · unfold c2i06a; rw [hs]; rfl
    · congr 1
      rw [mat_mul ((unit_Z _).mul (unit_Y _)) (unit_Z _), mat_mul (unit_Z _) (unit_Y _), mat_Z, mat_Y, mat_Z]
      simp only [neg_neg, neg_add]
      rfl
    · refine ⟨_, _, _, by unfold c2i06aPQ; rw [hs]; rfl, rfl, rfl, ?_⟩
      rw [mat_c2tirs, show a.era - e - a.s = a.era + (-e - a.s) from by ring, ← R3_mul]
      simp only [M3.mul_assoc]

/-- C61: the matrix returned with the rotation is its derivative when the Earth rotation angle grows at the rate of the axis and the other
angles are held, as the code does: for every vector u, M(t) u has the velocity dM u. -/
theorem derivative (a : Args) (q : Quat) (dM : M3) (h : c2i06aD a = some (q, dM)) (era : ℝ → ℝ) (t : ℝ) (he : era t = a.era)
    (hr : HasDerivAt era (rate a.lod) t) : ∃ Q : ℝ → Quat, (∀ τ, c2i06a { a with era := era τ } = some (Q τ)) ∧ Q t = q ∧
      ∀ u : V3, Moves (fun τ => (Q τ).mat * u) (dM * u) t := by
  obtain ⟨T, B, _, _, hq, h0, rfl, _⟩ := parts h
  choose Q hQ hM using fun τ => hq (era τ)
  refine ⟨Q, hQ, ?_, ?_⟩
  · have := hQ t
    rw [he] at this
    have h1 : ({ a with era := a.era } : Args) = a := rfl
    rw [h1, h0] at this
    exact (Option.some.inj this).symm
  · intro u
    have e1 : (fun τ => (Q τ).mat * u) = fun τ => T * (R3 (era τ) * (B * u)) := by
      funext τ
      rw [hM, M3.mulVec_mul, M3.mulVec_mul]
    rw [e1, M3.mulVec_mul, M3.mulVec_mul, ← he]
    exact moves_mat T (dRdt_derivative era _ t hr _)

/-- C61: the derivative in terms of the rotation vector that the two-quaternion form returns: dM u = P (-ω × (Q u)). -/
theorem derivative_axis (a : Args) (q : Quat) (dM : M3) (h : c2i06aD a = some (q, dM)) : ∃ q1 p ω, c2i06aPQ a = some (q1, p, ω) ∧
    ∀ u : V3, dM * u = p.mat * -V3.cross ω (q1.mat * u) := by
  obtain ⟨T, B, _, _, _, _, rfl, q1, p, ω, hpq, rfl, hp, hq1⟩ := parts h
  refine ⟨q1, p, _, hpq, ?_⟩
  intro u
  rw [hp, hq1, M3.mulVec_mul, M3.mulVec_mul, M3.mulVec_mul]
  generalize B * u = w
  have : dRdt a.era (rate a.lod) * w = -V3.cross ⟨0, 0, rate a.lod⟩ (R3 a.era * w) := by
    unfold dRdt R3 V3.cross
    simp only [M3.mulVec_def]
    ext <;> simp only [V3.neg_x, V3.neg_y, V3.neg_z] <;> ring
  rw [this]

/-- C61: the transposes undo the transformation of position and velocity. -/
theorem state_round_trip (a : Args) (q : Quat) (dM : M3) (h : c2i06aD a = some (q, dM)) (r v : V3) :
    q.mat.transpose * (q.mat * r) = r ∧ q.mat.transpose * (q.mat * v + dM * r) + dM.transpose * (q.mat * r) = v := by
  obtain ⟨T, B, hT, hB, hq, h0, rfl, _⟩ := parts h
  obtain ⟨q', h1, hm⟩ := hq a.era
  have h2 : ({ a with era := a.era } : Args) = a := rfl
  rw [h2, h0] at h1
  rw [← Option.some.inj h1] at hm
  have hrot : q.mat.transpose * q.mat = 1 := ((rotations a).1 q h0).2.1
  refine ⟨by rw [← M3.mulVec_mul, hrot, M3.one_mulVec], ?_⟩
  have hadd : ∀ (A : M3) (x y : V3), A * (x + y) = A * x + A * y := by
    intro A x y
    simp only [M3.mulVec_def]
    ext <;> simp only [V3.add_x, V3.add_y, V3.add_z] <;> ring
  have hsum : q.mat.transpose * ((T * dRdt a.era (rate a.lod) * B) * r) + (T * dRdt a.era (rate a.lod) * B).transpose * (q.mat * r) = 0 := by
    have e1 : q.mat.transpose * ((T * dRdt a.era (rate a.lod) * B) * r) = B.transpose * ((R3 a.era).transpose * (dRdt a.era (rate a.lod) * (B * r))) := by
      rw [hm]
      simp only [M3.transpose_mul, M3.mulVec_mul]
      rw [← M3.mulVec_mul T.transpose, hT.2.1, M3.one_mulVec]
    have e2 : (T * dRdt a.era (rate a.lod) * B).transpose * (q.mat * r) = B.transpose * ((dRdt a.era (rate a.lod)).transpose * (R3 a.era * (B * r))) := by
      rw [hm]
      simp only [M3.transpose_mul, M3.mulVec_mul]
      rw [← M3.mulVec_mul T.transpose, hT.2.1, M3.one_mulVec]
    rw [e1, e2, ← hadd]
    have : (R3 a.era).transpose * (dRdt a.era (rate a.lod) * (B * r)) + (dRdt a.era (rate a.lod)).transpose * (R3 a.era * (B * r)) = 0 := by
      generalize B * r = w
      unfold R3 dRdt
      simp only [M3.mulVec_def, M3.transpose]
      ext <;> simp only [V3.add_x, V3.add_y, V3.add_z, V3.zero_x, V3.zero_y, V3.zero_z] <;> ring
    rw [this]
    simp only [M3.mulVec_def]
    ext <;> simp only [V3.zero_x, V3.zero_y, V3.zero_z] <;> ring
  have hassoc : ∀ x y z : V3, x + y + z = x + (y + z) := by
    intro x y z
    ext <;> simp only [V3.add_x, V3.add_y, V3.add_z] <;> ring
  rw [hadd, hassoc, hsum, ← M3.mulVec_mul, hrot, M3.one_mulVec]
  ext <;> simp only [V3.add_x, V3.add_y, V3.add_z, V3.zero_x, V3.zero_y, V3.zero_z, add_zero]

/-- C61: the rate is that of the nominal day at no excess length of day, falls with it, and is the first order of Ω / (1 + lod / 86400). -/
theorem rate_first_order (lod : ℝ) (h : |lod| ≤ 43200) : rate 0 = omegaEarth ∧ (∀ l, lod < l → rate l < rate lod) ∧
    |rate lod - omegaEarth / (1 + lod / 86400)| ≤ 2 * omegaEarth * (lod / 86400) ^ 2 := by
  have ho : 0 < omegaEarth := by unfold omegaEarth; norm_num
  obtain ⟨h1, h2⟩ := abs_le.1 h
  refine ⟨by unfold rate; ring, ?_, ?_⟩
  · intro l hl
    unfold rate
    apply mul_lt_mul_of_pos_left _ ho
    linarith
  · unfold rate
    generalize hx : lod / 86400 = x
    have hx1 : -1 / 2 ≤ x := by rw [← hx]; linarith
    have hp : 0 < 1 + x := by linarith
    have : omegaEarth * (1 - x) - omegaEarth / (1 + x) = -(omegaEarth * x ^ 2 / (1 + x)) := by field_simp; ring
    rw [this, abs_neg, abs_of_nonneg (by positivity), div_le_iff₀ hp]
    nlinarith [mul_nonneg ho.le (sq_nonneg x)]

/-! ### A case -/

/-- Arguments near those of an epoch. -/
noncomputable def sample : Args := ⟨1 / 1000, 1 / 2000, 0, 0, 1, 0, 0, 0, 0, 1 / 1000⟩

theorem sample_in : sample.Xc ^ 2 + sample.Yc ^ 2 ≤ 1 := by
  unfold Args.Xc Args.Yc sample sec2rad
  norm_num

example : ∃ q dM, c2i06aD sample = some (q, dM) := by
  have := (fail_together sample).2.2
  cases h : c2i06aD sample with
  | none => exact absurd (this.1 h) (not_lt.2 sample_in)
  | some p => exact ⟨p.1, p.2, rfl⟩

example : ∃ q, c2i06a sample = some q ∧ IsRotation q.mat := by
  obtain ⟨q, d, e, h, _⟩ := c2i06a_matrix sample sample_in
  exact ⟨q, h, (rotations sample).1 q h⟩

/-- An angle that grows at the rate of the sample. -/
example : HasDerivAt (fun τ : ℝ => 1 + rate sample.lod * (τ - 0)) (rate sample.lod) 0 := by
  simpa using ((hasDerivAt_id (0 : ℝ)).sub_const 0).const_mul (rate sample.lod) |>.const_add 1

end Verif.EarthRot
