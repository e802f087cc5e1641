import Verif.Proof.HarmonicNorm
import Verif.Model.Mat3
/-
The terms of the sums, as functions of the solid harmonics, are derivatives of each other.
-/
namespace Verif.Harmonic
open Verif Verif.Legendre

/-- The factor of a degree, second derivatives. -/
noncomputable def fb (n : ℕ) : ℝ := Real.sqrt ((2 * n + 1) / (2 * n + 5))

/-- Acceleration, one term of order m + 1. -/
noncomputable def accT (n m : ℕ) (c d : ℝ) (F : ℕ → ℕ → ℂ) : V3 :=
  let wm1 := Real.sqrt (((n : ℝ) - m) * (n - m + 1)) * two m
  let wm0 := Real.sqrt (((n : ℝ) - m) * (n + m + 2))
  let wp1 := Real.sqrt (((n : ℝ) + m + 2) * (n + m + 3))
  let Cm1 := wm1 * (F (n + 1) m).re
  let Sm1 := wm1 * (F (n + 1) m).im
  let Cm0 := wm0 * (F (n + 1) (m + 1)).re
  let Sm0 := wm0 * (F (n + 1) (m + 1)).im
  let Cp1 := wp1 * (F (n + 1) (m + 2)).re
  let Sp1 := wp1 * (F (n + 1) (m + 2)).im
  fa n * (⟨c * (Cm1 - Cp1) + d * (Sm1 - Sp1), c * (-Sm1 - Sp1) + d * (Cm1 + Cp1), c * (-2 * Cm0) + d * (-2 * Sm0)⟩ : V3)

/-- Acceleration, one term of order 0. -/
noncomputable def accT0 (n : ℕ) (c : ℝ) (F : ℕ → ℕ → ℂ) : V3 :=
  let wm0 := Real.sqrt (((n : ℝ) + 1) * (n + 1))
  let wp1 := Real.sqrt (((n : ℝ) + 1) * (n + 2)) / Real.sqrt 2
  let Cm0 := wm0 * (F (n + 1) 0).re
  let Cp1 := wp1 * (F (n + 1) 1).re
  let Sp1 := wp1 * (F (n + 1) 1).im
  fa n * (⟨c * (-2 * Cp1), c * (-2 * Sp1), c * (-2 * Cm0)⟩ : V3)

/-- A symmetric matrix. -/
def sym (gxx gxy gxz gyy gyz gzz : ℝ) : M3 := ⟨gxx, gxy, gxz, gxy, gyy, gyz, gxz, gyz, gzz⟩

/-- Gradient, one term of order m + 2. -/
noncomputable def gradT (n m : ℕ) (c d : ℝ) (F : ℕ → ℕ → ℂ) : M3 :=
  let wm2 := Real.sqrt (((n : ℝ) - m - 1) * (n - m) * (n - m + 1) * (n - m + 2)) * two m
  let wm1 := Real.sqrt (((n : ℝ) - m - 1) * (n - m) * (n - m + 1) * (n + m + 3))
  let wm0 := Real.sqrt (((n : ℝ) - m - 1) * (n - m) * (n + m + 3) * (n + m + 4))
  let wp1 := Real.sqrt (((n : ℝ) - m - 1) * (n + m + 3) * (n + m + 4) * (n + m + 5))
  let wp2 := Real.sqrt (((n : ℝ) + m + 3) * (n + m + 4) * (n + m + 5) * (n + m + 6))
  let Cm2 := wm2 * (F (n + 2) m).re
  let Sm2 := wm2 * (F (n + 2) m).im
  let Cm1 := wm1 * (F (n + 2) (m + 1)).re
  let Sm1 := wm1 * (F (n + 2) (m + 1)).im
  let Cm0 := wm0 * (F (n + 2) (m + 2)).re
  let Sm0 := wm0 * (F (n + 2) (m + 2)).im
  let Cp1 := wp1 * (F (n + 2) (m + 3)).re
  let Sp1 := wp1 * (F (n + 2) (m + 3)).im
  let Cp2 := wp2 * (F (n + 2) (m + 4)).re
  let Sp2 := wp2 * (F (n + 2) (m + 4)).im
  fb n * sym (c * (Cm2 - 2 * Cm0 + Cp2) + d * (Sm2 - 2 * Sm0 + Sp2))
    (c * (-Sm2 + Sp2) + d * (Cm2 - Cp2))
    (c * (-2 * Cm1 + 2 * Cp1) + d * (-2 * Sm1 + 2 * Sp1))
    (c * (-Cm2 - 2 * Cm0 - Cp2) + d * (-Sm2 - 2 * Sm0 - Sp2))
    (c * (2 * Sm1 + 2 * Sp1) + d * (-2 * Cm1 - 2 * Cp1))
    (c * (4 * Cm0) + d * (4 * Sm0))

/-- Gradient, one term of order 1. -/
noncomputable def gradT1 (n : ℕ) (c d : ℝ) (F : ℕ → ℕ → ℂ) : M3 :=
  let wm1 := Real.sqrt ((n : ℝ) * (n + 1) * (n + 2) * (n + 2)) * Real.sqrt 2
  let wm0 := Real.sqrt ((n : ℝ) * (n + 1) * (n + 2) * (n + 3))
  let wp1 := Real.sqrt ((n : ℝ) * (n + 2) * (n + 3) * (n + 4))
  let wp2 := Real.sqrt (((n : ℝ) + 2) * (n + 3) * (n + 4) * (n + 5))
  let Cm1 := wm1 * (F (n + 2) 0).re
  let Sm1 := wm1 * (F (n + 2) 0).im
  let Cm0 := wm0 * (F (n + 2) 1).re
  let Sm0 := wm0 * (F (n + 2) 1).im
  let Cp1 := wp1 * (F (n + 2) 2).re
  let Sp1 := wp1 * (F (n + 2) 2).im
  let Cp2 := wp2 * (F (n + 2) 3).re
  let Sp2 := wp2 * (F (n + 2) 3).im
  fb n * sym (c * (-3 * Cm0 + Cp2) + d * (-Sm0 + Sp2))
    (c * (-Sm0 + Sp2) + d * (-Cm0 - Cp2))
    (c * (-2 * Cm1 + 2 * Cp1) + d * (-2 * Sm1 + 2 * Sp1))
    (c * (-Cm0 - Cp2) + d * (-3 * Sm0 - Sp2))
    (c * (2 * Sp1) + d * (-2 * Cm1 - 2 * Cp1))
    (c * (4 * Cm0) + d * (4 * Sm0))

/-- Gradient, one term of order 0. -/
noncomputable def gradT0 (n : ℕ) (c : ℝ) (F : ℕ → ℕ → ℂ) : M3 :=
  let wm0 := Real.sqrt (((n : ℝ) + 1) * (n + 2) * (n + 1) * (n + 2))
  let wp1 := Real.sqrt (((n : ℝ) + 1) * (n + 1) * (n + 2) * (n + 3)) / Real.sqrt 2
  let wp2 := Real.sqrt (((n : ℝ) + 1) * (n + 2) * (n + 3) * (n + 4)) / Real.sqrt 2
  let Cm0 := wm0 * (F (n + 2) 0).re
  let Cp1 := wp1 * (F (n + 2) 1).re
  let Sp1 := wp1 * (F (n + 2) 1).im
  let Cp2 := wp2 * (F (n + 2) 2).re
  let Sp2 := wp2 * (F (n + 2) 2).im
  fb n * sym (c * (-2 * Cm0 + 2 * Cp2)) (c * (2 * Sp2)) (c * (4 * Cp1)) (c * (-2 * Cm0 - 2 * Cp2)) (c * (4 * Sp1)) (c * (4 * Cm0))

theorem re_deriv {f : ℝ → ℂ} {f' : ℂ} {t : ℝ} (h : HasDerivAt f f' t) : HasDerivAt (fun τ => (f τ).re) f'.re t :=
  Complex.reCLM.hasFDerivAt.comp_hasDerivAt t h

theorem im_deriv {f : ℝ → ℂ} {f' : ℂ} {t : ℝ} (h : HasDerivAt f f' t) : HasDerivAt (fun τ => (f τ).im) f'.im t :=
  Complex.imCLM.hasFDerivAt.comp_hasDerivAt t h

/-- The solid harmonics at a point. -/
noncomputable def Zat (v : V3) (n m : ℕ) : ℂ := Z n m v

/-- A term of the potential of order at least one: its gradient. -/
theorem term_grad (n m : ℕ) (hm : m + 1 ≤ n) (c e : ℝ) {p : ℝ → V3} {d : V3} {t : ℝ} (h : Moves p d t) (h0 : p t ≠ 0) :
    HasDerivAt (fun τ => c * (Z n (m + 1) (p τ)).re + e * (Z n (m + 1) (p τ)).im) (1 / 2 * (accT n m c e (Zat (p t))).dot d) t := by
  have hz := Z_deriv n m hm h h0
  refine (((re_deriv hz).const_mul c).add ((im_deriv hz).const_mul e)).congr_deriv ?_
  unfold accT V3.dot Zat hor
  simp only [V3.smul_x, V3.smul_y, V3.smul_z]
  generalize Real.sqrt (((n : ℝ) - m) * (n - m + 1)) * two m = w1
  generalize Real.sqrt (((n : ℝ) - m) * (n + m + 2)) = w2
  generalize Real.sqrt (((n : ℝ) + m + 2) * (n + m + 3)) = w3
  generalize Z (n + 1) m (p t) = z1
  generalize Z (n + 1) (m + 1) (p t) = z2
  generalize Z (n + 1) (m + 2) (p t) = z3
  generalize fa n = a
  simp
  ring

/-- A zonal term of the potential: its gradient. -/
theorem term_grad0 (n : ℕ) (c e : ℝ) {p : ℝ → V3} {d : V3} {t : ℝ} (h : Moves p d t) (h0 : p t ≠ 0) :
    HasDerivAt (fun τ => c * (Z n 0 (p τ)).re + e * (Z n 0 (p τ)).im) (1 / 2 * (accT0 n c (Zat (p t))).dot d) t := by
  have hz := Z_deriv_zero n h h0
  have hi : (fun τ => c * (Z n 0 (p τ)).re + e * (Z n 0 (p τ)).im) = fun τ => c * (Z n 0 (p τ)).re := by
    funext τ; rw [Z_zero_im]; ring
  rw [hi]
  refine ((re_deriv hz).const_mul c).congr_deriv ?_
  unfold accT0 V3.dot Zat hor
  simp only [V3.smul_x, V3.smul_y, V3.smul_z]
  generalize Real.sqrt (((n : ℝ) + 1) * (n + 2)) / Real.sqrt 2 = w1
  generalize Real.sqrt (((n : ℝ) + 1) * (n + 1)) = w2
  have := Z_zero_im (n + 1) (p t)
  generalize Z (n + 1) 0 (p t) = z1 at *
  generalize Z (n + 1) 1 (p t) = z2
  generalize fa n = a
  simp [this]
  ring

theorem fa_fa (n : ℕ) : fa n * fa (n + 1) = fb n := by
  unfold fa fb
  rw [← Real.sqrt_mul (by positivity)]
  congr 1
  push_cast
  have : (0 : ℝ) < 2 * n + 3 := by positivity
  have : (0 : ℝ) < 2 * n + 5 := by positivity
  have : (0 : ℝ) < 2 * (n + 1) + 3 := by positivity
  field_simp
  ring

/-- Terms of order at least two: the gradient is the derivative of the acceleration. -/
theorem term_hess (n m : ℕ) (hm : m + 2 ≤ n) (c e : ℝ) {p : ℝ → V3} {d : V3} {t : ℝ} (h : Moves p d t) (h0 : p t ≠ 0) :
    Moves (fun τ => accT n (m + 1) c e (Zat (p τ))) ((1 / 2 : ℝ) * (gradT n m c e (Zat (p t)) * d)) t := by
  have z1 := Z_deriv (n + 1) m (by omega) h h0
  have z2 := Z_deriv (n + 1) (m + 1) (by omega) h h0
  have z3 := Z_deriv (n + 1) (m + 2) (by omega) h h0
  obtain ⟨j, rfl⟩ := Nat.exists_eq_add_of_le hm
  rw [show two (m + 1) = 1 from if_neg (by omega)] at z2
  rw [show two (m + 2) = 1 from if_neg (by omega)] at z3
  have ff := fa_fa (m + 2 + j)
  push_cast at z1 z2 z3
  rw [show ((m : ℝ) + 2 + j + 1 - m) = j + 3 from by ring, show ((j : ℝ) + 3 + 1) = j + 4 from by ring, show ((m : ℝ) + 2 + j + 1 + m + 2) = 2 * m + j + 5 from by ring, show ((m : ℝ) + 2 + j + 1 + m + 3) = 2 * m + j + 6 from by ring] at z1
  rw [show ((m : ℝ) + 2 + j + 1 - (m + 1)) = j + 2 from by ring, show ((j : ℝ) + 2 + 1) = j + 3 from by ring, show ((m : ℝ) + 2 + j + 1 + (m + 1) + 2) = 2 * m + j + 6 from by ring, show ((m : ℝ) + 2 + j + 1 + (m + 1) + 3) = 2 * m + j + 7 from by ring] at z2
  rw [show ((m : ℝ) + 2 + j + 1 - (m + 2)) = j + 1 from by ring, show ((j : ℝ) + 1 + 1) = j + 2 from by ring, show ((m : ℝ) + 2 + j + 1 + (m + 2) + 2) = 2 * m + j + 7 from by ring, show ((m : ℝ) + 2 + j + 1 + (m + 2) + 3) = 2 * m + j + 8 from by ring] at z3
  unfold gradT sym
  unfold accT Zat
  push_cast
  rw [show two (m + 1) = 1 from if_neg (by omega)]
  rw [show ((m : ℝ) + 2 + j - (m + 1)) = j + 1 from by ring, show ((j : ℝ) + 1 + 1) = j + 2 from by ring, show ((m : ℝ) + 2 + j + (m + 1) + 2) = 2 * m + j + 5 from by ring,
    show ((m : ℝ) + 2 + j + (m + 1) + 3) = 2 * m + j + 6 from by ring, show ((m : ℝ) + 2 + j - m - 1) = j + 1 from by ring, show ((m : ℝ) + 2 + j - m) = j + 2 from by ring,
    show ((j : ℝ) + 2 + 1) = j + 3 from by ring, show ((j : ℝ) + 2 + 2) = j + 4 from by ring, show ((m : ℝ) + 2 + j + m + 3) = 2 * m + j + 5 from by ring,
    show ((m : ℝ) + 2 + j + m + 4) = 2 * m + j + 6 from by ring, show ((m : ℝ) + 2 + j + m + 5) = 2 * m + j + 7 from by ring, show ((m : ℝ) + 2 + j + m + 6) = 2 * m + j + 8 from by ring]
  have k1 : (0 : ℝ) ≤ j + 1 := by positivity
  have k2 : (0 : ℝ) ≤ j + 2 := by positivity
  have k3 : (0 : ℝ) ≤ j + 3 := by positivity
  have k4 : (0 : ℝ) ≤ j + 4 := by positivity
  have l5 : (0 : ℝ) ≤ 2 * m + j + 5 := by positivity
  have l6 : (0 : ℝ) ≤ 2 * m + j + 6 := by positivity
  have l7 : (0 : ℝ) ≤ 2 * m + j + 7 := by positivity
  have l8 : (0 : ℝ) ≤ 2 * m + j + 8 := by positivity
  rw [Real.sqrt_mul k3, Real.sqrt_mul l5, Real.sqrt_mul k3] at z1
  rw [Real.sqrt_mul k2, Real.sqrt_mul l6, Real.sqrt_mul k2] at z2
  rw [Real.sqrt_mul k1, Real.sqrt_mul l7, Real.sqrt_mul k1] at z3
  rw [Real.sqrt_mul k1 (j + 2), Real.sqrt_mul k1 (2 * m + j + 5), Real.sqrt_mul l5 (2 * m + j + 6),
    Real.sqrt_mul (mul_nonneg (mul_nonneg k1 k2) k3) (j + 4), Real.sqrt_mul (mul_nonneg k1 k2) (j + 3), Real.sqrt_mul k1 (j + 2),
    Real.sqrt_mul (mul_nonneg (mul_nonneg k1 k2) k3) (2 * m + j + 5), Real.sqrt_mul (mul_nonneg k1 k2) (j + 3), Real.sqrt_mul k1 (j + 2),
    Real.sqrt_mul (mul_nonneg (mul_nonneg k1 k2) l5) (2 * m + j + 6), Real.sqrt_mul (mul_nonneg k1 k2) (2 * m + j + 5), Real.sqrt_mul k1 (j + 2),
    Real.sqrt_mul (mul_nonneg (mul_nonneg k1 l5) l6) (2 * m + j + 7), Real.sqrt_mul (mul_nonneg k1 l5) (2 * m + j + 6), Real.sqrt_mul k1 (2 * m + j + 5),
    Real.sqrt_mul (mul_nonneg (mul_nonneg l5 l6) l7) (2 * m + j + 8), Real.sqrt_mul (mul_nonneg l5 l6) (2 * m + j + 7), Real.sqrt_mul l5 (2 * m + j + 6)]
  rw [← ff]
  rw [show m + 2 + j + 1 + 1 = m + 2 + j + 2 from rfl] at z1 z2 z3
  rw [show m + 1 + 1 = m + 2 from rfl] at z2 ⊢
  rw [show m + 2 + 1 = m + 3 from rfl, show m + 2 + 2 = m + 4 from rfl] at z3
  rw [show m + 1 + 2 = m + 3 from rfl] at z2 ⊢
  unfold hor at z1 z2 z3
  generalize Real.sqrt (j + 1) = s1 at *
  generalize Real.sqrt (j + 2) = s2 at *
  generalize Real.sqrt (j + 3) = s3 at *
  generalize Real.sqrt (j + 4) = s4 at *
  generalize Real.sqrt (2 * m + j + 5) = s5 at *
  generalize Real.sqrt (2 * m + j + 6) = s6 at *
  generalize Real.sqrt (2 * m + j + 7) = s7 at *
  generalize Real.sqrt (2 * m + j + 8) = s8 at *
  generalize two m = t2 at *
  generalize fa (m + 2 + j) = a at *
  generalize fa (m + 2 + j + 1) = b at *
  generalize hA : Z (m + 2 + j + 2) m (p t) = A at *
  generalize hB : Z (m + 2 + j + 2) (m + 1) (p t) = B at *
  generalize hC : Z (m + 2 + j + 2) (m + 2) (p t) = C at *
  generalize hD : Z (m + 2 + j + 2) (m + 3) (p t) = D at *
  generalize hE : Z (m + 2 + j + 2) (m + 4) (p t) = E at *
  refine ⟨?_, ?_, ?_⟩
  · refine ((((((re_deriv z1).const_mul (s1 * s2 * 1)).sub ((re_deriv z3).const_mul (s5 * s6))).const_mul c).add
      ((((im_deriv z1).const_mul (s1 * s2 * 1)).sub ((im_deriv z3).const_mul (s5 * s6))).const_mul e)).const_mul a).congr_deriv ?_
    simp [M3.mulVec_def, M3.smul_def]
    ring
  · refine ((((((im_deriv z1).const_mul (s1 * s2 * 1)).neg.sub ((im_deriv z3).const_mul (s5 * s6))).const_mul c).add
      ((((re_deriv z1).const_mul (s1 * s2 * 1)).add ((re_deriv z3).const_mul (s5 * s6))).const_mul e)).const_mul a).congr_deriv ?_
    simp [M3.mulVec_def, M3.smul_def]
    ring
  · refine ((((((re_deriv z2).const_mul (s1 * s5)).const_mul (-2)).const_mul c).add
      ((((im_deriv z2).const_mul (s1 * s5)).const_mul (-2)).const_mul e)).const_mul a).congr_deriv ?_
    simp [M3.mulVec_def, M3.smul_def]
    ring

/-- Terms of order one. -/
theorem term_hess1 (n : ℕ) (hm : 1 ≤ n) (c e : ℝ) {p : ℝ → V3} {d : V3} {t : ℝ} (h : Moves p d t) (h0 : p t ≠ 0) :
    Moves (fun τ => accT n 0 c e (Zat (p τ))) ((1 / 2 : ℝ) * (gradT1 n c e (Zat (p t)) * d)) t := by
  have z1 := Z_deriv_zero (n + 1) h h0
  have z2 := Z_deriv (n + 1) 0 (by omega) h h0
  have z3 := Z_deriv (n + 1) 1 (by omega) h h0
  rw [show two 0 = Real.sqrt 2 from if_pos rfl] at z2
  rw [show two 1 = 1 from if_neg (by omega)] at z3
  have ff := fa_fa n
  push_cast at z1 z2 z3
  rw [show ((n : ℝ) + 1 + 1) = n + 2 from by ring, show ((n : ℝ) + 1 + 2) = n + 3 from by ring] at z1
  rw [show ((n : ℝ) + 1 - 0) = n + 1 from by ring, show ((n : ℝ) + 1 + 1) = n + 2 from by ring, show ((n : ℝ) + 1 + 0 + 2) = n + 3 from by ring, show ((n : ℝ) + 1 + 0 + 3) = n + 4 from by ring] at z2
  rw [show ((n : ℝ) + 1 - 1) = n from by ring, show ((n : ℝ) + 1 + 1 + 2) = n + 4 from by ring, show ((n : ℝ) + 1 + 1 + 3) = n + 5 from by ring] at z3
  unfold gradT1 sym
  unfold accT Zat
  push_cast
  rw [show two 0 = Real.sqrt 2 from if_pos rfl]
  rw [show ((n : ℝ) - 0) = n from by ring, show ((n : ℝ) + 0 + 2) = n + 2 from by ring, show ((n : ℝ) + 0 + 3) = n + 3 from by ring]
  have k0 : (0 : ℝ) ≤ n := by positivity
  have k1 : (0 : ℝ) ≤ n + 1 := by positivity
  have k2 : (0 : ℝ) ≤ n + 2 := by positivity
  have k3 : (0 : ℝ) ≤ n + 3 := by positivity
  have k4 : (0 : ℝ) ≤ n + 4 := by positivity
  rw [Real.sqrt_mul k2, Real.sqrt_mul k2] at z1
  rw [Real.sqrt_mul k1, Real.sqrt_mul k3, Real.sqrt_mul k1] at z2
  rw [Real.sqrt_mul k0, Real.sqrt_mul k4, Real.sqrt_mul k0] at z3
  rw [Real.sqrt_mul k0 (n + 1), Real.sqrt_mul k0 (n + 2), Real.sqrt_mul k2 (n + 3),
    Real.sqrt_mul (mul_nonneg (mul_nonneg k0 k1) k2) (n + 2), Real.sqrt_mul (mul_nonneg k0 k1) (n + 2), Real.sqrt_mul k0 (n + 1),
    Real.sqrt_mul (mul_nonneg (mul_nonneg k0 k1) k2) (n + 3), Real.sqrt_mul (mul_nonneg k0 k1) (n + 2), Real.sqrt_mul k0 (n + 1),
    Real.sqrt_mul (mul_nonneg (mul_nonneg k0 k2) k3) (n + 4), Real.sqrt_mul (mul_nonneg k0 k2) (n + 3), Real.sqrt_mul k0 (n + 2),
    Real.sqrt_mul (mul_nonneg (mul_nonneg k2 k3) k4) (n + 5), Real.sqrt_mul (mul_nonneg k2 k3) (n + 4), Real.sqrt_mul k2 (n + 3)]
  rw [← ff]
  rw [show n + 1 + 1 = n + 2 from rfl] at z1 z2 z3
  simp only [div_eq_mul_inv] at z1 z2 z3 ⊢
  have hr : Real.sqrt 2 * (Real.sqrt 2)⁻¹ = 1 := mul_inv_cancel₀ (by positivity)
  have him := Z_zero_im (n + 2) (p t)
  unfold hor at z1 z2 z3
  generalize Real.sqrt 2 = r2 at *
  generalize Real.sqrt n = s0 at *
  generalize Real.sqrt (n + 1) = s1 at *
  generalize Real.sqrt (n + 2) = s2 at *
  generalize Real.sqrt (n + 3) = s3 at *
  generalize Real.sqrt (n + 4) = s4 at *
  generalize Real.sqrt (n + 5) = s5 at *
  generalize fa n = a at *
  generalize fa (n + 1) = b at *
  generalize Z (n + 2) 0 (p t) = A at *
  generalize Z (n + 2) 1 (p t) = B at *
  generalize Z (n + 2) 2 (p t) = C at *
  generalize Z (n + 2) 3 (p t) = D at *
  refine ⟨?_, ?_, ?_⟩
  · refine ((((((re_deriv z1).const_mul (s0 * s1 * r2)).sub ((re_deriv z3).const_mul (s2 * s3))).const_mul c).add
      ((((im_deriv z1).const_mul (s0 * s1 * r2)).sub ((im_deriv z3).const_mul (s2 * s3))).const_mul e)).const_mul a).congr_deriv ?_
    simp [M3.mulVec_def, M3.smul_def, him]
    linear_combination (-(a * b * c * s0 * s1 * s2 * s3 * B.re * d.x) - a * b * c * s0 * s1 * s2 * s3 * B.im * d.y) * hr
  · refine ((((((im_deriv z1).const_mul (s0 * s1 * r2)).neg.sub ((im_deriv z3).const_mul (s2 * s3))).const_mul c).add
      ((((re_deriv z1).const_mul (s0 * s1 * r2)).add ((re_deriv z3).const_mul (s2 * s3))).const_mul e)).const_mul a).congr_deriv ?_
    simp [M3.mulVec_def, M3.smul_def, him]
    linear_combination (-(a * b * e * s0 * s1 * s2 * s3 * B.re * d.x) - a * b * e * s0 * s1 * s2 * s3 * B.im * d.y) * hr
  · refine ((((((re_deriv z2).const_mul (s0 * s2)).const_mul (-2)).const_mul c).add
      ((((im_deriv z2).const_mul (s0 * s2)).const_mul (-2)).const_mul e)).const_mul a).congr_deriv ?_
    simp [M3.mulVec_def, M3.smul_def, him]
    ring

/-- Zonal terms. -/
theorem term_hess0 (n : ℕ) (c : ℝ) {p : ℝ → V3} {d : V3} {t : ℝ} (h : Moves p d t) (h0 : p t ≠ 0) :
    Moves (fun τ => accT0 n c (Zat (p τ))) ((1 / 2 : ℝ) * (gradT0 n c (Zat (p t)) * d)) t := by
  have z1 := Z_deriv_zero (n + 1) h h0
  have z2 := Z_deriv (n + 1) 0 (by omega) h h0
  rw [show two 0 = Real.sqrt 2 from if_pos rfl] at z2
  have ff := fa_fa n
  push_cast at z1 z2
  rw [show ((n : ℝ) + 1 + 1) = n + 2 from by ring, show ((n : ℝ) + 1 + 2) = n + 3 from by ring] at z1
  rw [show ((n : ℝ) + 1 - 0) = n + 1 from by ring, show ((n : ℝ) + 1 + 1) = n + 2 from by ring, show ((n : ℝ) + 1 + 0 + 2) = n + 3 from by ring, show ((n : ℝ) + 1 + 0 + 3) = n + 4 from by ring] at z2
  unfold gradT0 sym
  unfold accT0 Zat
  have k1 : (0 : ℝ) ≤ n + 1 := by positivity
  have k2 : (0 : ℝ) ≤ n + 2 := by positivity
  have k3 : (0 : ℝ) ≤ n + 3 := by positivity
  rw [Real.sqrt_mul k2, Real.sqrt_mul k2] at z1
  rw [Real.sqrt_mul k1, Real.sqrt_mul k3, Real.sqrt_mul k1] at z2
  dsimp only
  rw [Real.sqrt_mul k1 (n + 1), Real.sqrt_mul k1 (n + 2),
    Real.sqrt_mul (mul_nonneg (mul_nonneg k1 k2) k1) (n + 2), Real.sqrt_mul (mul_nonneg k1 k2) (n + 1), Real.sqrt_mul k1 (n + 2),
    Real.sqrt_mul (mul_nonneg (mul_nonneg k1 k1) k2) (n + 3), Real.sqrt_mul (mul_nonneg k1 k1) (n + 2), Real.sqrt_mul k1 (n + 1),
    Real.sqrt_mul (mul_nonneg (mul_nonneg k1 k2) k3) (n + 4), Real.sqrt_mul (mul_nonneg k1 k2) (n + 3), Real.sqrt_mul k1 (n + 2)]
  rw [← ff]
  rw [show n + 1 + 1 = n + 2 from rfl] at z1 z2
  simp only [div_eq_mul_inv] at z1 z2 ⊢
  have hr : Real.sqrt 2 * (Real.sqrt 2)⁻¹ = 1 := mul_inv_cancel₀ (by positivity)
  have him := Z_zero_im (n + 2) (p t)
  unfold hor at z1 z2
  generalize Real.sqrt 2 = r2 at *
  generalize Real.sqrt (n + 1) = s1 at *
  generalize Real.sqrt (n + 2) = s2 at *
  generalize Real.sqrt (n + 3) = s3 at *
  generalize Real.sqrt (n + 4) = s4 at *
  generalize fa n = a at *
  generalize fa (n + 1) = b at *
  generalize Z (n + 2) 0 (p t) = A at *
  generalize Z (n + 2) 1 (p t) = B at *
  generalize Z (n + 2) 2 (p t) = C at *
  refine ⟨?_, ?_, ?_⟩
  · refine (((((re_deriv z2).const_mul (s1 * s2 * r2⁻¹)).const_mul (-2)).const_mul c).const_mul a).congr_deriv ?_
    simp [M3.mulVec_def, M3.smul_def, him]
    linear_combination (-(a * b * c * s1 * s2 * s1 * s2 * A.re * d.x)) * hr
  · refine (((((im_deriv z2).const_mul (s1 * s2 * r2⁻¹)).const_mul (-2)).const_mul c).const_mul a).congr_deriv ?_
    simp [M3.mulVec_def, M3.smul_def, him]
    linear_combination (-(a * b * c * s1 * s2 * s1 * s2 * A.re * d.y)) * hr
  · refine (((((re_deriv z1).const_mul (s1 * s1)).const_mul (-2)).const_mul c).const_mul a).congr_deriv ?_
    simp [M3.mulVec_def, M3.smul_def, him]
    ring

end Verif.Harmonic
