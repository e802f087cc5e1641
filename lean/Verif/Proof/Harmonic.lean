import Verif.Spec.Harmonic
import Verif.Proof.LegendreNorm
import Mathlib.Analysis.Calculus.Deriv.Polynomial
import Mathlib.Analysis.Calculus.Deriv.Inv
import Mathlib.Analysis.SpecialFunctions.Sqrt
import Mathlib.Analysis.Complex.RealDeriv
/-
Solid harmonics in Cartesian coordinates, and their derivatives.
-/
namespace Verif.Harmonic
open Verif Verif.Legendre

/-- x + i y. -/
noncomputable def hor (v : V3) : ℂ := ⟨v.x, v.y⟩

/-- The solid harmonic, not normalised. -/
noncomputable def V (n m : ℕ) (v : V3) : ℂ := hor v ^ m * (((1 / v.norm) ^ (n + m + 1) * (q n m).eval (v.z / v.norm) : ℝ) : ℂ)

theorem norm_pos {v : V3} (h : v ≠ 0) : 0 < v.norm := by
  unfold V3.norm V3.dot
  apply Real.sqrt_pos.mpr
  by_contra hn
  apply h
  have hx : v.x = 0 := by nlinarith [mul_self_nonneg v.x, mul_self_nonneg v.y, mul_self_nonneg v.z]
  have hy : v.y = 0 := by nlinarith [mul_self_nonneg v.x, mul_self_nonneg v.y, mul_self_nonneg v.z]
  have hz : v.z = 0 := by nlinarith [mul_self_nonneg v.x, mul_self_nonneg v.y, mul_self_nonneg v.z]
  exact V3.ext hx hy hz

theorem norm_sq (v : V3) : v.norm ^ 2 = v.x ^ 2 + v.y ^ 2 + v.z ^ 2 := by
  unfold V3.norm V3.dot
  rw [Real.sq_sqrt (by nlinarith [mul_self_nonneg v.x, mul_self_nonneg v.y, mul_self_nonneg v.z])]
  ring

/-- The radius along a motion. -/
theorem norm_deriv {p : ℝ → V3} {d : V3} {t : ℝ} (h : Moves p d t) (h0 : p t ≠ 0) : HasDerivAt (fun τ => (p τ).norm) ((p t).dot d / (p t).norm) t := by
  obtain ⟨hx, hy, hz⟩ := h
  have hp := norm_pos h0
  have h1 := (((hx.mul hx).add (hy.mul hy)).add (hz.mul hz)).sqrt (by
    have := norm_sq (p t)
    have h2 : 0 < (p t).norm ^ 2 := by positivity
    intro h
    simp only [Pi.add_apply, Pi.mul_apply] at h
    nlinarith)
  refine h1.congr_deriv ?_
  show _ = (p t).dot d / Real.sqrt ((p t).dot (p t))
  unfold V3.dot
  simp only [Pi.add_apply, Pi.mul_apply]
  rw [← mul_div_mul_left _ (Real.sqrt _) (two_ne_zero (α := ℝ))]
  congr 1
  ring

theorem hor_deriv {p : ℝ → V3} {d : V3} {t : ℝ} (h : Moves p d t) : HasDerivAt (fun τ => hor (p τ)) (hor d) t := by
  obtain ⟨hx, hy, -⟩ := h
  have := hx.ofReal_comp.add (hy.ofReal_comp.mul_const Complex.I)
  have e : (fun τ => hor (p τ)) = ((fun y => (((p y).x : ℝ) : ℂ)) + fun y => (((p y).y : ℝ) : ℂ) * Complex.I) := by
    funext τ
    exact Complex.mk_eq_add_mul_I _ _
  rw [e]
  refine this.congr_deriv ?_
  exact (Complex.mk_eq_add_mul_I _ _).symm

theorem hor_conj (v : V3) : (starRingEnd ℂ) (hor v) * hor v = ((v.x ^ 2 + v.y ^ 2 : ℝ) : ℂ) := by
  have : hor v = (v.x : ℂ) + v.y * Complex.I := Complex.mk_eq_add_mul_I _ _
  rw [this, map_add, map_mul, Complex.conj_ofReal, Complex.conj_ofReal, Complex.conj_I]
  push_cast
  linear_combination (-(v.y : ℂ) ^ 2) * Complex.I_sq

/-- The raw derivative. -/
theorem V_deriv_raw (n m : ℕ) {p : ℝ → V3} {d : V3} {t : ℝ} (h : Moves p d t) (h0 : p t ≠ 0) :
    HasDerivAt (fun τ => V n m (p τ))
      ((m * hor (p t) ^ (m - 1) * hor d) * (((1 / (p t).norm) ^ (n + m + 1) * (q n m).eval ((p t).z / (p t).norm) : ℝ) : ℂ) +
        hor (p t) ^ m * ((-(n + m + 1) * (1 / (p t).norm) ^ (n + m + 2) * ((p t).dot d / (p t).norm) * (q n m).eval ((p t).z / (p t).norm) +
          (1 / (p t).norm) ^ (n + m + 1) * ((q n (m + 1)).eval ((p t).z / (p t).norm) * (d.z / (p t).norm - (p t).z * ((p t).dot d / (p t).norm) / (p t).norm ^ 2)) : ℝ) : ℂ)) t := by
  have hp := norm_pos h0
  have hw := (hor_deriv h).pow m
  have hr := norm_deriv h h0
  have hi : HasDerivAt (fun τ => (1 / (p τ).norm) ^ (n + m + 1)) (-(n + m + 1) * (1 / (p t).norm) ^ (n + m + 2) * ((p t).dot d / (p t).norm)) t := by
    have := (hr.inv hp.ne').pow (n + m + 1)
    have e : (fun τ => (1 / (p τ).norm) ^ (n + m + 1)) = (fun τ => (p τ).norm)⁻¹ ^ (n + m + 1) := by
      funext τ
      simp
    rw [e]
    refine this.congr_deriv ?_
    simp only [Nat.add_sub_cancel, Pi.inv_apply]
    push_cast
    rw [pow_add (1 / (p t).norm) (n + m) 2]
    field_simp
  have hs : HasDerivAt (fun τ => (p τ).z / (p τ).norm) (d.z / (p t).norm - (p t).z * ((p t).dot d / (p t).norm) / (p t).norm ^ 2) t := by
    refine (h.2.2.div hr hp.ne').congr_deriv ?_
    field_simp
  have hq := ((q n m).hasDerivAt ((p t).z / (p t).norm)).comp t hs
  rw [← q_succ] at hq
  exact hw.mul (hi.mul hq).ofReal_comp

theorem pow_inv (r : ℝ) (k : ℕ) : (1 / r) ^ (k + 1) = (1 / r) ^ k * (1 / r) := pow_succ _ _

/-- The derivative of a solid harmonic of order m ≥ 1: solid harmonics of the next degree. -/
theorem V_deriv (n m : ℕ) {p : ℝ → V3} {d : V3} {t : ℝ} (h : Moves p d t) (h0 : p t ≠ 0) :
    HasDerivAt (fun τ => V n (m + 1) (p τ))
      (1 / 2 * hor d * (((n - m) * (n - m + 1) : ℝ) : ℂ) * V (n + 1) m (p t) - 1 / 2 * (starRingEnd ℂ) (hor d) * V (n + 1) (m + 2) (p t)
        - d.z * ((n - m : ℝ) : ℂ) * V (n + 1) (m + 1) (p t)) t := by
  refine (V_deriv_raw n (m + 1) h h0).congr_deriv ?_
  have hp := norm_pos h0
  unfold V
  have u1 := ev_up n (m + 1) ((p t).z / (p t).norm)
  have u2 := ev_next n (m + 1) ((p t).z / (p t).norm)
  have u3 := ev_down n m ((p t).z / (p t).norm)
  have hc := hor_conj (p t)
  have hn := norm_sq (p t)
  have hdot : (((p t).x * d.x + (p t).y * d.y : ℝ) : ℂ) = 1 / 2 * ((starRingEnd ℂ) (hor (p t)) * hor d + hor (p t) * (starRingEnd ℂ) (hor d)) := by
    apply Complex.ext <;> simp [hor] <;> ring
  rw [show n + 1 + (m + 2) + 1 = n + m + 2 + 1 + 1 from by ring, show n + 1 + (m + 1) + 1 = n + m + 2 + 1 from by ring, show n + 1 + m + 1 = n + m + 2 from by ring,
    show n + (m + 1) + 1 = n + m + 2 from by ring, show n + (m + 1) + 2 = n + m + 2 + 1 from by ring]
  simp only [pow_inv _ (n + m + 2 + 1), pow_inv _ (n + m + 2)]
  unfold V3.dot
  generalize hr : (p t).norm = r at *
  generalize hs : (p t).z / r = s at *
  have hz : (p t).z = s * r := by rw [← hs]; field_simp
  rw [hz] at hn ⊢
  generalize (p t).x * d.x + (p t).y * d.y = e at *
  have hxy : (p t).x ^ 2 + (p t).y ^ 2 = r ^ 2 * (1 - s ^ 2) := by linear_combination -hn
  rw [hxy] at hc
  generalize hor (p t) = w at *
  generalize (starRingEnd ℂ) w = w' at *
  generalize hor d = f at *
  generalize (starRingEnd ℂ) f = f' at *
  generalize d.z = dz at *
  generalize Polynomial.eval s (q (n + 1) (m + 2)) = A at *
  generalize Polynomial.eval s (q (n + 1) (m + 1)) = B at *
  generalize Polynomial.eval s (q (n + 1) m) = E at *
  generalize Polynomial.eval s (q n (m + 1)) = G at *
  generalize Polynomial.eval s (q n (m + 1 + 1)) = H at *
  have hg : (1 / r) * r = 1 := by field_simp
  have hdiv : ∀ a : ℝ, a / r = a * (1 / r) := fun a => by ring
  generalize hgg : 1 / r = g at *
  have e1 : s * r * ((e + s * r * dz) / r) / r ^ 2 = s * (e + s * r * dz) * g ^ 2 := by rw [← hgg]; field_simp
  rw [e1, hdiv, hdiv]
  generalize g ^ (n + m + 2) = k
  have U1 : ((A : ℝ) : ℂ) = ((n + (m + 1) + 1 : ℝ) : ℂ) * G + s * H := by rw [u1]; push_cast; ring
  have U2 : ((n : ℂ) - (m + 1) + 1) * B = (n + (m + 1) + 1) * (s * G) - (1 - s ^ 2) * H := by
    have := congrArg (fun x : ℝ => (x : ℂ)) u2
    push_cast at this
    exact this
  have U3 : ((n : ℂ) - m) * (n - m + 1) * E = 2 * (m + 1) * G - (1 - s ^ 2) * A := by
    have := congrArg (fun x : ℝ => (x : ℂ)) u3
    push_cast at this
    exact this
  have HG : (g : ℂ) * r = 1 := by exact_mod_cast hg
  have HC : w' * w = (r : ℂ) ^ 2 * (1 - (s : ℂ) ^ 2) := by rw [hc]; push_cast; ring
  rw [Nat.add_sub_cancel, pow_succ w (m + 1), pow_succ w m]
  push_cast
  push_cast at hdot U1
  generalize w ^ m = W at *
  generalize (A : ℂ) = A' at *
  generalize (B : ℂ) = B' at *
  generalize (E : ℂ) = E' at *
  generalize (G : ℂ) = G' at *
  generalize (H : ℂ) = H' at *
  generalize (g : ℂ) = g' at *
  generalize (r : ℂ) = r' at *
  generalize (s : ℂ) = s' at *
  generalize (k : ℂ) = k' at *
  generalize (e : ℂ) = e' at *
  generalize (dz : ℂ) = z' at *
  subst U1
  rw [hdot]
  linear_combination (W * w * k' * z' * g') * U2 + (-(W * w * k' * z' * g') * ((n + m + 2) * s' * G' + s' ^ 2 * H') -
      1 / 2 * W * f * k' * ((n + (m + 1) + 1) * G' + s' * H') * (1 - s' ^ 2) * (g' * r' + 1)) * HG - 1 / 2 * f * W * k' * U3 -
    1 / 2 * W * f * k' * g' ^ 2 * ((n + (m + 1) + 1) * G' + s' * H') * HC

/-- The derivative of a zonal solid harmonic. -/
theorem V_deriv_zero (n : ℕ) {p : ℝ → V3} {d : V3} {t : ℝ} (h : Moves p d t) (h0 : p t ≠ 0) :
    HasDerivAt (fun τ => V n 0 (p τ))
      (-(1 / 2) * hor d * (starRingEnd ℂ) (V (n + 1) 1 (p t)) - 1 / 2 * (starRingEnd ℂ) (hor d) * V (n + 1) 1 (p t)
        - d.z * ((n + 1 : ℝ) : ℂ) * V (n + 1) 0 (p t)) t := by
  refine (V_deriv_raw n 0 h h0).congr_deriv ?_
  have hp := norm_pos h0
  unfold V
  have u1 := ev_up n 0 ((p t).z / (p t).norm)
  have u2 := ev_next n 0 ((p t).z / (p t).norm)
  have hdot : (((p t).x * d.x + (p t).y * d.y : ℝ) : ℂ) = 1 / 2 * ((starRingEnd ℂ) (hor (p t)) * hor d + hor (p t) * (starRingEnd ℂ) (hor d)) := by
    apply Complex.ext <;> simp [hor] <;> ring
  rw [map_mul, Complex.conj_ofReal, map_pow]
  rw [show n + 1 + 1 + 1 = n + 1 + 1 + 1 from by ring, show n + 1 + 0 + 1 = n + 1 + 1 from by ring, show n + 0 + 1 = n + 1 from by ring, show n + 0 + 2 = n + 1 + 1 from by ring]
  simp only [pow_inv _ (n + 1 + 1), pow_inv _ (n + 1), pow_zero, pow_one]
  unfold V3.dot
  generalize hr : (p t).norm = r at *
  generalize hs : (p t).z / r = s at *
  have hz : (p t).z = s * r := by rw [← hs]; field_simp
  rw [hz]
  generalize (p t).x * d.x + (p t).y * d.y = e at *
  generalize hor (p t) = w at *
  generalize (starRingEnd ℂ) w = w' at *
  generalize hor d = f at *
  generalize (starRingEnd ℂ) f = f' at *
  generalize d.z = dz at *
  rw [show (0 + 1) = 1 from rfl] at u1 u2 ⊢
  generalize Polynomial.eval s (q (n + 1) 1) = A at *
  generalize Polynomial.eval s (q (n + 1) 0) = B at *
  generalize Polynomial.eval s (q n 0) = G at *
  generalize Polynomial.eval s (q n 1) = H at *
  have hg : (1 / r) * r = 1 := by field_simp
  have hdiv : ∀ a : ℝ, a / r = a * (1 / r) := fun a => by ring
  generalize hgg : 1 / r = g at *
  have e1 : s * r * ((e + s * r * dz) / r) / r ^ 2 = s * (e + s * r * dz) * g ^ 2 := by rw [← hgg]; field_simp
  rw [e1, hdiv, hdiv]
  generalize g ^ (n + 1) = k
  have U1 : ((A : ℝ) : ℂ) = ((n + 1 : ℝ) : ℂ) * G + s * H := by rw [u1]; push_cast; ring
  have U2 : ((n : ℂ) + 1) * B = (n + 1) * (s * G) - (1 - s ^ 2) * H := by
    have := congrArg (fun x : ℝ => (x : ℂ)) u2
    push_cast at this
    linear_combination this
  have HG : (g : ℂ) * r = 1 := by exact_mod_cast hg
  push_cast
  push_cast at hdot U1
  generalize (A : ℂ) = A' at *
  generalize (B : ℂ) = B' at *
  generalize (G : ℂ) = G' at *
  generalize (H : ℂ) = H' at *
  generalize (g : ℂ) = g' at *
  generalize (r : ℂ) = r' at *
  generalize (s : ℂ) = s' at *
  generalize (k : ℂ) = k' at *
  generalize (e : ℂ) = e' at *
  generalize (dz : ℂ) = z' at *
  subst U1
  rw [hdot]
  linear_combination (k' * z' * g') * U2 + (-(k' * z' * g') * ((n + 1) * s' * G' + s' ^ 2 * H')) * HG

/-- The normalised solid harmonic. -/
noncomputable def Z (n m : ℕ) (v : V3) : ℂ := (N n m : ℂ) * V n m v

/-- cos mλ and sin mλ times the power of the distance from the axis. -/
theorem hor_pow (v : V3) (m : ℕ) : hor v ^ m = (((Real.sqrt (v.x ^ 2 + v.y ^ 2)) ^ m : ℝ) : ℂ) * (Real.cos (m * longitude v) + Real.sin (m * longitude v) * Complex.I) := by
  have h1 : hor v = ((Real.sqrt (v.x ^ 2 + v.y ^ 2) : ℝ) : ℂ) * Complex.exp (longitude v * Complex.I) := by
    have := Complex.norm_mul_exp_arg_mul_I (hor v)
    rw [← this]
    congr 2
    · rw [Complex.norm_def, Complex.normSq_apply]
      unfold hor
      simp only
      rw [pow_two, pow_two]
  rw [h1, mul_pow, ← Complex.exp_nat_mul, ← mul_assoc, Complex.ofReal_pow]
  rw [show ((m : ℂ) * (longitude v : ℂ)) = ((m * longitude v : ℝ) : ℂ) from by push_cast; ring, Complex.exp_mul_I, Complex.ofReal_cos, Complex.ofReal_sin]

/-- A term of the potential in terms of the solid harmonic at the position divided by the radius. -/
theorem harmonic_eq {GM Re : ℝ} (hRe : 0 < Re) (n m : ℕ) (C S : ℝ) {v : V3} (hv : v ≠ 0) :
    harmonic GM Re n m C S v = GM / Re * (C * (Z n m ⟨v.x / Re, v.y / Re, v.z / Re⟩).re + S * (Z n m ⟨v.x / Re, v.y / Re, v.z / Re⟩).im) := by
  have hp := norm_pos hv
  have hn := norm_sq v
  have hnorm : (⟨v.x / Re, v.y / Re, v.z / Re⟩ : V3).norm = v.norm / Re := by
    apply sq_inj (show 0 ≤ V3.norm _ from Real.sqrt_nonneg _) (by positivity)
    rw [norm_sq]
    simp only [div_pow]
    rw [norm_sq]
    field_simp
  have hlon : longitude ⟨v.x / Re, v.y / Re, v.z / Re⟩ = longitude v := by
    unfold longitude
    have : (⟨v.x / Re, v.y / Re⟩ : ℂ) = ((1 / Re : ℝ) : ℂ) * ⟨v.x, v.y⟩ := by
      apply Complex.ext <;> simp <;> ring
    simp only
    rw [this, Complex.arg_real_mul _ (by positivity)]
  have hrho : Real.sqrt ((v.x / Re) ^ 2 + (v.y / Re) ^ 2) = v.norm / Re * Real.sqrt (1 - (v.z / v.norm) ^ 2) := by
    apply sq_inj (Real.sqrt_nonneg _) (by positivity)
    have h1 : 0 ≤ 1 - (v.z / v.norm) ^ 2 := by
      rw [sub_nonneg, div_pow, div_le_one (by positivity), hn]
      nlinarith [sq_nonneg v.x, sq_nonneg v.y]
    rw [mul_pow, Real.sq_sqrt (by positivity), Real.sq_sqrt h1]
    field_simp
    linarith
  unfold harmonic Z V
  rw [hor_pow, hnorm, hlon]
  simp only
  rw [hrho, Pbar_eq]
  have hz : v.z / Re / (v.norm / Re) = v.z / v.norm := by field_simp
  rw [hz]
  unfold Q
  generalize Polynomial.eval (v.z / v.norm) (q n m) = E
  generalize Real.sqrt (1 - (v.z / v.norm) ^ 2) = k
  generalize Real.cos (m * longitude v) = c
  generalize Real.sin (m * longitude v) = d
  generalize v.norm = r at *
  have e1 : ∀ F : ℝ, ((N n m : ℝ) : ℂ) * ((((r / Re * k) ^ m : ℝ) : ℂ) * ((c : ℂ) + d * Complex.I) * ((F : ℝ) : ℂ)) = ((N n m * (r / Re * k) ^ m * F * c : ℝ) : ℂ) + ((N n m * (r / Re * k) ^ m * F * d : ℝ) : ℂ) * Complex.I := by
    intro F; push_cast; ring
  rw [e1, ← Complex.mk_eq_add_mul_I]
  simp only
  have e2 : (1 / (r / Re)) ^ (n + m + 1) * (r / Re * k) ^ m = k ^ m * (Re / r) ^ n * (Re / r) := by
    rw [show 1 / (r / Re) = Re / r from by field_simp, mul_pow, pow_succ, pow_add]
    have : (Re / r) ^ m * (r / Re) ^ m = 1 := by rw [← mul_pow]; field_simp; simp
    linear_combination ((Re / r) ^ n * (Re / r) * k ^ m) * this
  have e3 : GM / r = GM / Re * (Re / r) := by field_simp
  rw [e3]
  linear_combination (-(GM / Re) * N n m * E * (C * c + S * d)) * e2

end Verif.Harmonic
