import Verif.Proof.RoundedQuat
import Verif.Props.EarthRot
/-
Rounding errors of the rotation from GCRS to ITRS.
-/
namespace Verif.RoundedGcrs
open Verif Verif.Rounding Verif.RoundedCip

/-! ### Half angles -/

theorem trig_half {fl : Rounded.Arith} {fsin fcos : ℝ → ℝ} (hf : Faithful fl) (hT : Trig fsin fcos) {e x' x : ℝ} (h : Near e x' x) (hx : |x'| ≤ 20) :
    (|fcos (fl (x' / 2)) - Real.cos (x / 2)| ≤ e / 2 + 12 * u ∧ |fsin (fl (x' / 2)) - Real.sin (x / 2)| ≤ e / 2 + 12 * u) ∨
    (|fcos (fl (x' / 2)) + Real.cos (x / 2)| ≤ e / 2 + 12 * u ∧ |fsin (fl (x' / 2)) + Real.sin (x / 2)| ≤ e / 2 + 12 * u) := by
  have hu := u_pos
  obtain ⟨k, hk⟩ := h
  have h1 : |fl (x' / 2) - x' / 2| ≤ 10 * u := by
    refine (hf.rel _).trans ?_
    rw [abs_div]
    norm_num
    nlinarith
  have h2 : |fl (x' / 2) - (x / 2 + k * Real.pi)| ≤ e / 2 + 10 * u := by
    rw [show fl (x' / 2) - (x / 2 + k * Real.pi) = (fl (x' / 2) - x' / 2) + (x' - x - 2 * Real.pi * k) / 2 by ring]
    refine (abs_add_le _ _).trans ?_
    rw [abs_div]
    norm_num
    linarith
  generalize fl (x' / 2) = y at *
  have hc : |fcos y - Real.cos (x / 2 + k * Real.pi)| ≤ e / 2 + 12 * u := by
    rw [show fcos y - Real.cos (x / 2 + k * Real.pi) = (fcos y - Real.cos y) + (Real.cos y - Real.cos (x / 2 + k * Real.pi)) by ring]
    refine (abs_add_le _ _).trans ?_
    have := Real.abs_cos_sub_cos_le y (x / 2 + k * Real.pi)
    have := hT.cos y
    linarith
  have hs : |fsin y - Real.sin (x / 2 + k * Real.pi)| ≤ e / 2 + 12 * u := by
    rw [show fsin y - Real.sin (x / 2 + k * Real.pi) = (fsin y - Real.sin y) + (Real.sin y - Real.sin (x / 2 + k * Real.pi)) by ring]
    refine (abs_add_le _ _).trans ?_
    have := Real.abs_sin_sub_sin_le y (x / 2 + k * Real.pi)
    have := hT.sin y
    linarith
  rw [Real.cos_add_int_mul_pi] at hc
  rw [Real.sin_add_int_mul_pi] at hs
  rcases Int.even_or_odd k with hk | hk
  · rw [hk.neg_one_zpow, one_mul] at hc hs
    exact .inl ⟨hc, hs⟩
  · rw [hk.neg_one_zpow, neg_one_mul, sub_neg_eq_add] at hc hs
    exact .inr ⟨hc, hs⟩

theorem two_comp {η a b : ℝ} (ha : |a| ≤ η) (hb : |b| ≤ η) : a ^ 2 + b ^ 2 ≤ (1.5 * η) ^ 2 := by
  have h0 : 0 ≤ η := (abs_nonneg _).trans ha
  have h1 := sq_le_sq' (by linarith [(abs_le.mp ha).1]) (abs_le.mp ha).2
  have h2 := sq_le_sq' (by linarith [(abs_le.mp hb).1]) (abs_le.mp hb).2
  nlinarith

theorem unit_norm {q : Quat} (h : Quat.Unit q) : ‖toH q‖ = 1 := by
  have h1 := norm_sq (toH q)
  have h2 : (toH q).re ^ 2 + (toH q).imI ^ 2 + (toH q).imJ ^ 2 + (toH q).imK ^ 2 = 1 := by
    show q.w ^ 2 + q.x ^ 2 + q.y ^ 2 + q.z ^ 2 = 1
    have : q.sqNorm = 1 := h
    unfold Quat.sqNorm at this
    linarith
  rw [h2] at h1
  nlinarith [norm_nonneg (toH q)]

theorem opp_norm {q : Quat} (h : Quat.Unit q) : ‖toH (opp q)‖ = 1 := by rw [toH_opp, norm_neg, unit_norm h]

section
variable {fl : Rounded.Arith} {fsin fcos : ℝ → ℝ} (hf : Faithful fl) (hT : Trig fsin fcos) {e x' x : ℝ} (h : Near e x' x) (hx : |x'| ≤ 20)
include hf hT h hx

theorem near_e0 : 0 ≤ e := by
  obtain ⟨k, hk⟩ := h
  exact (abs_nonneg _).trans hk

theorem near_X : QNear (0.75 * e + 18 * u) (aaX fl fsin fcos x') (Quat.aaX x) := by
  have hu := u_pos
  have he := near_e0 hf hT h hx
  have key := trig_half hf hT h hx
  have b : (0 : ℝ) ≤ 0.75 * e + 18 * u := by linarith
  rcases key with ⟨k1, k2⟩ | ⟨k1, k2⟩
  · refine .inl ⟨norm_le b ?_, unit_norm (Quat.unit_X x)⟩
    show (fcos (fl (x' / 2)) - Real.cos (x / 2)) ^ 2 + (fsin (fl (x' / 2)) - Real.sin (x / 2)) ^ 2 + (0 - 0) ^ 2 + (0 - 0) ^ 2 ≤ _
    have := two_comp k1 k2
    rw [show 1.5 * (e / 2 + 12 * u) = 0.75 * e + 18 * u by ring] at this
    linarith
  · refine .inr ⟨norm_le b ?_, opp_norm (Quat.unit_X x)⟩
    show (fcos (fl (x' / 2)) - -Real.cos (x / 2)) ^ 2 + (fsin (fl (x' / 2)) - -Real.sin (x / 2)) ^ 2 + (0 - -0) ^ 2 + (0 - -0) ^ 2 ≤ _
    simp only [sub_neg_eq_add]
    have := two_comp k1 k2
    rw [show 1.5 * (e / 2 + 12 * u) = 0.75 * e + 18 * u by ring] at this
    linarith

theorem near_Y : QNear (0.75 * e + 18 * u) (aaY fl fsin fcos x') (Quat.aaY x) := by
  have hu := u_pos
  have he := near_e0 hf hT h hx
  have key := trig_half hf hT h hx
  have b : (0 : ℝ) ≤ 0.75 * e + 18 * u := by linarith
  rcases key with ⟨k1, k2⟩ | ⟨k1, k2⟩
  · refine .inl ⟨norm_le b ?_, unit_norm (Quat.unit_Y x)⟩
    show (fcos (fl (x' / 2)) - Real.cos (x / 2)) ^ 2 + (0 - 0) ^ 2 + (fsin (fl (x' / 2)) - Real.sin (x / 2)) ^ 2 + (0 - 0) ^ 2 ≤ _
    have := two_comp k1 k2
    rw [show 1.5 * (e / 2 + 12 * u) = 0.75 * e + 18 * u by ring] at this
    linarith
  · refine .inr ⟨norm_le b ?_, opp_norm (Quat.unit_Y x)⟩
    show (fcos (fl (x' / 2)) - -Real.cos (x / 2)) ^ 2 + (0 - -0) ^ 2 + (fsin (fl (x' / 2)) - -Real.sin (x / 2)) ^ 2 + (0 - -0) ^ 2 ≤ _
    simp only [sub_neg_eq_add]
    have := two_comp k1 k2
    rw [show 1.5 * (e / 2 + 12 * u) = 0.75 * e + 18 * u by ring] at this
    linarith

theorem near_Z : QNear (0.75 * e + 18 * u) (aaZ fl fsin fcos x') (Quat.aaZ x) := by
  have hu := u_pos
  have he := near_e0 hf hT h hx
  have key := trig_half hf hT h hx
  have b : (0 : ℝ) ≤ 0.75 * e + 18 * u := by linarith
  rcases key with ⟨k1, k2⟩ | ⟨k1, k2⟩
  · refine .inl ⟨norm_le b ?_, unit_norm (Quat.unit_Z x)⟩
    show (fcos (fl (x' / 2)) - Real.cos (x / 2)) ^ 2 + (0 - 0) ^ 2 + (0 - 0) ^ 2 + (fsin (fl (x' / 2)) - Real.sin (x / 2)) ^ 2 ≤ _
    have := two_comp k1 k2
    rw [show 1.5 * (e / 2 + 12 * u) = 0.75 * e + 18 * u by ring] at this
    linarith
  · refine .inr ⟨norm_le b ?_, opp_norm (Quat.unit_Z x)⟩
    show (fcos (fl (x' / 2)) - -Real.cos (x / 2)) ^ 2 + (0 - -0) ^ 2 + (0 - -0) ^ 2 + (fsin (fl (x' / 2)) - -Real.sin (x / 2)) ^ 2 ≤ _
    simp only [sub_neg_eq_add]
    have := two_comp k1 k2
    rw [show 1.5 * (e / 2 + 12 * u) = 0.75 * e + 18 * u by ring] at this
    linarith

end

/-! ### The angles of the pole -/

theorem sqrt_rel {v V η : ℝ} (hV : 0 ≤ V) (hv : 0 ≤ v) (h : |v - V| ≤ η * V) : |Real.sqrt v - Real.sqrt V| ≤ η * Real.sqrt V := by
  rcases eq_or_lt_of_le hV with h0 | h0
  · subst h0
    rw [mul_zero, sub_zero] at h
    have : v = 0 := abs_eq_zero.mp (le_antisymm h (abs_nonneg _))
    subst this
    simp
  · have hs : 0 < Real.sqrt V := Real.sqrt_pos.mpr h0
    have e1 : v - V = (Real.sqrt v - Real.sqrt V) * (Real.sqrt v + Real.sqrt V) := by
      nlinarith [Real.mul_self_sqrt hV, Real.mul_self_sqrt hv]
    have e2 : η * V = η * Real.sqrt V * Real.sqrt V := by rw [mul_assoc, Real.mul_self_sqrt hV]
    rw [e1, e2, abs_mul, abs_of_nonneg (by have := Real.sqrt_nonneg v; linarith : 0 ≤ Real.sqrt v + Real.sqrt V)] at h
    have h3 : |Real.sqrt v - Real.sqrt V| * Real.sqrt V ≤ |Real.sqrt v - Real.sqrt V| * (Real.sqrt v + Real.sqrt V) :=
      mul_le_mul_of_nonneg_left (by linarith [Real.sqrt_nonneg v]) (abs_nonneg _)
    exact le_of_mul_le_mul_right (h3.trans h) hs

theorem abs_arctan_sub (a b : ℝ) : |Real.arctan a - Real.arctan b| ≤ |a - b| := by
  have h := Convex.norm_image_sub_le_of_norm_hasDerivWithin_le (f := Real.arctan) (f' := fun x => 1 / (1 + x ^ 2)) (s := Set.univ) (C := 1)
    (x := b) (y := a) (fun x _ => (Real.hasDerivAt_arctan x).hasDerivWithinAt) (fun x _ => by
      rw [Real.norm_eq_abs, abs_of_nonneg (by positivity), div_le_one (by positivity)]
      nlinarith [sq_nonneg x]) convex_univ (Set.mem_univ _) (Set.mem_univ _)
  simpa [Real.norm_eq_abs] using h

theorem spherical_round {fl : Rounded.Arith} {fatan : ℝ → ℝ} {fatan2 : ℝ → ℝ → ℝ} (hf : Faithful fl) (hI : InverseTrig fatan fatan2) {X Y : ℝ} (hX : |X| ≤ 0.15)
    (hY : |Y| ≤ 0.15) : ∃ d e, EarthRot.spherical X Y = some (d, e) ∧ |(spherical fl fatan fatan2 X Y).1 - d| ≤ 4 * u ∧
      Near (4 * u) (spherical fl fatan fatan2 X Y).2 e ∧ |(spherical fl fatan fatan2 X Y).2| ≤ 4 ∧
      |(spherical fl fatan fatan2 X Y).1| ≤ 2 := by
  have hu := u_pos
  have hul := u_lt
  have hX2 : X * X ≤ 0.0225 := by have := abs_le.mp hX; nlinarith
  have hY2 : Y * Y ≤ 0.0225 := by have := abs_le.mp hY; nlinarith
  have hX0 := mul_self_nonneg X
  have hY0 := mul_self_nonneg Y
  have a1 := hf.prel 0 (X * X)
  have a2 := hf.prel 1 (Y * Y)
  rw [abs_of_nonneg hX0] at a1
  rw [abs_of_nonneg hY0] at a2
  have a3 := hf.rel (fl.pr 0 (X * X) + fl.pr 1 (Y * Y))
  generalize hR : X * X + Y * Y = R at *
  have hR0 : 0 ≤ R := by linarith
  have hR1 : R ≤ 0.045 := by linarith
  have b1 : |fl.pr 0 (X * X) + fl.pr 1 (Y * Y) - R| ≤ u * R := by
    rw [show fl.pr 0 (X * X) + fl.pr 1 (Y * Y) - R = (fl.pr 0 (X * X) - X * X) + (fl.pr 1 (Y * Y) - Y * Y) by rw [← hR]; ring]
    refine (abs_add_le _ _).trans ?_
    rw [← hR]; linarith
  have hRu := mul_nonneg hu.le hR0
  have b2 : |fl (fl.pr 0 (X * X) + fl.pr 1 (Y * Y)) - R| ≤ 2.1 * u * R := by
    generalize fl.pr 0 (X * X) + fl.pr 1 (Y * Y) = p at *
    have : |p| ≤ (1 + u) * R := by
      have := abs_sub_abs_le_abs_sub p R
      rw [abs_of_nonneg hR0] at this; linarith
    have h3 := mul_le_mul_of_nonneg_left this hu.le
    rw [show fl p - R = (fl p - p) + (p - R) by ring]
    refine (abs_add_le _ _).trans ?_
    nlinarith
  have er2 : ∃ r2, r2 = fl (fl.pr 0 (X * X) + fl.pr 1 (Y * Y)) := ⟨_, rfl⟩
  obtain ⟨r2, er2⟩ := er2
  rw [← er2] at b2
  obtain ⟨b3, b4⟩ := abs_le.mp b2
  have r0 : 0 ≤ r2 := by nlinarith
  have r1 : r2 ≤ 0.046 := by nlinarith
  have hpos : 0 < r2 ↔ 0 < R := by
    constructor
    · intro h; by_contra hc
      have : R = 0 := le_antisymm (not_lt.mp hc) hR0
      rw [this] at b4; linarith
    · intro h; nlinarith
  -- the quotient
  have c1 := hf.rel (1 - r2)
  rw [abs_of_nonneg (by linarith : (0 : ℝ) ≤ 1 - r2)] at c1
  obtain ⟨w, ew⟩ : ∃ w, w = fl (1 - r2) := ⟨_, rfl⟩
  rw [← ew] at c1
  have c2 : |w - (1 - R)| ≤ 1.2 * u := by
    rw [show w - (1 - R) = (w - (1 - r2)) + (R - r2) by ring]
    refine (abs_add_le _ _).trans ?_
    rw [abs_sub_comm R r2]
    nlinarith
  obtain ⟨c3, c4⟩ := abs_le.mp c2
  have w0 : 0.95 ≤ w := by linarith
  have q1 : |r2 / w - R / (1 - R)| ≤ 3.8 * u * (R / (1 - R)) := by
    have h1R : 0 < 1 - R := by linarith
    have hw : 0 < w := by linarith
    rw [show r2 / w - R / (1 - R) = ((r2 - R) * (1 - R) - R * (w - (1 - R))) / (w * (1 - R)) by field_simp; ring]
    rw [abs_div, abs_of_pos (mul_pos hw h1R), div_le_iff₀ (mul_pos hw h1R)]
    have e1 : 3.8 * u * (R / (1 - R)) * (w * (1 - R)) = 3.8 * u * R * w := by field_simp
    rw [e1]
    refine (abs_sub _ _).trans ?_
    rw [abs_mul, abs_mul, abs_of_pos h1R, abs_of_nonneg hR0]
    have e2 : |r2 - R| * (1 - R) ≤ 2.1 * u * R * 1 := mul_le_mul b2 (by linarith) h1R.le (by positivity)
    have e3 : R * |w - (1 - R)| ≤ R * (1.2 * u) := mul_le_mul_of_nonneg_left c2 hR0
    nlinarith
  have hV0 : 0 ≤ R / (1 - R) := div_nonneg hR0 (by linarith)
  have hV1 : R / (1 - R) ≤ 0.05 := by rw [div_le_iff₀ (by linarith)]; linarith
  generalize hV : R / (1 - R) = V at *
  have q2 := hf.rel (r2 / w)
  have q0 : 0 ≤ r2 / w := div_nonneg r0 (by linarith)
  rw [abs_of_nonneg q0] at q2
  obtain ⟨v, ev⟩ : ∃ v, v = fl (r2 / w) := ⟨_, rfl⟩
  rw [← ev] at q2
  have hVu := mul_nonneg hu.le hV0
  obtain ⟨q3, q4⟩ := abs_le.mp q1
  have q5 : |v - V| ≤ 5 * u * V := by
    rw [show v - V = (v - r2 / w) + (r2 / w - V) by ring]
    refine (abs_add_le _ _).trans ?_
    have h5 : u * (r2 / w) ≤ u * (V + 3.8 * u * V) := mul_le_mul_of_nonneg_left (by linarith) hu.le
    have h6 : u * (3.8 * u * V) ≤ 0.1 * (u * V) := by
      have := mul_le_mul_of_nonneg_left (by linarith : 3.8 * u ≤ 0.1) hVu
      linarith
    linarith
  have v0 : 0 ≤ v := by
    have h5 := (abs_le.mp q5).1
    have := mul_le_mul_of_nonneg_right (by linarith : 5 * u ≤ 1) hV0
    linarith
  have s1 := sqrt_rel hV0 v0 q5
  have hS0 := Real.sqrt_nonneg V
  have hS1 : Real.sqrt V ≤ 0.23 := by rw [Real.sqrt_le_left (by norm_num)]; linarith
  have s2 := hf.rel (Real.sqrt v)
  rw [abs_of_nonneg (Real.sqrt_nonneg v)] at s2
  have s3 : |fl (Real.sqrt v) - Real.sqrt V| ≤ 2 * u := by
    rw [show fl (Real.sqrt v) - Real.sqrt V = (fl (Real.sqrt v) - Real.sqrt v) + (Real.sqrt v - Real.sqrt V) by ring]
    refine (abs_add_le _ _).trans ?_
    have h5 := (abs_le.mp s1).2
    have h6 := mul_le_mul_of_nonneg_left hS1 hu.le
    have h7 : u * Real.sqrt v ≤ u * 0.24 := mul_le_mul_of_nonneg_left (by linarith) hu.le
    linarith
  have hd : |fatan (fl (Real.sqrt v)) - Real.arctan (Real.sqrt V)| ≤ 4 * u := by
    rw [show fatan (fl (Real.sqrt v)) - Real.arctan (Real.sqrt V) =
      (fatan (fl (Real.sqrt v)) - Real.arctan (fl (Real.sqrt v))) + (Real.arctan (fl (Real.sqrt v)) - Real.arctan (Real.sqrt V)) by ring]
    refine (abs_add_le _ _).trans ?_
    have := hI.atan (fl (Real.sqrt v))
    have := abs_arctan_sub (fl (Real.sqrt v)) (Real.sqrt V)
    linarith
  have hsp : spherical fl fatan fatan2 X Y = (fatan (fl (Real.sqrt v)), if 0 < r2 then fatan2 Y X else 0) := by
    unfold spherical
    simp only
    rw [← er2, ← ew, ← ev]
  rw [hsp]
  refine ⟨Real.arctan (Real.sqrt V), if 0 < R then EarthRot.atan2 Y X else 0, ?_, hd, ?_, ?_, ?_⟩
  · unfold EarthRot.spherical EarthRot.polar
    simp only
    rw [hR, if_pos (by linarith : R < 1), hV]
    rfl
  · by_cases hp : 0 < R
    · simp only
      rw [if_pos (hpos.mpr hp), if_pos hp]
      exact hI.atan2 Y X
    · simp only
      rw [if_neg (fun h => hp (hpos.mp h)), if_neg hp]
      exact ⟨0, by simp [hu.le]⟩
  · simp only
    split
    · exact hI.range Y X
    · simp
  · have h1 := Real.arctan_lt_pi_div_two (Real.sqrt V)
    have h2 := Real.neg_pi_div_two_lt_arctan (Real.sqrt V)
    have hp := pi_lt
    obtain ⟨h3, h4⟩ := abs_le.mp hd
    simp only
    rw [abs_le]
    constructor <;> linarith

/-! ### The rotation depends smoothly on the pole -/

theorem norm_le_sum (a : Quaternion ℝ) : ‖a‖ ≤ |a.re| + |a.imI| + |a.imJ| + |a.imK| := by
  apply norm_le (by positivity)
  rw [← sq_abs a.re, ← sq_abs a.imI, ← sq_abs a.imJ, ← sq_abs a.imK]
  have h1 := abs_nonneg a.re
  have h2 := abs_nonneg a.imI
  have h3 := abs_nonneg a.imJ
  have h4 := abs_nonneg a.imK
  nlinarith [mul_nonneg h1 h2, mul_nonneg h1 h3, mul_nonneg h1 h4, mul_nonneg h2 h3, mul_nonneg h2 h4, mul_nonneg h3 h4]

theorem half_large {c z : ℝ} (hc : 0 < c) (h : 1 + z = 2 * c ^ 2) (hz : 0.95 ≤ z) : 0.95 ≤ c := by
  by_contra hlt
  nlinarith

theorem pole_lip {X Y d e X' Y' d' e' : ℝ} (h : EarthRot.spherical X Y = some (d, e)) (h' : EarthRot.spherical X' Y' = some (d', e'))
    (hX : |X| ≤ 0.15) (hY : |Y| ≤ 0.15) (hX' : |X'| ≤ 0.15) (hY' : |Y'| ≤ 0.15) :
    ‖toH (Quat.aaZ e' * Quat.aaY (-d') * Quat.aaZ (-e')) - toH (Quat.aaZ e * Quat.aaY (-d) * Quat.aaZ (-e))‖ ≤ |X' - X| + |Y' - Y| := by
  obtain ⟨x1, y1, z1, d0, d1⟩ := EarthRot.spherical_spec h
  obtain ⟨x2, y2, z2, d0', d1'⟩ := EarthRot.spherical_spec h'
  obtain ⟨c0, -, cz, sn⟩ := EarthRot.half_d d0 d1
  obtain ⟨c0', -, cz', sn'⟩ := EarthRot.half_d d0' d1'
  rw [EarthRot.conj_Y, EarthRot.conj_Y]
  have hZ : ∀ {A B : ℝ}, |A| ≤ 0.15 → |B| ≤ 0.15 → 0.95 ≤ Real.sqrt (1 - A ^ 2 - B ^ 2) ∧ Real.sqrt (1 - A ^ 2 - B ^ 2) ^ 2 = 1 - A ^ 2 - B ^ 2 := by
    intro A B hA hB
    have hA := abs_le.mp hA
    have hB := abs_le.mp hB
    constructor
    · apply Real.le_sqrt_of_sq_le; nlinarith
    · rw [Real.sq_sqrt]; nlinarith
  obtain ⟨zl, zs⟩ := hZ hX hY
  obtain ⟨zl', zs'⟩ := hZ hX' hY'
  rw [← z1] at zl zs
  rw [← z2] at zl' zs'
  have ccos := Real.cos_le_one (d / 2)
  have ccos' := Real.cos_le_one (d' / 2)
  have ex : Real.sin (d / 2) * Real.cos e = X / (2 * Real.cos (d / 2)) := by rw [eq_div_iff (by positivity), ← x1, sn]; ring
  have ey : Real.sin (d / 2) * Real.sin e = Y / (2 * Real.cos (d / 2)) := by rw [eq_div_iff (by positivity), ← y1, sn]; ring
  have ex' : Real.sin (d' / 2) * Real.cos e' = X' / (2 * Real.cos (d' / 2)) := by rw [eq_div_iff (by positivity), ← x2, sn']; ring
  have ey' : Real.sin (d' / 2) * Real.sin e' = Y' / (2 * Real.cos (d' / 2)) := by rw [eq_div_iff (by positivity), ← y2, sn']; ring
  rw [ex, ey, ex', ey']
  generalize Real.cos d = z at *
  generalize Real.cos d' = z' at *
  generalize Real.cos (d / 2) = c at *
  generalize Real.cos (d' / 2) = c' at *
  have cl := half_large c0 cz zl
  have cl' := half_large c0' cz' zl'
  generalize hD : |X' - X| + |Y' - Y| = D
  have hD0 : 0 ≤ D := by rw [← hD]; positivity
  have dz : |z' - z| ≤ 0.17 * D := by
    have e1 : (z' - z) * (z' + z) = -((X' - X) * (X' + X) + (Y' - Y) * (Y' + Y)) := by linear_combination zs' - zs
    have e2 : |z' - z| * (z' + z) ≤ 0.3 * D := by
      rw [← abs_of_nonneg (by linarith : 0 ≤ z' + z), ← abs_mul, e1, abs_neg]
      refine (abs_add_le _ _).trans ?_
      rw [abs_mul, abs_mul, ← hD]
      have f1 : |X' + X| ≤ 0.3 := (abs_add_le _ _).trans (by linarith)
      have f2 : |Y' + Y| ≤ 0.3 := (abs_add_le _ _).trans (by linarith)
      have g1 := mul_le_mul_of_nonneg_left f1 (abs_nonneg (X' - X))
      have g2 := mul_le_mul_of_nonneg_left f2 (abs_nonneg (Y' - Y))
      linarith
    have e3 : |z' - z| * 1.9 ≤ |z' - z| * (z' + z) := mul_le_mul_of_nonneg_left (by linarith) (abs_nonneg _)
    linarith
  have dc : |c' - c| ≤ 0.05 * D := by
    have e1 : (c' - c) * (2 * (c' + c)) = z' - z := by linear_combination cz - cz'
    have e2 : |c' - c| * (2 * (c' + c)) = |z' - z| := by
      rw [← e1, abs_mul, abs_of_nonneg (by linarith : 0 ≤ 2 * (c' + c))]
    have e3 : |c' - c| * 3.8 ≤ |c' - c| * (2 * (c' + c)) := mul_le_mul_of_nonneg_left (by linarith) (abs_nonneg _)
    linarith
  have quo : ∀ {A A' : ℝ}, |A| ≤ 0.15 → |A' / (2 * c') - A / (2 * c)| ≤ 5 / 9 * (|A' - A| + 0.01 * D) := by
    intro A A' hA
    have e1 : A' / (2 * c') - A / (2 * c) = ((A' - A) * c + A * (c - c')) / (2 * (c * c')) := by field_simp; ring
    have hcc : 0.9 ≤ c * c' := le_trans (by norm_num) (mul_le_mul cl cl' (by norm_num) c0.le)
    rw [e1, abs_div, abs_of_pos (by positivity : 0 < 2 * (c * c'))]
    have hn : |(A' - A) * c + A * (c - c')| ≤ |A' - A| + 0.01 * D := by
      refine (abs_add_le _ _).trans ?_
      rw [abs_mul, abs_mul, abs_of_pos c0, abs_sub_comm c c']
      have f1 := mul_le_mul_of_nonneg_left ccos (abs_nonneg (A' - A))
      have f2 : |A| * |c' - c| ≤ 0.15 * (0.05 * D) := mul_le_mul hA dc (abs_nonneg _) (by norm_num)
      linarith
    rw [div_le_iff₀ (by positivity)]
    have : 5 / 9 * (|A' - A| + 0.01 * D) * 1.8 ≤ 5 / 9 * (|A' - A| + 0.01 * D) * (2 * (c * c')) :=
      mul_le_mul_of_nonneg_left (by linarith) (by positivity)
    linarith
  have qx := quo (A := X) (A' := X') hX
  have qy := quo (A := Y) (A' := Y') hY
  refine (norm_le_sum _).trans ?_
  show |c' - c| + |Y' / (2 * c') - Y / (2 * c)| + |-(X' / (2 * c')) - -(X / (2 * c))| + |(0 : ℝ) - 0| ≤ D
  rw [show -(X' / (2 * c')) - -(X / (2 * c)) = -(X' / (2 * c') - X / (2 * c)) by ring, abs_neg, sub_self, abs_zero]
  generalize |X' / (2 * c') - X / (2 * c)| = p1 at *
  generalize |Y' / (2 * c') - Y / (2 * c)| = p2 at *
  generalize |c' - c| = p3 at *
  generalize |X' - X| = p4 at *
  generalize |Y' - Y| = p5 at *
  clear quo
  linarith

/-- The rotation with the angles of another pole. -/
theorem c2i_lip {X Y d e X' Y' d' e' : ℝ} (h : EarthRot.spherical X Y = some (d, e)) (h' : EarthRot.spherical X' Y' = some (d', e'))
    (hX : |X| ≤ 0.15) (hY : |Y| ≤ 0.15) (hX' : |X'| ≤ 0.15) (hY' : |Y'| ≤ 0.15) (era s sp xp yp : ℝ) :
    ‖toH (EarthRot.c2i era s sp d' e' xp yp) - toH (EarthRot.c2i era s sp d e xp yp)‖ ≤ |X' - X| + |Y' - Y| := by
  have split : ∀ d e, EarthRot.c2i era s sp d e xp yp =
      (Quat.aaX yp * Quat.aaY xp * Quat.aaZ (-sp - era + s)) * (Quat.aaZ e * Quat.aaY (-d) * Quat.aaZ (-e)) := by
    intro d e
    unfold EarthRot.c2i
    rw [show -sp - era + e + s = (-sp - era + s) + e by ring, EarthRot.aaZ_add]
    simp only [EarthRot.quat_assoc]
  rw [split, split, toH_mul, toH_mul _ (Quat.aaZ e * Quat.aaY (-d) * Quat.aaZ (-e)), ← mul_sub, norm_mul,
    unit_norm (((Quat.unit_X _).mul (Quat.unit_Y _)).mul (Quat.unit_Z _)), one_mul]
  exact pole_lip h h' hX hY hX' hY'

theorem QNear.of_norm {e b : ℝ} {q' q p : Quat} (h : QNear e q' q) (hq : ‖toH q - toH p‖ ≤ b) (hp : Quat.Unit p) : QNear (e + b) q' p := by
  rcases h with h | h
  · refine .inl ⟨?_, unit_norm hp⟩
    rw [show toH q' - toH p = (toH q' - toH q) + (toH q - toH p) by abel]
    exact (norm_add_le _ _).trans (add_le_add h.1 hq)
  · refine .inr ⟨?_, opp_norm hp⟩
    rw [show toH q' - toH (opp p) = (toH q' - toH (opp q)) + -(toH q - toH p) by rw [toH_opp, toH_opp]; abel]
    refine (norm_add_le _ _).trans (add_le_add h.1 ?_)
    rwa [norm_neg]

end Verif.RoundedGcrs
