import Verif.Model.RoundedRotation
import Verif.Spec.RoundedRotation
import Verif.Props.RoundedGcrs
import Verif.Proof.Rel
/-
Rounding errors of the other forms of the rotation from GCRS to ITRS.
-/
namespace Verif.RoundedGcrs
open Verif Verif.Rounding Verif.Rounded Verif.RoundedCip Verif.Iau
open Verif.EarthRot (poleX poleY locator tioLocator arcsec EopRec)

section
variable {fl : Rounded.Arith} {fsin fcos fatan : ℝ → ℝ} {fatan2 : ℝ → ℝ → ℝ} (hf : Faithful fl) (hT : Trig fsin fcos)

include hf in
theorem flN {M e x' x : ℝ} (h : App M e x' x) : App M (e + 1.2e-16 * (M + e)) (fl x') x := by
  refine (h.fl hf).mono le_rfl ?_
  have : 0 ≤ M + e := (abs_nonneg _).trans h.abs'
  have := mul_le_mul_of_nonneg_right u_lt.le this
  linarith

include hf in
theorem prN (k : ℕ) {M e x' x : ℝ} (h : App M e x' x) : App M (e + 1.2e-16 * (M + e)) (fl.pr k x') x := by
  refine (h.pr hf k).mono le_rfl ?_
  have : 0 ≤ M + e := (abs_nonneg _).trans h.abs'
  have := mul_le_mul_of_nonneg_right u_lt.le this
  linarith

/-- Exact sum or difference. -/
theorem app_pm (σ : Bool) {M e x' x N d y' y : ℝ} (hx : App M e x' x) (hy : App N d y' y) : App (M + N) (e + d) (pm σ x' y') (pm σ x y) := by
  cases σ
  · exact hx.sub hy
  · exact hx.add hy

include hf in
theorem row_app (k : ℕ) (σ τ : Bool) {m1 m2 m3 e1 e2 e3 a' a b' b c' c M : ℝ} (ha : App m1 e1 a' a) (hb : App m2 e2 b' b) (hc : App m3 e3 c' c)
    (hM : m1 + m2 + m3 ≤ M) (hM2 : M ≤ 2.5) (hE : e1 + e2 + e3 ≤ 3.5e-15) : App M 5e-15 (row fl k σ τ a' b' c') (pm τ (pm σ a b) c) := by
  have a0 := (abs_nonneg _).trans ha.2
  have b0 := (abs_nonneg _).trans hb.2
  have c0 := (abs_nonneg _).trans hc.2
  have a1 := (abs_nonneg _).trans ha.1
  have b1 := (abs_nonneg _).trans hb.1
  have c1 := (abs_nonneg _).trans hc.1
  have h := flN hf (app_pm τ (flN hf (app_pm σ (prN hf k ha) (prN hf (k + 1) hb))) (prN hf (k + 2) hc))
  exact h.mono (by linarith) (by linarith)

include hf in
theorem entry_app (k : ℕ) {fac' fac c' c s' s p' p q' q MP MQ : ℝ} (hfac : App 0.51 5.5e-16 fac' fac) (hc : App 1 5.05e-13 c' c) (hs : App 1 5.05e-13 s' s)
    (hp : App MP 5e-15 p' p) (hq : App MQ 5e-15 q' q) (hM : MP + MQ ≤ 2.02) :
    |entry fl k fac' c' s' p' q' - fac * (c * p + s * q)| ≤ 0.51 * 5.05e-13 * (MP + MQ) + 1e-14 := by
  have p0 := (abs_nonneg _).trans hp.1
  have q0 := (abs_nonneg _).trans hq.1
  have h1 := (prN hf k (hc.mul hp)).mono (M' := MP) (e' := 5.052e-13 * MP + 5.1e-15) (by linarith) (by linarith)
  have h2 := (prN hf (k + 1) (hs.mul hq)).mono (M' := MQ) (e' := 5.052e-13 * MQ + 5.1e-15) (by linarith) (by linarith)
  have h3 := (flN hf (h1.add h2)).mono (M' := MP + MQ) (e' := 5.054e-13 * (MP + MQ) + 1.03e-14) le_rfl (by linarith)
  have h4 := flN hf (hfac.mul h3)
  refine h4.2.trans ?_
  have : 5.5e-16 * (5.054e-13 * (MP + MQ) + 1.03e-14) ≤ 1e-27 := by linarith
  linarith

/-- The closed form in exact arithmetic, for given cosine and sine of half the third angle. -/
noncomputable def closed (c s fac X Y pZ tw aw bw cw : ℝ) : Quat :=
  ⟨fac * (c * (X * bw - Y * aw + pZ * tw) + s * (X * aw + Y * bw + pZ * cw)), fac * (c * (X * cw + Y * tw + pZ * aw) + s * (-X * tw + Y * cw - pZ * bw)),
   fac * (c * (-X * tw + Y * cw + pZ * bw) + s * (-X * cw - Y * tw + pZ * aw)), fac * (c * (-X * aw - Y * bw + pZ * cw) + s * (X * bw - Y * aw - pZ * tw))⟩

theorem closed_neg (c s fac X Y pZ tw aw bw cw : ℝ) : closed (-c) (-s) fac X Y pZ tw aw bw cw = opp (closed c s fac X Y pZ tw aw bw cw) := by
  unfold closed opp
  simp only [Quat.mk.injEq]
  refine ⟨?_, ?_, ?_, ?_⟩ <;> ring

theorem closed_eq {era s sp X Y xp yp d e : ℝ} (h : EarthRot.spherical X Y = some (d, e)) :
    EarthRot.c2i era s sp d e xp yp = closed (Real.cos ((era + sp - s) / 2)) (Real.sin ((era + sp - s) / 2)) (1 / Real.sqrt (2 * (1 + Real.cos d)))
      (Real.sin d * Real.cos e) (Real.sin d * Real.sin e) (1 + Real.cos d) (Real.cos (xp / 2) * Real.cos (yp / 2)) (Real.cos (xp / 2) * Real.sin (yp / 2))
      (Real.cos (yp / 2) * Real.sin (xp / 2)) (Real.sin (xp / 2) * Real.sin (yp / 2)) := by
  have h1 := EarthRot.bz_eq era s sp X Y xp yp
  rw [h] at h1
  unfold EarthRot.spherical at h
  simp only at h
  unfold EarthRot.bz at h1
  simp only at h1
  rcases hp : EarthRot.polar (X * X + Y * Y) with _ | d0
  · rw [hp] at h; simp at h
  · rw [hp] at h h1
    simp only [Option.map_some, Option.some.injEq, Prod.mk.injEq] at h h1
    rw [← h1, h.1, h.2]
    rfl

include hf in
/-- All components of the closed form. -/
theorem closed_near {fac' fac c' c s' s X' X Y' Y pZ' pZ tw' tw aw' aw bw' bw cw' cw : ℝ} (hfac : App 0.51 5.5e-16 fac' fac) (hc : App 1 5.05e-13 c' c)
    (hs : App 1 5.05e-13 s' s) (hX : App 0.15 1.8e-15 X' X) (hY : App 0.15 1.8e-15 Y' Y) (hZ : App 2 1.1e-15 pZ' pZ) (htw : App 1 7e-16 tw' tw)
    (haw : App 0.009 2.8e-16 aw' aw) (hbw : App 0.009 2.8e-16 bw' bw) (hcw : App 1e-4 1e-17 cw' cw) :
    ‖toH ⟨entry fl 100 fac' c' s' (row fl 0 false true (X' * bw') (Y' * aw') (pZ' * tw')) (row fl 3 true true (X' * aw') (Y' * bw') (pZ' * cw')),
      entry fl 102 fac' c' s' (row fl 6 true true (X' * cw') (Y' * tw') (pZ' * aw')) (row fl 9 true false (-X' * tw') (Y' * cw') (pZ' * bw')),
      entry fl 104 fac' c' s' (row fl 12 true true (-X' * tw') (Y' * cw') (pZ' * bw')) (row fl 15 false true (-X' * cw') (Y' * tw') (pZ' * aw')),
      entry fl 106 fac' c' s' (row fl 18 false true (-X' * aw') (Y' * bw') (pZ' * cw')) (row fl 21 false false (X' * bw') (Y' * aw') (pZ' * tw'))⟩ -
      toH (closed c s fac X Y pZ tw aw bw cw)‖ ≤ 7.8e-13 := by
  have xb := (hX.mul hbw).mono (M' := 0.00135) (e' := 1e-16) (by norm_num) (by norm_num)
  have xa := (hX.mul haw).mono (M' := 0.00135) (e' := 1e-16) (by norm_num) (by norm_num)
  have yb := (hY.mul hbw).mono (M' := 0.00135) (e' := 1e-16) (by norm_num) (by norm_num)
  have ya := (hY.mul haw).mono (M' := 0.00135) (e' := 1e-16) (by norm_num) (by norm_num)
  have nxa := (hX.neg.mul haw).mono (M' := 0.00135) (e' := 1e-16) (by norm_num) (by norm_num)
  have xc := (hX.mul hcw).mono (M' := 1.5e-5) (e' := 1e-17) (by norm_num) (by norm_num)
  have nxc := (hX.neg.mul hcw).mono (M' := 1.5e-5) (e' := 1e-17) (by norm_num) (by norm_num)
  have yc := (hY.mul hcw).mono (M' := 1.5e-5) (e' := 1e-17) (by norm_num) (by norm_num)
  have nxt := (hX.neg.mul htw).mono (M' := 0.15) (e' := 2e-15) (by norm_num) (by norm_num)
  have yt := (hY.mul htw).mono (M' := 0.15) (e' := 2e-15) (by norm_num) (by norm_num)
  have zt := (hZ.mul htw).mono (M' := 2) (e' := 2.6e-15) (by norm_num) (by norm_num)
  have za := (hZ.mul haw).mono (M' := 0.018) (e' := 6e-16) (by norm_num) (by norm_num)
  have zb := (hZ.mul hbw).mono (M' := 0.018) (e' := 6e-16) (by norm_num) (by norm_num)
  have zc := (hZ.mul hcw).mono (M' := 2e-4) (e' := 3e-17) (by norm_num) (by norm_num)
  have t := entry_app hf 100 hfac hc hs (row_app hf 0 false true xb ya zt (M := 2.01) (by norm_num) (by norm_num) (by norm_num))
    (row_app hf 3 true true xa yb zc (M := 0.003) (by norm_num) (by norm_num) (by norm_num)) (by norm_num)
  have a := entry_app hf 102 hfac hc hs (row_app hf 6 true true xc yt za (M := 0.17) (by norm_num) (by norm_num) (by norm_num))
    (row_app hf 9 true false nxt yc zb (M := 0.17) (by norm_num) (by norm_num) (by norm_num)) (by norm_num)
  have b := entry_app hf 104 hfac hc hs (row_app hf 12 true true nxt yc zb (M := 0.17) (by norm_num) (by norm_num) (by norm_num))
    (row_app hf 15 false true nxc yt za (M := 0.17) (by norm_num) (by norm_num) (by norm_num)) (by norm_num)
  have g := entry_app hf 106 hfac hc hs (row_app hf 18 false true nxa yb zc (M := 0.003) (by norm_num) (by norm_num) (by norm_num))
    (row_app hf 21 false false xb ya zt (M := 2.01) (by norm_num) (by norm_num) (by norm_num)) (by norm_num)
  simp only [pm, Bool.false_eq_true, if_true, if_false] at t a b g
  refine norm_le (by norm_num) ?_
  have sq : ∀ {x b : ℝ}, |x| ≤ b → x ^ 2 ≤ b ^ 2 := fun {x b} h => sq_le_sq' (abs_le.mp h).1 (abs_le.mp h).2
  have t2 := sq t
  have a2 := sq a
  have b2 := sq b
  have g2 := sq g
  refine (add_le_add (add_le_add (add_le_add t2 a2) b2) g2).trans (by norm_num)

include hf hT in
/-- Cosine and sine of half of a small angle. -/
theorem small_half {x' x : ℝ} (h : App 0.0175 1e-17 x' x) : App 1 2.6e-16 (fcos (fl (x' / 2))) (Real.cos (x / 2)) ∧
    App 0.009 2.6e-16 (fsin (fl (x' / 2))) (Real.sin (x / 2)) := by
  have hu := u_pos
  have hul := u_lt
  have h2 : App 0.00875 5e-18 (x' / 2) (x / 2) := by
    obtain ⟨h1, h2⟩ := h
    refine ⟨?_, ?_⟩
    · rw [abs_div, abs_two]; linarith
    · rw [← sub_div, abs_div, abs_two]; linarith
  have h3 := (flN hf h2).mono (M' := 0.00875) (e' := 1e-17) le_rfl (by norm_num)
  generalize fl (x' / 2) = y at h3
  refine ⟨⟨Real.abs_cos_le_one _, ?_⟩, ⟨(Real.abs_sin_le_abs).trans (h3.1.trans (by norm_num)), ?_⟩⟩
  · have := abs_add_le (fcos y - Real.cos y) (Real.cos y - Real.cos (x / 2))
    rw [sub_add_sub_cancel] at this
    have a := hT.cos y
    have b := Real.abs_cos_sub_cos_le y (x / 2)
    have := h3.2
    linarith
  · have := abs_add_le (fsin y - Real.sin y) (Real.sin y - Real.sin (x / 2))
    rw [sub_add_sub_cancel] at this
    have a := hT.sin y
    have b := Real.abs_sin_sub_sin_le y (x / 2)
    have := h3.2
    linarith

include hT in
/-- Cosine and sine of an angle known up to whole turns. -/
theorem near_trig {e x' x : ℝ} (h : Near e x' x) : |fcos x' - Real.cos x| ≤ e + 2 * u ∧ |fsin x' - Real.sin x| ≤ e + 2 * u := by
  obtain ⟨k, hk⟩ := h
  have hk' : |x' - (x + k * (2 * Real.pi))| ≤ e := by
    rw [show x' - (x + k * (2 * Real.pi)) = x' - x - 2 * Real.pi * k by ring]; exact hk
  constructor
  · have := abs_add_le (fcos x' - Real.cos x') (Real.cos x' - Real.cos (x + k * (2 * Real.pi)))
    rw [sub_add_sub_cancel, Real.cos_add_int_mul_two_pi] at this
    have a := hT.cos x'
    have b := Real.abs_cos_sub_cos_le x' (x + k * (2 * Real.pi))
    rw [Real.cos_add_int_mul_two_pi] at b
    linarith
  · have := abs_add_le (fsin x' - Real.sin x') (Real.sin x' - Real.sin (x + k * (2 * Real.pi)))
    rw [sub_add_sub_cancel, Real.sin_add_int_mul_two_pi] at this
    have a := hT.sin x'
    have b := Real.abs_sin_sub_sin_le x' (x + k * (2 * Real.pi))
    rw [Real.sin_add_int_mul_two_pi] at b
    linarith

include hf in
/-- The factor of the closed form. -/
theorem fac_app {Z' Z : ℝ} (hZ : App 1 7.2e-16 Z' Z) (hl : 0.95 ≤ Z) :
    App 2 1.1e-15 (fl (1 + Z')) (1 + Z) ∧ App 0.51 5.5e-16 (fl (1 / fl (Real.sqrt (fl (2 * fl (1 + Z')))))) (1 / Real.sqrt (2 * (1 + Z))) := by
  have hu := u_pos
  have hul := u_lt
  have hull : 1.11e-16 ≤ u := by unfold u; norm_num
  have one : App 1 0 (1 : ℝ) 1 := ⟨by norm_num, by norm_num⟩
  have h1 := (flN hf (one.add hZ)).mono (M' := 2) (e' := 1.1e-15) (by norm_num) (by norm_num)
  refine ⟨h1, ?_⟩
  have two : App 2 0 (2 : ℝ) 2 := ⟨by norm_num, by norm_num⟩
  have h2 := (flN hf (two.mul h1)).mono (M' := 4) (e' := 2.7e-15) (by norm_num) (by norm_num)
  generalize fl (2 * fl (1 + Z')) = w at h2
  have hx : 3.9 ≤ 2 * (1 + Z) := by linarith
  have r1 : Rounding.Rel 6.5 w (2 * (1 + Z)) := by
    refine h2.2.trans ?_
    rw [abs_of_pos (by linarith)]
    have := mul_le_mul_of_nonneg_left hx (by positivity : 0 ≤ 6.5 * u)
    linarith
  have w0 : 0 ≤ w := r1.nonneg (by norm_num) (by linarith)
  have r2 := (r1.sqrt (by linarith) w0).fl hf.toRounds (by norm_num)
  have s1 : 1.9625 ≤ Real.sqrt (2 * (1 + Z)) := Real.le_sqrt_of_sq_le (by linarith)
  have r3 := ((Rounding.Rel.refl 1).div r2 le_rfl (by norm_num) (by norm_num) (by norm_num) (by linarith)).fl hf.toRounds (by norm_num)
  have bnd : |1 / Real.sqrt (2 * (1 + Z))| ≤ 0.51 := by
    rw [abs_of_pos (by positivity), div_le_iff₀ (by linarith)]
    linarith
  refine ⟨bnd, r3.trans ?_⟩
  have := mul_le_mul_of_nonneg_left bnd (by positivity : 0 ≤ (0 + (6.5 + 1.01) + 0.1 + 1.01) * u)
  linarith

include hf hT in
/-- The closed form. -/
theorem bz_near {era' era s' s sp' sp X Y d e xp' xp yp' yp : ℝ} (hera : Near 1e-12 era' era) (bera : |era'| ≤ 6.284)
    (hs : |s' - s| ≤ 4e-16) (bs : |s'| ≤ 1) (hsp : |sp' - sp| ≤ 1e-24) (bsp : |sp'| ≤ 0.001) (hX : |X| ≤ 0.15) (hY : |Y| ≤ 0.15)
    (hde : EarthRot.spherical X Y = some (d, e)) (hd : |(spherical fl fatan fatan2 X Y).1 - d| ≤ 4 * u)
    (he : Near (4 * u) (spherical fl fatan fatan2 X Y).2 e) (hxp : App 0.0175 1e-17 xp' xp) (hyp : App 0.0175 1e-17 yp' yp) :
    QNear 7.8e-13 (bz fl fsin fcos fatan fatan2 era' s' sp' X Y xp' yp') (EarthRot.c2i era s sp d e xp yp) := by
  have hu := u_pos
  have hul := u_lt
  obtain ⟨x1, y1, z1, d0, d1⟩ := EarthRot.spherical_spec hde
  obtain ⟨cx, sx⟩ := small_half hf hT hxp
  obtain ⟨cy, sy⟩ := small_half hf hT hyp
  have htw := (flN hf (cx.mul cy)).mono (M' := 1) (e' := 7e-16) (by norm_num) (by norm_num)
  have haw := (flN hf (cx.mul sy)).mono (M' := 0.009) (e' := 2.8e-16) (by norm_num) (by norm_num)
  have hbw := (flN hf (cy.mul sx)).mono (M' := 0.009) (e' := 2.8e-16) (by norm_num) (by norm_num)
  have hcw := (flN hf (sx.mul sy)).mono (M' := 1e-4) (e' := 1e-17) (by norm_num) (by norm_num)
  -- the pole
  obtain ⟨cd, sd⟩ := near_trig hT (Near.of_abs hd)
  obtain ⟨ce, se⟩ := near_trig hT he
  have acd : App 1 7.2e-16 (fcos (spherical fl fatan fatan2 X Y).1) (Real.cos d) := ⟨Real.abs_cos_le_one _, cd.trans (by linarith)⟩
  have asd : App 1 7.2e-16 (fsin (spherical fl fatan fatan2 X Y).1) (Real.sin d) := ⟨Real.abs_sin_le_one _, sd.trans (by linarith)⟩
  have ace : App 1 7.2e-16 (fcos (spherical fl fatan fatan2 X Y).2) (Real.cos e) := ⟨Real.abs_cos_le_one _, ce.trans (by linarith)⟩
  have ase : App 1 7.2e-16 (fsin (spherical fl fatan fatan2 X Y).2) (Real.sin e) := ⟨Real.abs_sin_le_one _, se.trans (by linarith)⟩
  have aX : App 0.15 1.8e-15 (fl (fsin (spherical fl fatan fatan2 X Y).1 * fcos (spherical fl fatan fatan2 X Y).2)) (Real.sin d * Real.cos e) :=
    ⟨by rw [x1]; exact hX, (flN hf (asd.mul ace)).2.trans (by norm_num)⟩
  have aY : App 0.15 1.8e-15 (fl (fsin (spherical fl fatan fatan2 X Y).1 * fsin (spherical fl fatan fatan2 X Y).2)) (Real.sin d * Real.sin e) :=
    ⟨by rw [y1]; exact hY, (flN hf (asd.mul ase)).2.trans (by norm_num)⟩
  have zl : 0.95 ≤ Real.cos d := by
    rw [z1]
    apply Real.le_sqrt_of_sq_le
    have := abs_le.mp hX
    have := abs_le.mp hY
    nlinarith
  obtain ⟨aZ, afac⟩ := fac_app hf acd zl
  -- the angle about the third axis
  have b1 : |era' + sp'| ≤ 6.3 := (abs_add_le _ _).trans (by linarith)
  have n1 := (hera.add (Near.of_abs hsp)).fl hf b1
  have c1 := abs_fl hf b1
  have b2 : |fl (era' + sp') - s'| ≤ 7.4 := (abs_sub _ _).trans (by nlinarith)
  have n2 := ((n1.sub (Near.of_abs hs)).fl hf b2).mono (e' := 1.004e-12) (by linarith)
  have c2 := abs_fl hf b2
  have key := trig_half hf hT n2 (by nlinarith)
  rw [closed_eq hde]
  have hone : Quat.Unit (EarthRot.c2i era s sp d e xp yp) := EarthRot.unit_c2i ..
  rw [closed_eq hde] at hone
  rcases key with ⟨k1, k2⟩ | ⟨k1, k2⟩
  · refine .inl ⟨?_, unit_norm hone⟩
    exact closed_near hf afac ⟨Real.abs_cos_le_one _, k1.trans (by linarith)⟩ ⟨Real.abs_sin_le_one _, k2.trans (by linarith)⟩ aX aY aZ htw haw hbw hcw
  · refine .inr ⟨?_, opp_norm hone⟩
    rw [← closed_neg]
    exact closed_near hf afac ⟨by rw [abs_neg]; exact Real.abs_cos_le_one _, by rw [sub_neg_eq_add]; exact k1.trans (by linarith)⟩
      ⟨by rw [abs_neg]; exact Real.abs_sin_le_one _, by rw [sub_neg_eq_add]; exact k2.trans (by linarith)⟩ aX aY aZ htw haw hbw hcw

/-! ### The two quaternions -/

theorem c2tirs_lip {X Y d e X' Y' d' e' : ℝ} (h : EarthRot.spherical X Y = some (d, e)) (h' : EarthRot.spherical X' Y' = some (d', e'))
    (hX : |X| ≤ 0.15) (hY : |Y| ≤ 0.15) (hX' : |X'| ≤ 0.15) (hY' : |Y'| ≤ 0.15) (era s : ℝ) :
    ‖toH (EarthRot.c2tirs era s d' e') - toH (EarthRot.c2tirs era s d e)‖ ≤ |X' - X| + |Y' - Y| := by
  have split : ∀ d e, EarthRot.c2tirs era s d e = Quat.aaZ (-era + s) * (Quat.aaZ e * Quat.aaY (-d) * Quat.aaZ (-e)) := by
    intro d e
    unfold EarthRot.c2tirs
    rw [show -era + e + s = (-era + s) + e by ring, EarthRot.aaZ_add]
    simp only [EarthRot.quat_assoc]
  rw [split, split, toH_mul, toH_mul _ (Quat.aaZ e * Quat.aaY (-d) * Quat.aaZ (-e)), ← mul_sub, norm_mul, unit_norm (Quat.unit_Z _), one_mul]
  exact pole_lip h h' hX hY hX' hY'

include hf hT in
theorem c2tirs_near {qmul : Quat → Quat → Quat} (hm : QuatMul qmul) {era' era s' s d' d e' e : ℝ} (hera : Near 1e-12 era' era) (bera : |era'| ≤ 6.284)
    (hs : |s' - s| ≤ 4e-16) (bs : |s'| ≤ 1) (hd : |d' - d| ≤ 4 * u) (bd : |d'| ≤ 2) (he : Near (4 * u) e' e) (be : |e'| ≤ 4) :
    QNear 7.75e-13 (c2tirs fl fsin fcos qmul era' s' d' e') (EarthRot.c2tirs era s d e) := by
  have hu := u_pos
  have hul := u_lt
  have b2 : |-era' + e'| ≤ 10.4 := (abs_add_le _ _).trans (by rw [abs_neg]; linarith)
  have n2 := (hera.neg.add he).fl hf b2
  have c2 := abs_fl hf b2
  have b3 : |fl (-era' + e') + s'| ≤ 11.5 := (abs_add_le _ _).trans (by nlinarith)
  have n3 := ((n2.add (Near.of_abs hs)).fl hf b3).mono (e' := 1.006e-12) (by linarith)
  have c3 := abs_fl hf b3
  have qz := (near_Z hf hT n3 (by nlinarith)).mono (e' := 7.6e-13) (by linarith)
  have qd := (near_Y hf hT (Near.of_abs hd).neg (by rw [abs_neg]; linarith)).mono (e' := 2.6e-15) (by linarith)
  have qe := (near_Z hf hT he.neg (by rw [abs_neg]; linarith)).mono (e' := 2.6e-15) (by linarith)
  have m3 := (qz.mul hm qd (by norm_num) (by norm_num)).mono (e' := 7.65e-13) (by linarith)
  exact (m3.mul hm qe (by norm_num) (by norm_num)).mono (by linarith)

include hf hT in
theorem tirs2i_near {qmul : Quat → Quat → Quat} (hm : QuatMul qmul) {sp' sp xp' xp yp' yp : ℝ} (hsp : |sp' - sp| ≤ 1e-24) (bsp : |sp'| ≤ 0.001)
    (hxp : App 0.0175 1e-17 xp' xp) (hyp : App 0.0175 1e-17 yp' yp) :
    QNear 1e-14 (tirs2i fl fsin fcos qmul xp' yp' sp') (EarthRot.tirs2i xp yp sp) := by
  have hu := u_pos
  have hul := u_lt
  have qx := (near_X hf hT (Near.of_app hyp) (hyp.abs'.trans (by norm_num))).mono (e' := 2.3e-15) (by linarith)
  have qy := (near_Y hf hT (Near.of_app hxp) (hxp.abs'.trans (by norm_num))).mono (e' := 2.3e-15) (by linarith)
  have qz := (near_Z hf hT (Near.of_abs hsp).neg (by rw [abs_neg]; linarith)).mono (e' := 2.3e-15) (by linarith)
  have m1 := (qx.mul hm qy (by norm_num) (by norm_num)).mono (e' := 6e-15) (by linarith)
  exact (m1.mul hm qz (by norm_num) (by norm_num)).mono (by linarith)

include hf hT in
theorem celestialQ_near {qmul : Quat → Quat → Quat} (hm : QuatMul qmul) {X Y s' s d e : ℝ} (hs : |s' - s| ≤ 4e-16) (bs : |s'| ≤ 1)
    (hd : |(spherical fl fatan fatan2 X Y).1 - d| ≤ 4 * u) (bd : |(spherical fl fatan fatan2 X Y).1| ≤ 2)
    (he : Near (4 * u) (spherical fl fatan fatan2 X Y).2 e) (be : |(spherical fl fatan fatan2 X Y).2| ≤ 4) :
    QNear 1.2e-14 (celestialQ fl fsin fcos fatan fatan2 qmul X Y s') (Quat.aaZ (e + s) * Quat.aaY (-d) * Quat.aaZ (-e)) := by
  have hu := u_pos
  have hul := u_lt
  unfold celestialQ
  simp only
  generalize (spherical fl fatan fatan2 X Y).1 = d' at *
  generalize (spherical fl fatan fatan2 X Y).2 = e' at *
  have b3 : |e' + s'| ≤ 5 := (abs_add_le _ _).trans (by linarith)
  have n3 := ((he.add (Near.of_abs hs)).fl hf b3).mono (e' := 1.5e-15) (by linarith)
  have c3 := abs_fl hf b3
  have qz := (near_Z hf hT n3 (by nlinarith)).mono (e' := 3.4e-15) (by linarith)
  have qd := (near_Y hf hT (Near.of_abs hd).neg (by rw [abs_neg]; linarith)).mono (e' := 2.6e-15) (by linarith)
  have qe := (near_Z hf hT he.neg (by rw [abs_neg]; linarith)).mono (e' := 2.6e-15) (by linarith)
  have m3 := (qz.mul hm qd (by norm_num) (by norm_num)).mono (e' := 7.4e-15) (by linarith)
  exact (m3.mul hm qe (by norm_num) (by norm_num)).mono (by linarith)

theorem celestial_lip {X Y d e X' Y' d' e' : ℝ} (h : EarthRot.spherical X Y = some (d, e)) (h' : EarthRot.spherical X' Y' = some (d', e'))
    (hX : |X| ≤ 0.15) (hY : |Y| ≤ 0.15) (hX' : |X'| ≤ 0.15) (hY' : |Y'| ≤ 0.15) (s : ℝ) :
    ‖toH (Quat.aaZ (e' + s) * Quat.aaY (-d') * Quat.aaZ (-e')) - toH (Quat.aaZ (e + s) * Quat.aaY (-d) * Quat.aaZ (-e))‖ ≤ |X' - X| + |Y' - Y| := by
  have := c2tirs_lip h h' hX hY hX' hY' 0 s
  unfold EarthRot.c2tirs at this
  simpa using this

/-! ### The derivative -/

/-- Every entry of a matrix. -/
def MApp (M e : ℝ) (a' a : M3) : Prop :=
  App M e a'.xx a.xx ∧ App M e a'.xy a.xy ∧ App M e a'.xz a.xz ∧ App M e a'.yx a.yx ∧ App M e a'.yy a.yy ∧ App M e a'.yz a.yz ∧
    App M e a'.zx a.zx ∧ App M e a'.zy a.zy ∧ App M e a'.zz a.zz

theorem MApp.close {M e : ℝ} {a' a : M3} (h : MApp M e a' a) : Close e a' a := by
  obtain ⟨h1, h2, h3, h4, h5, h6, h7, h8, h9⟩ := h
  exact ⟨h1.2, h2.2, h3.2, h4.2, h5.2, h6.2, h7.2, h8.2, h9.2⟩

theorem dot3_app {A B a b M e r x' x y' y z' z p' p q' q s' s : ℝ} (h : Dot3 r (x' * p') (y' * q') (z' * s')) (hx : App A a x' x) (hy : App A a y' y)
    (hz : App A a z' z) (hp : App B b p' p) (hq : App B b q' q) (hs : App B b s' s) (hM : 3 * (A * B) ≤ M)
    (he : 3 * (A * b + B * a + a * b) + 1.5e-15 * ((A + a) * (B + b)) ≤ e) : App M e r (x * p + y * q + z * s) := by
  have hul := u_lt
  have A0 := (abs_nonneg _).trans hx.abs'
  have B0 := (abs_nonneg _).trans hp.abs'
  have s0 := ((hx.mul hp).add (hy.mul hq)).add (hz.mul hs)
  refine ⟨s0.1.trans (by linarith), ?_⟩
  have := abs_add_le (r - (x' * p' + y' * q' + z' * s')) (x' * p' + y' * q' + z' * s' - (x * p + y * q + z * s))
  rw [sub_add_sub_cancel] at this
  have big : ∀ {v w : ℝ}, |v| ≤ A + a → |w| ≤ B + b → |v * w| ≤ (A + a) * (B + b) := by
    intro v w hv hw
    rw [abs_mul]
    exact mul_le_mul hv hw (abs_nonneg _) A0
  have b1 := big hx.abs' hp.abs'
  have b2 := big hy.abs' hq.abs'
  have b3 := big hz.abs' hs.abs'
  have P0 : 0 ≤ (A + a) * (B + b) := mul_nonneg A0 B0
  have h1 : |r - (x' * p' + y' * q' + z' * s')| ≤ 1.5e-15 * ((A + a) * (B + b)) := by
    refine h.trans ((mul_le_mul_of_nonneg_left (add_le_add (add_le_add b1 b2) b3) (by have := u_pos; positivity)).trans ?_)
    have := mul_le_mul_of_nonneg_right hul.le P0
    linarith
  have h2 := s0.2
  linarith

theorem MApp.mul {mmul : M3 → M3 → M3} (hm : MatMul mmul) {A a B b M e : ℝ} {p' p q' q : M3} (hp : MApp A a p' p) (hq : MApp B b q' q)
    (hM : 3 * (A * B) ≤ M) (he : 3 * (A * b + B * a + a * b) + 1.5e-15 * ((A + a) * (B + b)) ≤ e) : MApp M e (mmul p' q') (p * q) := by
  obtain ⟨p1, p2, p3, p4, p5, p6, p7, p8, p9⟩ := hp
  obtain ⟨q1, q2, q3, q4, q5, q6, q7, q8, q9⟩ := hq
  obtain ⟨m1, m2, m3, m4, m5, m6, m7, m8, m9⟩ := hm p' q'
  exact ⟨dot3_app m1 p1 p2 p3 q1 q4 q7 hM he, dot3_app m2 p1 p2 p3 q2 q5 q8 hM he, dot3_app m3 p1 p2 p3 q3 q6 q9 hM he,
    dot3_app m4 p4 p5 p6 q1 q4 q7 hM he, dot3_app m5 p4 p5 p6 q2 q5 q8 hM he, dot3_app m6 p4 p5 p6 q3 q6 q9 hM he,
    dot3_app m7 p7 p8 p9 q1 q4 q7 hM he, dot3_app m8 p7 p8 p9 q2 q5 q8 hM he, dot3_app m9 p7 p8 p9 q3 q6 q9 hM he⟩

include hf in
theorem toMat_close {q : Quat} (hw : |q.w| ≤ 1.001) (hx : |q.x| ≤ 1.001) (hy : |q.y| ≤ 1.001) (hz : |q.z| ≤ 1.001) : Close 2.5e-15 (toMat fl q) q.mat := by
  have two : App 2 0 (2 : ℝ) 2 := ⟨by norm_num, by norm_num⟩
  have one : App 1 0 (1 : ℝ) 1 := ⟨by norm_num, by norm_num⟩
  have tt : ∀ {a b : ℝ}, |a| ≤ 1.001 → |b| ≤ 1.001 → App 2.005 5.5e-16 (fl (fl (2 * a) * b)) (2 * a * b) := by
    intro a b ha hb
    have aa : App 1.001 0 a a := ⟨ha, by simp⟩
    have bb : App 1.001 0 b b := ⟨hb, by simp⟩
    exact (flN hf ((flN hf (two.mul aa)).mul bb)).mono (by norm_num) (by norm_num)
  have add : ∀ {a b a' b' : ℝ}, App 2.005 5.5e-16 a' a → App 2.005 5.5e-16 b' b → App 4.01 1.6e-15 (fl (a' + b')) (a + b) := fun ha hb =>
    (flN hf (ha.add hb)).mono (by norm_num) (by norm_num)
  have sub : ∀ {a b a' b' : ℝ}, App 2.005 5.5e-16 a' a → App 2.005 5.5e-16 b' b → App 4.01 1.6e-15 (fl (a' - b')) (a - b) := fun ha hb =>
    (flN hf (ha.sub hb)).mono (by norm_num) (by norm_num)
  have dia : ∀ {a b a' b' : ℝ}, App 2.005 5.5e-16 a' a → App 2.005 5.5e-16 b' b → |fl (1 - fl (a' + b')) - (1 - (a + b))| ≤ 2.5e-15 := fun ha hb =>
    (flN hf (one.sub (add ha hb))).2.trans (by norm_num)
  have le : (1.6e-15 : ℝ) ≤ 2.5e-15 := by norm_num
  exact ⟨dia (tt hy hy) (tt hz hz), (sub (tt hy hx) (tt hz hw)).2.trans le, (add (tt hz hx) (tt hy hw)).2.trans le, (add (tt hy hx) (tt hz hw)).2.trans le,
    dia (tt hx hx) (tt hz hz), (sub (tt hz hy) (tt hx hw)).2.trans le, (sub (tt hz hx) (tt hy hw)).2.trans le, (add (tt hz hy) (tt hx hw)).2.trans le,
    dia (tt hx hx) (tt hy hy)⟩

theorem QNear.size {e : ℝ} {q' q : Quat} (h : QNear e q' q) (he : e ≤ 1e-3) : |q'.w| ≤ 1.001 ∧ |q'.x| ≤ 1.001 ∧ |q'.y| ≤ 1.001 ∧ |q'.z| ≤ 1.001 := by
  have hn : ‖toH q'‖ ≤ 1.001 := by
    rcases h with h | h
    · have := norm_add_le (toH q' - toH q) (toH q)
      rw [sub_add_cancel, h.2] at this
      have := h.1
      linarith
    · have := norm_add_le (toH q' - toH (opp q)) (toH (opp q))
      rw [sub_add_cancel, h.2] at this
      have := h.1
      linarith
  obtain ⟨h1, h2, h3, h4⟩ := comp_le (toH q')
  exact ⟨h1.trans hn, h2.trans hn, h3.trans hn, h4.trans hn⟩

theorem unit_entries {m : M3} (h : m * m.transpose = 1) : MApp 1 0 m m := by
  have h1 : m.xx * m.xx + m.xy * m.xy + m.xz * m.xz = 1 := congrArg M3.xx h
  have h2 : m.yx * m.yx + m.yy * m.yy + m.yz * m.yz = 1 := congrArg M3.yy h
  have h3 : m.zx * m.zx + m.zy * m.zy + m.zz * m.zz = 1 := congrArg M3.zz h
  have key : ∀ {a b c : ℝ}, a * a + b * b + c * c = 1 → App 1 0 a a ∧ App 1 0 b b ∧ App 1 0 c c := by
    intro a b c h
    refine ⟨⟨?_, by simp⟩, ⟨?_, by simp⟩, ⟨?_, by simp⟩⟩ <;> rw [← sq_le_one_iff_abs_le_one] <;> nlinarith [sq_nonneg a, sq_nonneg b, sq_nonneg c]
  obtain ⟨a1, a2, a3⟩ := key h1
  obtain ⟨a4, a5, a6⟩ := key h2
  obtain ⟨a7, a8, a9⟩ := key h3
  exact ⟨a1, a2, a3, a4, a5, a6, a7, a8, a9⟩

include hf in
theorem toMat_app {e E : ℝ} {q' q : Quat} (h : QNear e q' q) (he : e ≤ 1e-3) (hr : q.mat * q.mat.transpose = 1) (hE : 4.01 * e + 2.5e-15 ≤ E) :
    MApp 1 E (toMat fl q') q.mat := by
  obtain ⟨s1, s2, s3, s4⟩ := h.size he
  obtain ⟨c1, c2, c3, c4, c5, c6, c7, c8, c9⟩ := toMat_close hf s1 s2 s3 s4
  obtain ⟨d1, d2, d3, d4, d5, d6, d7, d8, d9⟩ := h.mat he
  obtain ⟨u1, u2, u3, u4, u5, u6, u7, u8, u9⟩ := unit_entries hr
  have key : ∀ {a b c : ℝ}, |a - b| ≤ 2.5e-15 → |b - c| ≤ 4.01 * e → |a - c| ≤ E := by
    intro a b c h1 h2
    have := abs_add_le (a - b) (b - c)
    rw [sub_add_sub_cancel] at this
    linarith
  exact ⟨⟨u1.1, key c1 d1⟩, ⟨u2.1, key c2 d2⟩, ⟨u3.1, key c3 d3⟩, ⟨u4.1, key c4 d4⟩, ⟨u5.1, key c5 d5⟩, ⟨u6.1, key c6 d6⟩, ⟨u7.1, key c7 d7⟩,
    ⟨u8.1, key c8 d8⟩, ⟨u9.1, key c9 d9⟩⟩

include hf in
theorem rate_app {lod : ℝ} (hl : |lod| ≤ 60) : App 7.3e-5 3e-20 (rate fl lod) (EarthRot.rate lod) := by
  have hl2 := abs_le.mp hl
  have om : App 7.2922e-5 0 EarthRot.omegaEarth EarthRot.omegaEarth := ⟨by unfold EarthRot.omegaEarth; norm_num [abs_of_pos], by simp⟩
  have a : App 7e-4 0 (lod / 86400) (lod / 86400) := by
    refine ⟨abs_le.mpr ⟨?_, ?_⟩, by simp⟩
    · rw [le_div_iff₀ (by norm_num)]; linarith
    · rw [div_le_iff₀ (by norm_num)]; linarith
  have one : App 1 0 (1 : ℝ) 1 := ⟨by norm_num, by norm_num⟩
  have b := flN hf (one.sub (flN hf a))
  exact (flN hf ((flN hf om).mul b)).mono (by norm_num) (by norm_num)

include hf hT in
theorem dRdt_app {era' era w' w : ℝ} (he : Near 1e-12 era' era) (hw : App 7.3e-5 3e-20 w' w) :
    MApp 7.3e-5 7.4e-17 (dRdt fl fsin fcos era' w') (EarthRot.dRdt era w) := by
  have hul := u_lt
  obtain ⟨c, s⟩ := near_trig hT he
  have ac : App 1 1.001e-12 (fcos era') (Real.cos era) := ⟨Real.abs_cos_le_one _, c.trans (by linarith)⟩
  have as : App 1 1.001e-12 (fsin era') (Real.sin era) := ⟨Real.abs_sin_le_one _, s.trans (by linarith)⟩
  have hc := (flN hf (hw.mul ac)).mono (M' := 7.3e-5) (e' := 7.4e-17) (by norm_num) (by norm_num)
  have hs := (flN hf (hw.mul as)).mono (M' := 7.3e-5) (e' := 7.4e-17) (by norm_num) (by norm_num)
  have z : App 7.3e-5 7.4e-17 (0 : ℝ) 0 := ⟨by norm_num, by norm_num⟩
  exact ⟨hs.neg, hc, z, hc.neg, hs.neg, z, z, z, z⟩

end

end Verif.RoundedGcrs
