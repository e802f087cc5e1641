import Verif.Props.RoundedRotation
/-
Rounding errors of the forms of the rotation for the same angles.
-/
namespace Verif.RoundedGcrs
open Verif Verif.Rounding Verif.Rounded Verif.RoundedCip Verif.Iau
open Verif.EarthRot (poleX poleY locator tioLocator arcsec EopRec)

theorem zero (x : ℝ) : |x - x| ≤ 0 := by simp

theorem same {x : ℝ} (h : |x| ≤ 0.0175) : App 0.0175 1e-17 x x := ⟨h, by norm_num⟩

section
variable {fl : Rounded.Arith} {fsin fcos fatan : ℝ → ℝ} {fatan2 : ℝ → ℝ → ℝ} (hf : Faithful fl) (hT : Trig fsin fcos)

include hf in
theorem entry_tight (k : ℕ) {fac' fac c' c s' s p' p q' q MP MQ : ℝ} (hfac : App 0.51 5.5e-16 fac' fac) (hc : App 1 2.4e-15 c' c) (hs : App 1 2.4e-15 s' s)
    (hp : App MP 5e-15 p' p) (hq : App MQ 5e-15 q' q) (hM : MP + MQ ≤ 2.02) :
    |entry fl k fac' c' s' p' q' - fac * (c * p + s * q)| ≤ 0.51 * 2.4e-15 * (MP + MQ) + 1e-14 := by
  have p0 := (abs_nonneg _).trans hp.1
  have q0 := (abs_nonneg _).trans hq.1
  have h1 := (prN hf k (hc.mul hp)).mono (M' := MP) (e' := 2.6e-15 * MP + 5.1e-15) (by linarith) (by linarith)
  have h2 := (prN hf (k + 1) (hs.mul hq)).mono (M' := MQ) (e' := 2.6e-15 * MQ + 5.1e-15) (by linarith) (by linarith)
  have h3 := (flN hf (h1.add h2)).mono (M' := MP + MQ) (e' := 2.8e-15 * (MP + MQ) + 1.03e-14) le_rfl (by linarith)
  have h4 := flN hf (hfac.mul h3)
  refine h4.2.trans ?_
  linarith

include hf in
/-- All components of the closed form. -/
theorem closed_tight {fac' fac c' c s' s X' X Y' Y pZ' pZ tw' tw aw' aw bw' bw cw' cw : ℝ} (hfac : App 0.51 5.5e-16 fac' fac) (hc : App 1 2.4e-15 c' c)
    (hs : App 1 2.4e-15 s' s) (hX : App 0.15 1.8e-15 X' X) (hY : App 0.15 1.8e-15 Y' Y) (hZ : App 2 1.1e-15 pZ' pZ) (htw : App 1 7e-16 tw' tw)
    (haw : App 0.009 2.8e-16 aw' aw) (hbw : App 0.009 2.8e-16 bw' bw) (hcw : App 1e-4 1e-17 cw' cw) :
    ‖toH ⟨entry fl 100 fac' c' s' (row fl 0 false true (X' * bw') (Y' * aw') (pZ' * tw')) (row fl 3 true true (X' * aw') (Y' * bw') (pZ' * cw')),
      entry fl 102 fac' c' s' (row fl 6 true true (X' * cw') (Y' * tw') (pZ' * aw')) (row fl 9 true false (-X' * tw') (Y' * cw') (pZ' * bw')),
      entry fl 104 fac' c' s' (row fl 12 true true (-X' * tw') (Y' * cw') (pZ' * bw')) (row fl 15 false true (-X' * cw') (Y' * tw') (pZ' * aw')),
      entry fl 106 fac' c' s' (row fl 18 false true (-X' * aw') (Y' * bw') (pZ' * cw')) (row fl 21 false false (X' * bw') (Y' * aw') (pZ' * tw'))⟩ -
      toH (closed c s fac X Y pZ tw aw bw cw)‖ ≤ 2.4e-14 := by
  have xb := (hX.mul hbw).mono (M' := 0.00135) (e' := 1e-16) (by norm_num) (by norm_num)
  have xa := (hX.mul haw).mono (M' := 0.00135) (e' := 1e-16) (by norm_num) (by norm_num)
  have yb := (hY.mul hbw).mono (M' := 0.00135) (e' := 1e-16) (by norm_num) (by norm_num)
  have ya := (hY.mul haw).mono (M' := 0.00135) (e' := 1e-16) (by norm_num) (by norm_num)
  have nxa := (hX.neg.mul haw).mono (M' := 0.00135) (e' := 1e-16) (by norm_num) (by norm_num)
  have xc := (hX.mul hcw).mono (M' := 1.5e-5) (e' := 1e-17) (by norm_num) (by norm_num)
  have nxc := (hX.neg.mul hcw).mono (M' := 1.5e-5) (e' := 1e-17) (by norm_num) (by norm_num)
  have yc := (hY.mul hcw).mono (M' := 1.5e-5) (e' := 1e-17) (by norm_num) (by norm_num)
  have nxt := (hX.neg.mul htw).mono (M' := 0.15) (e' := 2e-15) (by norm_num) (by norm_num)
  have yt := (hY.mul htw).mono (M' := 0.15) (e' := 2e-15) (by norm_num) (by norm_num)
  have zt := (hZ.mul htw).mono (M' := 2) (e' := 2.6e-15) (by norm_num) (by norm_num)
  have za := (hZ.mul haw).mono (M' := 0.018) (e' := 6e-16) (by norm_num) (by norm_num)
  have zb := (hZ.mul hbw).mono (M' := 0.018) (e' := 6e-16) (by norm_num) (by norm_num)
  have zc := (hZ.mul hcw).mono (M' := 2e-4) (e' := 3e-17) (by norm_num) (by norm_num)
  have t := entry_tight hf 100 hfac hc hs (row_app hf 0 false true xb ya zt (M := 2.01) (by norm_num) (by norm_num) (by norm_num))
    (row_app hf 3 true true xa yb zc (M := 0.003) (by norm_num) (by norm_num) (by norm_num)) (by norm_num)
  have a := entry_tight hf 102 hfac hc hs (row_app hf 6 true true xc yt za (M := 0.17) (by norm_num) (by norm_num) (by norm_num))
    (row_app hf 9 true false nxt yc zb (M := 0.17) (by norm_num) (by norm_num) (by norm_num)) (by norm_num)
  have b := entry_tight hf 104 hfac hc hs (row_app hf 12 true true nxt yc zb (M := 0.17) (by norm_num) (by norm_num) (by norm_num))
    (row_app hf 15 false true nxc yt za (M := 0.17) (by norm_num) (by norm_num) (by norm_num)) (by norm_num)
  have g := entry_tight hf 106 hfac hc hs (row_app hf 18 false true nxa yb zc (M := 0.003) (by norm_num) (by norm_num) (by norm_num))
    (row_app hf 21 false false xb ya zt (M := 2.01) (by norm_num) (by norm_num) (by norm_num)) (by norm_num)
  simp only [pm, Bool.false_eq_true, if_true, if_false] at t a b g
  refine norm_le (by norm_num) ?_
  have sq : ∀ {x b : ℝ}, |x| ≤ b → x ^ 2 ≤ b ^ 2 := fun {x b} h => sq_le_sq' (abs_le.mp h).1 (abs_le.mp h).2
  have t2 := sq t
  have a2 := sq a
  have b2 := sq b
  have g2 := sq g
  refine (add_le_add (add_le_add (add_le_add t2 a2) b2) g2).trans (by norm_num)

include hf hT in
/-- The closed form. -/
theorem bz_tight {era s sp X Y d e xp yp : ℝ} (bera : |era| ≤ 6.284)
    (bs : |s| ≤ 1) (bsp : |sp| ≤ 0.001) (hX : |X| ≤ 0.15) (hY : |Y| ≤ 0.15)
    (hde : EarthRot.spherical X Y = some (d, e)) (hd : |(spherical fl fatan fatan2 X Y).1 - d| ≤ 4 * u)
    (he : Near (4 * u) (spherical fl fatan fatan2 X Y).2 e) (bx : |xp| ≤ 0.0175) (by' : |yp| ≤ 0.0175) :
    QNear 2.4e-14 (bz fl fsin fcos fatan fatan2 era s sp X Y xp yp) (EarthRot.c2i era s sp d e xp yp) := by
  have hu := u_pos
  have hul := u_lt
  obtain ⟨x1, y1, z1, d0, d1⟩ := EarthRot.spherical_spec hde
  obtain ⟨cx, sx⟩ := small_half hf hT (same bx)
  obtain ⟨cy, sy⟩ := small_half hf hT (same by')
  have htw := (flN hf (cx.mul cy)).mono (M' := 1) (e' := 7e-16) (by norm_num) (by norm_num)
  have haw := (flN hf (cx.mul sy)).mono (M' := 0.009) (e' := 2.8e-16) (by norm_num) (by norm_num)
  have hbw := (flN hf (cy.mul sx)).mono (M' := 0.009) (e' := 2.8e-16) (by norm_num) (by norm_num)
  have hcw := (flN hf (sx.mul sy)).mono (M' := 1e-4) (e' := 1e-17) (by norm_num) (by norm_num)
  -- the pole
  obtain ⟨cd, sd⟩ := near_trig hT (Near.of_abs hd)
  obtain ⟨ce, se⟩ := near_trig hT he
  have acd : App 1 7.2e-16 (fcos (spherical fl fatan fatan2 X Y).1) (Real.cos d) := ⟨Real.abs_cos_le_one _, cd.trans (by linarith)⟩
  have asd : App 1 7.2e-16 (fsin (spherical fl fatan fatan2 X Y).1) (Real.sin d) := ⟨Real.abs_sin_le_one _, sd.trans (by linarith)⟩
  have ace : App 1 7.2e-16 (fcos (spherical fl fatan fatan2 X Y).2) (Real.cos e) := ⟨Real.abs_cos_le_one _, ce.trans (by linarith)⟩
  have ase : App 1 7.2e-16 (fsin (spherical fl fatan fatan2 X Y).2) (Real.sin e) := ⟨Real.abs_sin_le_one _, se.trans (by linarith)⟩
  have aX : App 0.15 1.8e-15 (fl (fsin (spherical fl fatan fatan2 X Y).1 * fcos (spherical fl fatan fatan2 X Y).2)) (Real.sin d * Real.cos e) :=
    ⟨by rw [x1]; exact hX, (flN hf (asd.mul ace)).2.trans (by norm_num)⟩
  have aY : App 0.15 1.8e-15 (fl (fsin (spherical fl fatan fatan2 X Y).1 * fsin (spherical fl fatan fatan2 X Y).2)) (Real.sin d * Real.sin e) :=
    ⟨by rw [y1]; exact hY, (flN hf (asd.mul ase)).2.trans (by norm_num)⟩
  have zl : 0.95 ≤ Real.cos d := by
    rw [z1]
    apply Real.le_sqrt_of_sq_le
    have := abs_le.mp hX
    have := abs_le.mp hY
    nlinarith
  obtain ⟨aZ, afac⟩ := fac_app hf acd zl
  -- the angle about the third axis
  have b1 : |era + sp| ≤ 6.3 := (abs_add_le _ _).trans (by linarith)
  have n1 := (Near.of_abs (zero (era + sp))).fl hf b1
  have c1 := abs_fl hf b1
  have b2 : |fl (era + sp) - s| ≤ 7.4 := (abs_sub _ _).trans (by nlinarith)
  have n2 := ((n1.sub (Near.of_abs (zero s))).fl hf b2).mono (e' := 1.7e-15) (by linarith)
  have c2 := abs_fl hf b2
  have key := trig_half hf hT n2 (by nlinarith)
  rw [closed_eq hde]
  have hone : Quat.Unit (EarthRot.c2i era s sp d e xp yp) := EarthRot.unit_c2i ..
  rw [closed_eq hde] at hone
  rcases key with ⟨k1, k2⟩ | ⟨k1, k2⟩
  · refine .inl ⟨?_, unit_norm hone⟩
    exact closed_tight hf afac ⟨Real.abs_cos_le_one _, k1.trans (by linarith)⟩ ⟨Real.abs_sin_le_one _, k2.trans (by linarith)⟩ aX aY aZ htw haw hbw hcw
  · refine .inr ⟨?_, opp_norm hone⟩
    rw [← closed_neg]
    exact closed_tight hf afac ⟨by rw [abs_neg]; exact Real.abs_cos_le_one _, by rw [sub_neg_eq_add]; exact k1.trans (by linarith)⟩
      ⟨by rw [abs_neg]; exact Real.abs_sin_le_one _, by rw [sub_neg_eq_add]; exact k2.trans (by linarith)⟩ aX aY aZ htw haw hbw hcw

include hf hT in
/-- The product of the five rotations. -/
theorem c2i_tight {qmul : Quat → Quat → Quat} (hm : QuatMul qmul) {era s sp d' d e' e xp yp : ℝ} (bera : |era| ≤ 6.284) (bs : |s| ≤ 1)
    (bsp : |sp| ≤ 0.001) (hd : |d' - d| ≤ 4 * u) (bd : |d'| ≤ 2) (he : Near (4 * u) e' e) (be : |e'| ≤ 4) (bx : |xp| ≤ 0.0175) (by' : |yp| ≤ 0.0175) :
    QNear 2.1e-14 (c2i fl fsin fcos qmul era s sp d' e' xp yp) (EarthRot.c2i era s sp d e xp yp) := by
  have hu := u_pos
  have hul := u_lt
  have b1 : |-sp - era| ≤ 6.3 := by
    rw [show -sp - era = -(sp + era) by ring, abs_neg]
    exact (abs_add_le _ _).trans (by linarith)
  have n1 := (Near.of_abs (zero (-sp - era))).fl hf b1
  have c1 := abs_fl hf b1
  have b2 : |fl (-sp - era) + e'| ≤ 10.4 := (abs_add_le _ _).trans (by nlinarith)
  have n2 := (n1.add he).fl hf b2
  have c2 := abs_fl hf b2
  have b3 : |fl (fl (-sp - era) + e') + s| ≤ 11.5 := (abs_add_le _ _).trans (by nlinarith)
  have n3 := ((n2.add (Near.of_abs (zero s))).fl hf b3).mono (e' := 3.9e-15) (by linarith)
  have c3 := abs_fl hf b3
  have qz := (near_Z hf hT n3 (by nlinarith)).mono (e' := 5.1e-15) (by linarith)
  have qx := (near_X hf hT (Near.of_abs (zero yp)) (by'.trans (by norm_num))).mono (e' := 2.3e-15) (by linarith)
  have qy := (near_Y hf hT (Near.of_abs (zero xp)) (bx.trans (by norm_num))).mono (e' := 2.3e-15) (by linarith)
  have qd := (near_Y hf hT (Near.of_abs hd).neg (by rw [abs_neg]; linarith)).mono (e' := 2.6e-15) (by linarith)
  have qe := (near_Z hf hT he.neg (by rw [abs_neg]; linarith)).mono (e' := 2.6e-15) (by linarith)
  have m1 := (qx.mul hm qy (by norm_num) (by norm_num)).mono (e' := 6e-15) (by linarith)
  have m2 := (m1.mul hm qz (by norm_num) (by norm_num)).mono (e' := 1.25e-14) (by linarith)
  have m3 := (m2.mul hm qd (by norm_num) (by norm_num)).mono (e' := 1.65e-14) (by linarith)
  exact (m3.mul hm qe (by norm_num) (by norm_num)).mono (by linarith)

include hf hT in
theorem c2tirs_tight {qmul : Quat → Quat → Quat} (hm : QuatMul qmul) {era s d' d e' e : ℝ} (bera : |era| ≤ 6.284)
    (bs : |s| ≤ 1) (hd : |d' - d| ≤ 4 * u) (bd : |d'| ≤ 2) (he : Near (4 * u) e' e) (be : |e'| ≤ 4) :
    QNear 1.26e-14 (c2tirs fl fsin fcos qmul era s d' e') (EarthRot.c2tirs era s d e) := by
  have hu := u_pos
  have hul := u_lt
  have b2 : |-era + e'| ≤ 10.4 := (abs_add_le _ _).trans (by rw [abs_neg]; linarith)
  have n2 := ((Near.of_abs (zero era)).neg.add he).fl hf b2
  have c2 := abs_fl hf b2
  have b3 : |fl (-era + e') + s| ≤ 11.5 := (abs_add_le _ _).trans (by nlinarith)
  have n3 := ((n2.add (Near.of_abs (zero s))).fl hf b3).mono (e' := 3.2e-15) (by linarith)
  have c3 := abs_fl hf b3
  have qz := (near_Z hf hT n3 (by nlinarith)).mono (e' := 4.6e-15) (by linarith)
  have qd := (near_Y hf hT (Near.of_abs hd).neg (by rw [abs_neg]; linarith)).mono (e' := 2.6e-15) (by linarith)
  have qe := (near_Z hf hT he.neg (by rw [abs_neg]; linarith)).mono (e' := 2.6e-15) (by linarith)
  have m3 := (qz.mul hm qd (by norm_num) (by norm_num)).mono (e' := 8.6e-15) (by linarith)
  exact (m3.mul hm qe (by norm_num) (by norm_num)).mono (by linarith)

end

end Verif.RoundedGcrs
