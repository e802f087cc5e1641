import Verif.Proof.RoundedRotation
/-
C119: the other forms of the rotation from GCRS to ITRS in double precision.
-/
namespace Verif.RoundedGcrs
open Verif Verif.Rounding Verif.Rounded Verif.RoundedCip Verif.Iau
open Verif.Cip.Spec (args uas)
open Verif.EarthRot (poleX poleY locator tioLocator arcsec EopRec earthRate)

/-- What all forms start from: pole, locators and angles, computed and exact. -/
structure Front (fl : Arith) (fsin fcos fatan s2r : ℝ → ℝ) (fatan2 : ℝ → ℝ → ℝ) (T t : ℝ) (eops : EopRec) (x y d e d0 e0 : ℝ) : Prop where
  cip : xycip06a fl fsin fcos s2r t = .ok (x, y)
  aX : App 0.13 2.1e-15 (fl (x + s2r eops.dX)) (poleX T + arcsec eops.dX)
  aY : App 0.13 2.1e-15 (fl (y + s2r eops.dY)) (poleY T + arcsec eops.dY)
  bX : |fl (x + s2r eops.dX)| ≤ 0.15
  bY : |fl (y + s2r eops.dY)| ≤ 0.15
  exact : EarthRot.spherical (poleX T + arcsec eops.dX) (poleY T + arcsec eops.dY) = some (d, e)
  inside : (poleX T + arcsec eops.dX) ^ 2 + (poleY T + arcsec eops.dY) ^ 2 ≤ 1
  pole : EarthRot.spherical (fl (x + s2r eops.dX)) (fl (y + s2r eops.dY)) = some (d0, e0)
  hd : |(spherical fl fatan fatan2 (fl (x + s2r eops.dX)) (fl (y + s2r eops.dY))).1 - d0| ≤ 4 * u
  he : Near (4 * u) (spherical fl fatan fatan2 (fl (x + s2r eops.dX)) (fl (y + s2r eops.dY))).2 e0
  be : |(spherical fl fatan fatan2 (fl (x + s2r eops.dX)) (fl (y + s2r eops.dY))).2| ≤ 4
  bd : |(spherical fl fatan fatan2 (fl (x + s2r eops.dX)) (fl (y + s2r eops.dY))).1| ≤ 2
  hs : |s06 fl fsin fcos s2r (fun i => (fargs14 fl s2r t).getD i 0) t x y - locator T| ≤ 4e-16
  bs : |s06 fl fsin fcos s2r (fun i => (fargs14 fl s2r t).getD i 0) t x y| ≤ 1
  hsp : |sp00 fl s2r t - tioLocator T| ≤ 1e-24
  bsp : |sp00 fl s2r t| ≤ 0.001
  hxp : App 0.0175 1e-17 (s2r eops.xp) (arcsec eops.xp)
  hyp : App 0.0175 1e-17 (s2r eops.yp) (arcsec eops.yp)

section
variable {fl : Rounded.Arith} {fsin fcos fatan s2r : ℝ → ℝ} {fatan2 : ℝ → ℝ → ℝ} {qmul : Quat → Quat → Quat} {mmul : M3 → M3 → M3}

theorem front (hf : Faithful fl) (hT : Trig fsin fcos) (hI : InverseTrig fatan fatan2) (hs : SecToRad s2r) {T t : ℝ} (ht : |t - T| ≤ 4 * u) (hr : |T| ≤ 1)
    (eops : EopRec) (hdX : |eops.dX| ≤ 3600) (hdY : |eops.dY| ≤ 3600) (hxp : |eops.xp| ≤ 3600) (hyp : |eops.yp| ≤ 3600) :
    ∃ x y d e d0 e0, Front fl fsin fcos fatan s2r fatan2 T t eops x y d e d0 e0 := by
  have hu := u_pos
  have hul := u_lt
  obtain ⟨x, y, h1, hx, hy, hcio, lcio⟩ := cio_rounded hf hT hs ht hr
  obtain ⟨bx, bY⟩ := Cip.XY_bound (args T) (t := T) (by linarith)
  have htio := tio_rounded hf hs ht hr
  have ax : App 0.13 2.1e-15 (fl (x + s2r eops.dX)) (poleX T + arcsec eops.dX) := by
    refine (((show App 0.11 2e-15 x (poleX T) from ⟨bx, hx⟩).add (arcsec_near hs hdX)).fl hf).mono (by norm_num) (by linarith)
  have ay : App 0.13 2.1e-15 (fl (y + s2r eops.dY)) (poleY T + arcsec eops.dY) := by
    refine (((show App 0.11 2e-15 y (poleY T) from ⟨bY, hy⟩).add (arcsec_near hs hdY)).fl hf).mono (by norm_num) (by linarith)
  have bx' := ax.abs'
  have by' := ay.abs'
  obtain ⟨d0, e0, hsp, nd, ne, be, bd⟩ := spherical_round hf hI (X := fl (x + s2r eops.dX)) (Y := fl (y + s2r eops.dY)) (by linarith) (by linarith)
  have hin := EarthRot.corrected_inside bx bY hdX hdY
  rw [EarthRot.arcsec_eq, EarthRot.arcsec_eq] at hin
  obtain ⟨d, e, hde, -⟩ := EarthRot.spherical_value _ _ hin
  have bcio : |s06 fl fsin fcos s2r (fun i => (fargs14 fl s2r t).getD i 0) t x y| ≤ 1 := (App.abs' ⟨lcio, hcio⟩).trans (by norm_num)
  have btio : |sp00 fl s2r t| ≤ 0.001 := by
    refine (App.abs' (M := 1e-9) ⟨?_, htio⟩).trans (by norm_num)
    have hp := Real.pi_pos
    have hp1 := pi_lt
    have e : tioLocator T = -(47e-6 * (2 * Real.pi / 1296000)) * T := by unfold EarthRot.tioLocator Cip.Spec.uas; ring
    rw [e, abs_mul, abs_neg, abs_of_pos (by positivity)]
    have := mul_le_mul_of_nonneg_left hr (by positivity : 0 ≤ 47e-6 * (2 * Real.pi / 1296000))
    linarith
  exact ⟨x, y, d, e, d0, e0, h1, ax, ay, by linarith, by linarith, hde, hin, hsp, nd, ne, be, bd, hcio, bcio, htio, btio, arcsec_near hs hxp,
    arcsec_near hs hyp⟩

theorem c2i_spec (era s sp d e xp yp : ℝ) : (EarthRot.c2i era s sp d e xp yp).mat =
    (EarthRot.celestial d e s * EarthRot.spin era * EarthRot.polarMotion sp xp yp).transpose := by
  rw [EarthRot.mat_c2i]
  unfold EarthRot.celestial EarthRot.spin EarthRot.polarMotion
  simp only [M3.transpose_mul, EarthRot.R1_transpose, EarthRot.R2_transpose, EarthRot.R3_transpose, neg_neg]
  rw [show sp + era - e - s = sp + (era + (-s + -e)) from by ring, ← EarthRot.R3_mul, ← EarthRot.R3_mul, ← EarthRot.R3_mul]
  simp only [M3.mul_assoc]

theorem c2tirs_spec (era s d e : ℝ) : (EarthRot.c2tirs era s d e).mat = (EarthRot.celestial d e s * EarthRot.spin era).transpose := by
  rw [EarthRot.mat_c2tirs]
  unfold EarthRot.celestial EarthRot.spin
  simp only [M3.transpose_mul, EarthRot.R2_transpose, EarthRot.R3_transpose, neg_neg]
  rw [show era - e - s = era + (-s + -e) from by ring, ← EarthRot.R3_mul, ← EarthRot.R3_mul]
  simp only [M3.mul_assoc]

theorem tirs2i_spec (xp yp sp : ℝ) : (EarthRot.tirs2i xp yp sp).mat = (EarthRot.polarMotion sp xp yp).transpose := by
  rw [EarthRot.mat_tirs2i]
  unfold EarthRot.polarMotion
  simp only [M3.transpose_mul, EarthRot.R1_transpose, EarthRot.R2_transpose, EarthRot.R3_transpose, neg_neg, M3.mul_assoc]

/-- C119, closed form: for every epoch within a century of J2000 and every EOP record with angles up to a degree, `c2i06a_bz` computed in double precision
is the inverse of Q R W of the Conventions up to 3.2e-12 in every entry of its matrix. -/
theorem closed_form_rounded (hf : Faithful fl) (hT : Trig fsin fcos) (hI : InverseTrig fatan fatan2) (hs : SecToRad s2r) (tt ut1 : Epoch) {t f tu t1 : ℝ}
    (ht : |t - tt.jcenturies| ≤ 4 * u) (hu1 : Sees ut1 f tu t1) (hr : |tt.jcenturies| ≤ 1) (hr1 : |ut1.daysSinceJ2000| ≤ 36525) (eops : EopRec)
    (hdX : |eops.dX| ≤ 3600) (hdY : |eops.dY| ≤ 3600) (hxp : |eops.xp| ≤ 3600) (hyp : |eops.yp| ≤ 3600) :
    ∃ q d e, c2i06aBz fl fsin fcos fatan s2r fatan2 t f tu eops = .ok q ∧
      Real.sin d * Real.cos e = poleX tt.jcenturies + arcsec eops.dX ∧ Real.sin d * Real.sin e = poleY tt.jcenturies + arcsec eops.dY ∧
      0 ≤ d ∧ d ≤ Real.pi / 2 ∧
      Close 3.2e-12 q.mat (EarthRot.celestial d e (locator tt.jcenturies) * EarthRot.spin (eraIers ut1.daysSinceJ2000) *
        EarthRot.polarMotion (tioLocator tt.jcenturies) (arcsec eops.xp) (arcsec eops.yp)).transpose := by
  obtain ⟨x, y, d, e, d0, e0, F⟩ := front hf hT hI hs ht hr eops hdX hdY hxp hyp
  have hera := era00_rounded hf ut1 hu1 hr1
  obtain ⟨k1, k2, -, k4, k5⟩ := EarthRot.spherical_spec F.exact
  have n := bz_near hf hT hera (anp_abs hf _) F.hs F.bs F.hsp F.bsp F.bX F.bY F.pole F.hd F.he F.hxp F.hyp
  have lip := c2i_lip F.exact F.pole (F.aX.1.trans (by norm_num)) (F.aY.1.trans (by norm_num)) F.bX F.bY (eraIers ut1.daysSinceJ2000)
    (locator tt.jcenturies) (tioLocator tt.jcenturies) (arcsec eops.xp) (arcsec eops.yp)
  have fin := (n.of_norm (lip.trans (add_le_add F.aX.2 F.aY.2)) (EarthRot.unit_c2i ..)).mono (e' := 7.9e-13) (by norm_num)
  have hc := fin.mat (by norm_num)
  rw [c2i_spec] at hc
  refine ⟨_, d, e, ?_, k1, k2, k4, k5, close_mono hc (by norm_num)⟩
  unfold c2i06aBz
  rw [F.cip]
  rfl

/-- C119, both forms: the closed form and the product of rotations, each with a rounding of its own, differ by at most 6.4e-12 in every entry. -/
theorem forms_agree_rounded {fl' : Rounded.Arith} {fsin' fcos' fatan' s2r' : ℝ → ℝ} {fatan2' : ℝ → ℝ → ℝ} (hf : Faithful fl) (hT : Trig fsin fcos)
    (hI : InverseTrig fatan fatan2) (hs : SecToRad s2r) (hf' : Faithful fl') (hT' : Trig fsin' fcos') (hI' : InverseTrig fatan' fatan2') (hs' : SecToRad s2r')
    (hm : QuatMul qmul) (tt ut1 : Epoch) {t f tu t1 : ℝ}
    (ht : |t - tt.jcenturies| ≤ 4 * u) (hu1 : Sees ut1 f tu t1) (hr : |tt.jcenturies| ≤ 1) (hr1 : |ut1.daysSinceJ2000| ≤ 36525) (eops : EopRec)
    (hdX : |eops.dX| ≤ 3600) (hdY : |eops.dY| ≤ 3600) (hxp : |eops.xp| ≤ 3600) (hyp : |eops.yp| ≤ 3600) :
    ∃ q p, c2i06aBz fl fsin fcos fatan s2r fatan2 t f tu eops = .ok q ∧ c2i06a fl' fsin' fcos' fatan' s2r' fatan2' qmul t f tu eops = .ok p ∧
      Close 6.4e-12 q.mat p.mat := by
  have both : ∃ Q : M3, (∃ q, c2i06aBz fl fsin fcos fatan s2r fatan2 t f tu eops = .ok q ∧ Close 3.2e-12 q.mat Q) ∧
      ∃ p, c2i06a fl' fsin' fcos' fatan' s2r' fatan2' qmul t f tu eops = .ok p ∧ Close 3.2e-12 p.mat Q := by
    obtain ⟨x, y, d, e, d0, e0, F⟩ := front hf hT hI hs ht hr eops hdX hdY hxp hyp
    obtain ⟨x', y', d', e', d0', e0', F'⟩ := front hf' hT' hI' hs' ht hr eops hdX hdY hxp hyp
    have hde : some (d, e) = some (d', e') := by rw [← F.exact, ← F'.exact]
    cases hde
    have n := bz_near hf hT (era00_rounded hf ut1 hu1 hr1) (anp_abs hf _) F.hs F.bs F.hsp F.bsp F.bX F.bY F.pole F.hd F.he F.hxp F.hyp
    have n' := c2i_near hf' hT' hm (era00_rounded hf' ut1 hu1 hr1) (anp_abs hf' _) F'.hs F'.bs F'.hsp F'.bsp F'.hd F'.bd F'.he F'.be F'.hxp F'.hyp
    have lip := c2i_lip F.exact F.pole (F.aX.1.trans (by norm_num)) (F.aY.1.trans (by norm_num)) F.bX F.bY (eraIers ut1.daysSinceJ2000)
      (locator tt.jcenturies) (tioLocator tt.jcenturies) (arcsec eops.xp) (arcsec eops.yp)
    have lip' := c2i_lip F'.exact F'.pole (F'.aX.1.trans (by norm_num)) (F'.aY.1.trans (by norm_num)) F'.bX F'.bY (eraIers ut1.daysSinceJ2000)
      (locator tt.jcenturies) (tioLocator tt.jcenturies) (arcsec eops.xp) (arcsec eops.yp)
    have fin := (n.of_norm (lip.trans (add_le_add F.aX.2 F.aY.2)) (EarthRot.unit_c2i ..)).mono (e' := 7.9e-13) (by norm_num)
    have fin' := (n'.of_norm (lip'.trans (add_le_add F'.aX.2 F'.aY.2)) (EarthRot.unit_c2i ..)).mono (e' := 7.9e-13) (by norm_num)
    refine ⟨_, ⟨_, ?_, close_mono (fin.mat (by norm_num)) (by norm_num)⟩, ⟨_, ?_, close_mono (fin'.mat (by norm_num)) (by norm_num)⟩⟩
    · unfold c2i06aBz
      rw [F.cip]
      rfl
    · unfold c2i06a
      rw [F'.cip]
      rfl
  obtain ⟨Q, ⟨q, h1, c1, c2, c3, c4, c5, c6, c7, c8, c9⟩, p, h2, d1, d2, d3, d4, d5, d6, d7, d8, d9⟩ := both
  refine ⟨q, p, h1, h2, ?_⟩
  have key : ∀ {a b c : ℝ}, |a - c| ≤ 3.2e-12 → |b - c| ≤ 3.2e-12 → |a - b| ≤ 6.4e-12 := by
    intro a b c h1 h2
    have h1 := abs_le.mp h1
    have h2 := abs_le.mp h2
    exact abs_le.mpr ⟨by linarith, by linarith⟩
  exact ⟨key c1 d1, key c2 d2, key c3 d3, key c4 d4, key c5 d5, key c6 d6, key c7 d7, key c8 d8, key c9 d9⟩

/-- The two quaternions and the rate, with the size of the rate and the length of the quaternions. -/
theorem parts_near (hf : Faithful fl) (hT : Trig fsin fcos) (hI : InverseTrig fatan fatan2) (hs : SecToRad s2r) (hm : QuatMul qmul) (tt ut1 : Epoch)
    {t f tu t1 : ℝ} (ht : |t - tt.jcenturies| ≤ 4 * u) (hu1 : Sees ut1 f tu t1) (hr : |tt.jcenturies| ≤ 1) (hr1 : |ut1.daysSinceJ2000| ≤ 36525) (eops : EopRec)
    (hdX : |eops.dX| ≤ 3600) (hdY : |eops.dY| ≤ 3600) (hxp : |eops.xp| ≤ 3600) (hyp : |eops.yp| ≤ 3600) (hl : |eops.lod| ≤ 60) :
    ∃ q p w d e, c2i06aPQ fl fsin fcos fatan s2r fatan2 qmul t f tu eops = .ok (q, p, ⟨0, 0, w⟩) ∧
      Real.sin d * Real.cos e = poleX tt.jcenturies + arcsec eops.dX ∧ Real.sin d * Real.sin e = poleY tt.jcenturies + arcsec eops.dY ∧
      0 ≤ d ∧ d ≤ Real.pi / 2 ∧
      Close 3.2e-12 q.mat (EarthRot.celestial d e (locator tt.jcenturies) * EarthRot.spin (eraIers ut1.daysSinceJ2000)).transpose ∧
      Close 5e-14 p.mat (EarthRot.polarMotion (tioLocator tt.jcenturies) (arcsec eops.xp) (arcsec eops.yp)).transpose ∧
      App 7.3e-5 3e-20 w (earthRate eops.lod) ∧ (∃ q0, QNear 7.9e-13 q q0) ∧ ∃ p0, QNear 1e-14 p p0 := by
  obtain ⟨x, y, d, e, d0, e0, F⟩ := front hf hT hI hs ht hr eops hdX hdY hxp hyp
  have hera := era00_rounded hf ut1 hu1 hr1
  obtain ⟨k1, k2, -, k4, k5⟩ := EarthRot.spherical_spec F.exact
  have n := c2tirs_near hf hT hm hera (anp_abs hf _) F.hs F.bs F.hd F.bd F.he F.be
  have lip := c2tirs_lip F.exact F.pole (F.aX.1.trans (by norm_num)) (F.aY.1.trans (by norm_num)) F.bX F.bY (eraIers ut1.daysSinceJ2000)
    (locator tt.jcenturies)
  have one : Quat.Unit (EarthRot.c2tirs (eraIers ut1.daysSinceJ2000) (locator tt.jcenturies) d e) :=
    ((Quat.unit_Z _).mul (Quat.unit_Y _)).mul (Quat.unit_Z _)
  have fin := (n.of_norm (lip.trans (add_le_add F.aX.2 F.aY.2)) one).mono (e' := 7.9e-13) (by norm_num)
  have hc := fin.mat (by norm_num)
  rw [c2tirs_spec] at hc
  have np := tirs2i_near hf hT hm F.hsp F.bsp F.hxp F.hyp
  have hp := np.mat (by norm_num)
  rw [tirs2i_spec] at hp
  refine ⟨_, _, _, d, e, ?_, k1, k2, k4, k5, close_mono hc (by norm_num), close_mono hp (by norm_num), rate_app hf hl, ⟨_, fin⟩, _, np⟩
  unfold c2i06aPQ
  rw [F.cip]
  rfl

/-- C119, two quaternions: the rotation to TIRS is the inverse of Q R up to 3.2e-12, the one from there to ITRS is the inverse of W up to 5e-14, and the
rotation vector has the rate given by the length of day up to 3e-20 rad/s. -/
theorem parts_rounded (hf : Faithful fl) (hT : Trig fsin fcos) (hI : InverseTrig fatan fatan2) (hs : SecToRad s2r) (hm : QuatMul qmul) (tt ut1 : Epoch)
    {t f tu t1 : ℝ} (ht : |t - tt.jcenturies| ≤ 4 * u) (hu1 : Sees ut1 f tu t1) (hr : |tt.jcenturies| ≤ 1) (hr1 : |ut1.daysSinceJ2000| ≤ 36525) (eops : EopRec)
    (hdX : |eops.dX| ≤ 3600) (hdY : |eops.dY| ≤ 3600) (hxp : |eops.xp| ≤ 3600) (hyp : |eops.yp| ≤ 3600) (hl : |eops.lod| ≤ 60) :
    ∃ q p w d e, c2i06aPQ fl fsin fcos fatan s2r fatan2 qmul t f tu eops = .ok (q, p, ⟨0, 0, w⟩) ∧
      Real.sin d * Real.cos e = poleX tt.jcenturies + arcsec eops.dX ∧ Real.sin d * Real.sin e = poleY tt.jcenturies + arcsec eops.dY ∧
      0 ≤ d ∧ d ≤ Real.pi / 2 ∧
      Close 3.2e-12 q.mat (EarthRot.celestial d e (locator tt.jcenturies) * EarthRot.spin (eraIers ut1.daysSinceJ2000)).transpose ∧
      Close 5e-14 p.mat (EarthRot.polarMotion (tioLocator tt.jcenturies) (arcsec eops.xp) (arcsec eops.yp)).transpose ∧
      |w - earthRate eops.lod| ≤ 3e-20 := by
  obtain ⟨q, p, w, d, e, h1, h2, h3, h4, h5, h6, h7, h8, -⟩ := parts_near hf hT hI hs hm tt ut1 ht hu1 hr hr1 eops hdX hdY hxp hyp hl
  exact ⟨q, p, w, d, e, h1, h2, h3, h4, h5, h6, h7, h8.2⟩

/-- The derivative, with the size of its entries, and the length of the quaternion. -/
theorem derivative_near (hf : Faithful fl) (hT : Trig fsin fcos) (hI : InverseTrig fatan fatan2) (hs : SecToRad s2r) (hm : QuatMul qmul)
    (hmm : MatMul mmul) (tt ut1 : Epoch) {t f tu t1 : ℝ} (ht : |t - tt.jcenturies| ≤ 4 * u) (hu1 : Sees ut1 f tu t1) (hr : |tt.jcenturies| ≤ 1)
    (hr1 : |ut1.daysSinceJ2000| ≤ 36525) (eops : EopRec) (hdX : |eops.dX| ≤ 3600) (hdY : |eops.dY| ≤ 3600) (hxp : |eops.xp| ≤ 3600)
    (hyp : |eops.yp| ≤ 3600) (hl : |eops.lod| ≤ 60) (era : ℝ → ℝ) (τ : ℝ) (h0 : Angle.Cong (era τ) (eraIers ut1.daysSinceJ2000))
    (h1 : HasDerivAt era (earthRate eops.lod) τ) :
    ∃ q dM d e D, c2i06aD fl fsin fcos fatan s2r fatan2 qmul mmul t f tu eops = .ok (q, dM) ∧
      Real.sin d * Real.cos e = poleX tt.jcenturies + arcsec eops.dX ∧ Real.sin d * Real.sin e = poleY tt.jcenturies + arcsec eops.dY ∧
      0 ≤ d ∧ d ≤ Real.pi / 2 ∧
      let M := fun x => (EarthRot.celestial d e (locator tt.jcenturies) * EarthRot.spin (era x) *
        EarthRot.polarMotion (tioLocator tt.jcenturies) (arcsec eops.xp) (arcsec eops.yp)).transpose
      Close 3.2e-12 q.mat (M τ) ∧ (∀ v : V3, Harmonic.Moves (fun x => M x * v) (D * v) τ) ∧ MApp 6.57e-4 1e-15 dM D ∧
        ∃ p, QNear 7.9e-13 q p := by
  obtain ⟨x, y, d, e, d0, e0, F⟩ := front hf hT hI hs ht hr eops hdX hdY hxp hyp
  have hera := era00_rounded hf ut1 hu1 hr1
  -- exact arithmetic
  obtain ⟨q0, D, d1, e1, hD, k1, k2, k4, k5, hq0, hmov⟩ := EarthRot.rate_of_rotation (fun _ _ => ut1) tt eops (by linarith) hdX hdY era τ h0 h1
  unfold EarthRot.c2i06aDAt at hD
  rw [EarthRot.argsAt_ok] at hD
  simp only [Res.bind, Res.ok.injEq] at hD
  have ex : ∀ a : EarthRot.Args, a.Xc = poleX tt.jcenturies + arcsec eops.dX → a.Yc = poleY tt.jcenturies + arcsec eops.dY →
      EarthRot.c2i06aD a = some (q0, D) → q0 = EarthRot.c2i a.era a.s a.sp d e (Angle.sec2rad a.xp) (Angle.sec2rad a.yp) ∧
      D = (EarthRot.tirs2i (Angle.sec2rad a.xp) (Angle.sec2rad a.yp) a.sp).mat * EarthRot.dRdt a.era (EarthRot.rate a.lod) *
        (Quat.aaZ (e + a.s) * Quat.aaY (-d) * Quat.aaZ (-e)).mat := by
    intro a hx hy h
    unfold EarthRot.c2i06aD EarthRot.C at h
    rw [hx, hy, F.exact] at h
    simp only [Option.map_some, Option.bind_some, Option.some.injEq, Prod.mk.injEq] at h
    exact ⟨h.1.symm, h.2.symm⟩
  obtain ⟨eq, eD⟩ := ex _ (by rw [← EarthRot.arcsec_eq]; rfl) (by rw [← EarthRot.arcsec_eq]; rfl) hD
  simp only [EarthRot.arcsec_eq] at eq eD
  have hcong : Near 1e-12 (Rounded.era00 fl f tu) (Iau.era00 ut1) := by
    refine hera.cong ?_
    obtain ⟨k, hk⟩ := (Angle.era00_correct ut1).2
    exact ⟨-k, by push_cast; rw [hk]; ring⟩
  -- rotation
  have n := c2i_near hf hT hm hcong (anp_abs hf _) F.hs F.bs F.hsp F.bsp F.hd F.bd F.he F.be F.hxp F.hyp
  have lip := c2i_lip F.exact F.pole (F.aX.1.trans (by norm_num)) (F.aY.1.trans (by norm_num)) F.bX F.bY (Iau.era00 ut1)
    (locator tt.jcenturies) (tioLocator tt.jcenturies) (arcsec eops.xp) (arcsec eops.yp)
  have fin := (n.of_norm (lip.trans (add_le_add F.aX.2 F.aY.2)) (EarthRot.unit_c2i ..)).mono (e' := 7.9e-13) (by norm_num)
  have hc := fin.mat (by norm_num)
  rw [← eq, hq0] at hc
  -- derivative
  have nC := celestialQ_near hf hT hm F.hs F.bs F.hd F.bd F.he F.be
  have lipC := celestial_lip F.exact F.pole (F.aX.1.trans (by norm_num)) (F.aY.1.trans (by norm_num)) F.bX F.bY (locator tt.jcenturies)
  have one : Quat.Unit (Quat.aaZ (e + locator tt.jcenturies) * Quat.aaY (-d) * Quat.aaZ (-e)) := ((Quat.unit_Z _).mul (Quat.unit_Y _)).mul (Quat.unit_Z _)
  have finC := (nC.of_norm (lipC.trans (add_le_add F.aX.2 F.aY.2)) one).mono (e' := 1.63e-14) (by norm_num)
  have nT := tirs2i_near hf hT hm F.hsp F.bsp F.hxp F.hyp
  have rotC : (Quat.aaZ (e + locator tt.jcenturies) * Quat.aaY (-d) * Quat.aaZ (-e)).mat *
      (Quat.aaZ (e + locator tt.jcenturies) * Quat.aaY (-d) * Quat.aaZ (-e)).mat.transpose = 1 := by
    rw [Quat.mat_mul ((Quat.unit_Z _).mul (Quat.unit_Y _)) (Quat.unit_Z _), Quat.mat_mul (Quat.unit_Z _) (Quat.unit_Y _), EarthRot.mat_Z, EarthRot.mat_Y,
      EarthRot.mat_Z]
    exact (((EarthRot.rot_R3 _).mul (EarthRot.rot_R2 _)).mul (EarthRot.rot_R3 _)).1
  have rotT : (EarthRot.tirs2i (arcsec eops.xp) (arcsec eops.yp) (tioLocator tt.jcenturies)).mat *
      (EarthRot.tirs2i (arcsec eops.xp) (arcsec eops.yp) (tioLocator tt.jcenturies)).mat.transpose = 1 := by
    rw [EarthRot.mat_tirs2i]
    exact (((EarthRot.rot_R1 _).mul (EarthRot.rot_R2 _)).mul (EarthRot.rot_R3 _)).1
  have mC := toMat_app hf finC (by norm_num) rotC (E := 6.8e-14) (by norm_num)
  have mT := toMat_app hf nT (by norm_num) rotT (E := 4.3e-14) (by norm_num)
  have mR := dRdt_app hf hT hcong (rate_app hf hl)
  have p1 := mT.mul hmm mR (M := 2.19e-4) (e := 2.4e-16) (by norm_num) (by norm_num)
  have p2 := p1.mul hmm mC (M := 6.57e-4) (e := 1e-15) (by norm_num) (by norm_num)
  refine ⟨_, _, d1, e1, D, ?_, k1, k2, k4, k5, close_mono hc (by norm_num), hmov, by rw [eD]; exact p2, _, fin⟩
  unfold c2i06aD
  rw [F.cip]
  rfl

/-- C119, derivative: the matrix that `c2i06a` returns with the rotation is, up to 1e-15 per second in every entry, the derivative of the inverse of Q R W
of the Conventions while the Earth rotation angle grows at the rate given by the length of day and everything else stays fixed; the rotation is as
accurate as that of C105. -/
theorem derivative_rounded (hf : Faithful fl) (hT : Trig fsin fcos) (hI : InverseTrig fatan fatan2) (hs : SecToRad s2r) (hm : QuatMul qmul)
    (hmm : MatMul mmul) (tt ut1 : Epoch) {t f tu t1 : ℝ} (ht : |t - tt.jcenturies| ≤ 4 * u) (hu1 : Sees ut1 f tu t1) (hr : |tt.jcenturies| ≤ 1)
    (hr1 : |ut1.daysSinceJ2000| ≤ 36525) (eops : EopRec) (hdX : |eops.dX| ≤ 3600) (hdY : |eops.dY| ≤ 3600) (hxp : |eops.xp| ≤ 3600)
    (hyp : |eops.yp| ≤ 3600) (hl : |eops.lod| ≤ 60) (era : ℝ → ℝ) (τ : ℝ) (h0 : Angle.Cong (era τ) (eraIers ut1.daysSinceJ2000))
    (h1 : HasDerivAt era (earthRate eops.lod) τ) :
    ∃ q dM d e D, c2i06aD fl fsin fcos fatan s2r fatan2 qmul mmul t f tu eops = .ok (q, dM) ∧
      Real.sin d * Real.cos e = poleX tt.jcenturies + arcsec eops.dX ∧ Real.sin d * Real.sin e = poleY tt.jcenturies + arcsec eops.dY ∧
      0 ≤ d ∧ d ≤ Real.pi / 2 ∧
      let M := fun x => (EarthRot.celestial d e (locator tt.jcenturies) * EarthRot.spin (era x) *
        EarthRot.polarMotion (tioLocator tt.jcenturies) (arcsec eops.xp) (arcsec eops.yp)).transpose
      Close 3.2e-12 q.mat (M τ) ∧ (∀ v : V3, Harmonic.Moves (fun x => M x * v) (D * v) τ) ∧ Close 1e-15 dM D := by
  obtain ⟨q, dM, d, e, D, g1, g2, g3, g4, g5, g6, g7, g8, -⟩ := derivative_near hf hT hI hs hm hmm tt ut1 ht hu1 hr hr1 eops hdX hdY hxp hyp hl era τ h0 h1
  exact ⟨q, dM, d, e, D, g1, g2, g3, g4, g5, g6, g7, g8.close⟩

end

/-- The product of matrices above is accurate. -/
theorem matProduct_ok {fl : Rounded.Arith} (hf : Faithful fl) : MatMul (matProduct fl) := by
  have hu := u_pos
  have hul := u_lt
  have key : ∀ (k : ℕ) (x y z : ℝ), Dot3 (fl (fl (fl.pr k x + fl.pr (k + 1) y) + fl.pr (k + 2) z)) x y z := by
    intro k x y z
    have ex : ∀ v : ℝ, App |v| 0 v v := fun v => ⟨le_rfl, by simp⟩
    have h := ((((((ex x).pr hf k).add ((ex y).pr hf (k + 1))).fl hf).add ((ex z).pr hf (k + 2))).fl hf).2
    refine h.trans ?_
    have x0 := abs_nonneg x
    have y0 := abs_nonneg y
    have z0 := abs_nonneg z
    generalize |x| = a at *
    generalize |y| = b at *
    generalize |z| = c at *
    have hs := u_sq
    have c3 : u * u * u ≤ 1e-15 * u := by nlinarith
    have p1 : u * u * (a + b + c) ≤ 1e-15 * u * (a + b + c) := mul_le_mul_of_nonneg_right hs (by linarith)
    have p2 : u * u * u * (a + b + c) ≤ 1e-15 * u * (a + b + c) := mul_le_mul_of_nonneg_right c3 (by linarith)
    have q0 : 0 ≤ u * a := by positivity
    have q1 : 0 ≤ u * b := by positivity
    have q2 : 0 ≤ u * c := by positivity
    have q3 : 0 ≤ u * u * c := by positivity
    have q4 : 0 ≤ u * u * u * c := by positivity
    ring_nf at *
    linarith
  intro a b
  exact ⟨key _ _ _ _, key _ _ _ _, key _ _ _ _, key _ _ _ _, key _ _ _ _, key _ _ _ _, key _ _ _ _, key _ _ _ _, key _ _ _ _⟩

/-- The hypotheses can be met: rounding to nearest, whichever products are fused, exact functions of the C library, and the products above, at noon of
MJD 56084. -/
example (s : ℕ → Bool) : ∃ q dM q' p' w b, let t : ℝ := (56084 + 0.5 - 51544.5) / 36525
    let d : ℝ := 56084 + 0.5 - 51544.5
    let r : EopRec := ⟨0.1, 0.3, 0.0002, -0.0001, 0.001, 0.0005⟩
    let s2r : ℝ → ℝ := fun x => x * (2 * Real.pi / 1296000)
    let a2 : ℝ → ℝ → ℝ := fun y x => Complex.arg ⟨x, y⟩
    c2i06aD (rnArith s) Real.sin Real.cos Real.arctan s2r a2 (product (rnArith s)) (matProduct (rnArith s)) t 0.5 d r = .ok (q, dM) ∧
    c2i06aPQ (rnArith s) Real.sin Real.cos Real.arctan s2r a2 (product (rnArith s)) t 0.5 d r = .ok (q', p', ⟨0, 0, w⟩) ∧
    c2i06aBz (rnArith s) Real.sin Real.cos Real.arctan s2r a2 t 0.5 d r = .ok b ∧ |w - earthRate (-0.0001)| ≤ 3e-20 := by
  have hu := u_pos
  let ep : Epoch := ⟨56084, 0.5, by norm_num, by norm_num⟩
  have hd : ep.daysSinceJ2000 = 56084 + 0.5 - 51544.5 := by show ((56084 : ℤ) : ℝ) + 0.5 - 51544.5 = _; norm_num
  have hs : Sees ep 0.5 (56084 + 0.5 - 51544.5) ((56084 + 0.5 - 51544.5) / 36525) :=
    ⟨by simp [ep, hu.le], by rw [hd, sub_self, abs_zero]; positivity, by unfold Epoch.jcenturies; rw [hd, sub_self, abs_zero]; positivity⟩
  have hj : ep.jcenturies = 4540 / 36525 := by unfold Epoch.jcenturies; rw [hd]; norm_num
  have he : ep.daysSinceJ2000 = 4540 := by rw [hd]; norm_num
  have trig : Trig Real.sin Real.cos := ⟨fun x => by simp [hu.le], fun x => by simp [hu.le]⟩
  have h1 : |((56084 : ℝ) + 0.5 - 51544.5) / 36525 - ep.jcenturies| ≤ 4 * u := by
    rw [hj, show ((56084 : ℝ) + 0.5 - 51544.5) / 36525 = 4540 / 36525 by norm_num, sub_self, abs_zero]; positivity
  have h2 : |ep.jcenturies| ≤ 1 := by rw [hj]; norm_num [abs_of_pos]
  have h3 : |ep.daysSinceJ2000| ≤ 36525 := by rw [he]; norm_num [abs_of_pos]
  obtain ⟨q, dM, d, e, D, g1, -⟩ := derivative_rounded (rn_faithful s) trig (show InverseTrig Real.arctan _ from inverse_exact) s2r_exact
    (product_ok (rn_faithful s)) (matProduct_ok (rn_faithful s)) ep ep h1 hs h2 h3 ⟨0.1, 0.3, 0.0002, -0.0001, 0.001, 0.0005⟩
    (by norm_num [abs_of_pos]) (by norm_num [abs_of_pos]) (by norm_num [abs_of_pos]) (by norm_num [abs_of_pos]) (by norm_num [abs_of_pos])
    (fun x => eraIers ep.daysSinceJ2000 + earthRate (-0.0001) * x) 0 ⟨0, by simp⟩
    (by simpa using ((hasDerivAt_id (0 : ℝ)).const_mul (earthRate (-0.0001))).const_add (eraIers ep.daysSinceJ2000))
  obtain ⟨q', p', w, d', e', g2, -, -, -, -, -, -, g4⟩ := parts_rounded (rn_faithful s) trig (show InverseTrig Real.arctan _ from inverse_exact) s2r_exact
    (product_ok (rn_faithful s)) ep ep h1 hs h2 h3 ⟨0.1, 0.3, 0.0002, -0.0001, 0.001, 0.0005⟩
    (by norm_num [abs_of_pos]) (by norm_num [abs_of_pos]) (by norm_num [abs_of_pos]) (by norm_num [abs_of_pos]) (by norm_num [abs_of_pos])
  obtain ⟨b, p, g3, -, -⟩ := forms_agree_rounded (rn_faithful s) trig (show InverseTrig Real.arctan _ from inverse_exact) s2r_exact
    (rn_faithful s) trig (show InverseTrig Real.arctan _ from inverse_exact) s2r_exact
    (product_ok (rn_faithful s)) ep ep h1 hs h2 h3 ⟨0.1, 0.3, 0.0002, -0.0001, 0.001, 0.0005⟩
    (by norm_num [abs_of_pos]) (by norm_num [abs_of_pos]) (by norm_num [abs_of_pos]) (by norm_num [abs_of_pos])
  exact ⟨q, dM, q', p', w, b, g1, g2, g3, g4⟩

end Verif.RoundedGcrs
