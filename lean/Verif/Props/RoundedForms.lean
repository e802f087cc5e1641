import Verif.Proof.RoundedForms
import Verif.Props.RoundedState
/-
C119, C122: in one build of the library the forms of the rotation agree far better than each is accurate.
-/
namespace Verif.RoundedGcrs
open Verif Verif.Rounding Verif.Rounded Verif.RoundedCip Verif.Iau
open Verif.EarthRot (poleX poleY locator tioLocator arcsec EopRec earthRate)
open Verif.RoundedState (Turns Close3 size rotation_bounded size_nonneg turned2 Close3.mono Bounded)

theorem close_tri {a b c : M3} {ε δ : ℝ} (h : Close ε a c) (k : Close δ b c) : Close (ε + δ) a b := by
  have key : ∀ {x y z : ℝ}, |x - z| ≤ ε → |y - z| ≤ δ → |x - y| ≤ ε + δ := by
    intro x y z h1 h2
    have h1 := abs_le.mp h1
    have h2 := abs_le.mp h2
    exact abs_le.mpr ⟨by linarith, by linarith⟩
  obtain ⟨h1, h2, h3, h4, h5, h6, h7, h8, h9⟩ := h
  obtain ⟨k1, k2, k3, k4, k5, k6, k7, k8, k9⟩ := k
  exact ⟨key h1 k1, key h2 k2, key h3 k3, key h4 k4, key h5 k5, key h6 k6, key h7 k7, key h8 k8, key h9 k9⟩

/-- Entries of a product of nearly orthogonal matrices. -/
theorem close_mul {a A b B : M3} {ε δ : ℝ} (ha : Close ε a A) (hb : Close δ b B) (bA : Bounded 1 A) (bB : Bounded 1 B) (he : ε ≤ 1e-3) :
    Close (3 * (ε + 1.001 * δ)) (a * b) (A * B) := by
  obtain ⟨a1, a2, a3, a4, a5, a6, a7, a8, a9⟩ := ha
  obtain ⟨b1, b2, b3, b4, b5, b6, b7, b8, b9⟩ := hb
  obtain ⟨A1, A2, A3, A4, A5, A6, A7, A8, A9⟩ := bA
  obtain ⟨B1, B2, B3, B4, B5, B6, B7, B8, B9⟩ := bB
  have one : ∀ {x X y Y : ℝ}, |x - X| ≤ ε → |X| ≤ 1 → |y - Y| ≤ δ → |Y| ≤ 1 → |x * y - X * Y| ≤ ε + 1.001 * δ := by
    intro x X y Y h1 h2 h3 h4
    have hd : 0 ≤ δ := (abs_nonneg _).trans h3
    have he0 : 0 ≤ ε := (abs_nonneg _).trans h1
    have hx : |x| ≤ 1.001 := by
      have := abs_add_le (x - X) X
      rw [sub_add_cancel] at this
      linarith
    rw [show x * y - X * Y = x * (y - Y) + (x - X) * Y by ring]
    refine (abs_add_le _ _).trans ?_
    rw [abs_mul, abs_mul]
    have k1 := mul_le_mul hx h3 (abs_nonneg _) (by norm_num)
    have k2 := mul_le_mul h1 h4 (abs_nonneg _) he0
    linarith
  have three : ∀ {x y z X Y Z : ℝ}, |x - X| ≤ ε + 1.001 * δ → |y - Y| ≤ ε + 1.001 * δ → |z - Z| ≤ ε + 1.001 * δ →
      |x + y + z - (X + Y + Z)| ≤ 3 * (ε + 1.001 * δ) := by
    intro x y z X Y Z h1 h2 h3
    have h1 := abs_le.mp h1
    have h2 := abs_le.mp h2
    have h3 := abs_le.mp h3
    exact abs_le.mpr ⟨by linarith, by linarith⟩
  rw [M3.mul_def, M3.mul_def]
  exact ⟨three (one a1 A1 b1 B1) (one a2 A2 b4 B4) (one a3 A3 b7 B7), three (one a1 A1 b2 B2) (one a2 A2 b5 B5) (one a3 A3 b8 B8),
    three (one a1 A1 b3 B3) (one a2 A2 b6 B6) (one a3 A3 b9 B9), three (one a4 A4 b1 B1) (one a5 A5 b4 B4) (one a6 A6 b7 B7),
    three (one a4 A4 b2 B2) (one a5 A5 b5 B5) (one a6 A6 b8 B8), three (one a4 A4 b3 B3) (one a5 A5 b6 B6) (one a6 A6 b9 B9),
    three (one a7 A7 b1 B1) (one a8 A8 b4 B4) (one a9 A9 b7 B7), three (one a7 A7 b2 B2) (one a8 A8 b5 B5) (one a9 A9 b8 B8),
    three (one a7 A7 b3 B3) (one a8 A8 b6 B6) (one a9 A9 b9 B9)⟩

section
variable {fl : Rounded.Arith} {fsin fcos fatan s2r : ℝ → ℝ} {fatan2 : ℝ → ℝ → ℝ} {qmul : Quat → Quat → Quat} {mmul : M3 → M3 → M3} {rot : Quat → V3 → V3}

theorem s2r_small (hs : SecToRad s2r) {x : ℝ} (hx : |x| ≤ 3600) : |s2r x| ≤ 0.0175 := by
  have h := arcsec_near hs hx
  have k : |arcsec x| ≤ 0.01746 := by
    have hp := pi_lt
    have h0 := Real.pi_pos
    have e : arcsec x = x * (Real.pi / 648000) := by unfold EarthRot.arcsec; ring
    rw [e, abs_mul, abs_of_pos (by positivity : 0 < Real.pi / 648000)]
    have := mul_le_mul_of_nonneg_right hx (by positivity : (0:ℝ) ≤ Real.pi / 648000)
    linarith
  have := abs_add_le (s2r x - arcsec x) (arcsec x)
  rw [sub_add_cancel] at this
  linarith [h.2]

/-- C119: all forms of the rotation in one build of the library: the closed form differs from the product of rotations by at most 2e-13 in every entry, the
product of the two quaternions of the third form by at most 4e-13, and the quaternion of the form with the derivative is the same. The errors the forms
share, mainly that of the Earth rotation angle, cancel: no bound on the accuracy of the UT1 epoch is used. -/
theorem forms_agree_tight (hf : Faithful fl) (hT : Trig fsin fcos) (hI : InverseTrig fatan fatan2) (hs : SecToRad s2r) (hm : QuatMul qmul) (hrot : Turns rot)
    {T t : ℝ} (f tu : ℝ) (ht : |t - T| ≤ 4 * u) (hr : |T| ≤ 1) (eops : EopRec)
    (hdX : |eops.dX| ≤ 3600) (hdY : |eops.dY| ≤ 3600) (hxp : |eops.xp| ≤ 3600) (hyp : |eops.yp| ≤ 3600) :
    ∃ q b q1 p om dM, c2i06a fl fsin fcos fatan s2r fatan2 qmul t f tu eops = .ok q ∧
      c2i06aBz fl fsin fcos fatan s2r fatan2 t f tu eops = .ok b ∧
      c2i06aPQ fl fsin fcos fatan s2r fatan2 qmul t f tu eops = .ok (q1, p, om) ∧
      c2i06aD fl fsin fcos fatan s2r fatan2 qmul mmul t f tu eops = .ok (q, dM) ∧
      Close 2e-13 q.mat b.mat ∧ Close 4e-13 q.mat (p.mat * q1.mat) ∧
      ∀ r : V3, Close3 (2e-13 * size r) (rot q r) (rot b r) ∧ Close3 (5e-13 * size r) (rot q r) (rot p (rot q1 r)) ∧
        Close3 (2e-13 * size r) (rot q.conj r) (rot b.conj r) := by
  obtain ⟨x, y, d, e, d0, e0, F⟩ := front hf hT hI hs ht hr eops hdX hdY hxp hyp
  have hul := u_lt
  have hu := u_pos
  have bx := s2r_small hs hxp
  have by' := s2r_small hs hyp
  have n := c2i_tight (era := Rounded.era00 fl f tu) hf hT hm (anp_abs hf _) F.bs F.bsp F.hd F.bd F.he F.be bx by'
  have nb := bz_tight (era := Rounded.era00 fl f tu) hf hT (anp_abs hf _) F.bs F.bsp F.bX F.bY F.pole F.hd F.he bx by'
  have n1 := c2tirs_tight (era := Rounded.era00 fl f tu) hf hT hm (anp_abs hf _) F.bs F.hd F.bd F.he F.be
  have np := tirs2i_near hf hT hm (show |sp00 fl s2r t - sp00 fl s2r t| ≤ 1e-24 by simp; norm_num) F.bsp (same bx) (same by')
  have c := n.mat (by norm_num)
  have cb := nb.mat (by norm_num)
  have c1 := n1.mat (by norm_num)
  have cp := np.mat (by norm_num)
  have eq : ∀ era s sp d e xp yp : ℝ, (EarthRot.c2i era s sp d e xp yp).mat = (EarthRot.tirs2i xp yp sp).mat * (EarthRot.c2tirs era s d e).mat := by
    intro era s sp d e xp yp
    rw [c2i_spec, tirs2i_spec, c2tirs_spec, ← M3.transpose_mul]
  have b1 : ∀ era s d e : ℝ, Bounded 1 (EarthRot.c2tirs era s d e).mat := by
    intro era s d e
    rw [EarthRot.mat_c2tirs]
    exact rotation_bounded (((EarthRot.rot_R3 _).mul (EarthRot.rot_R2 _)).mul (EarthRot.rot_R3 _))
  have bp : ∀ xp yp sp : ℝ, Bounded 1 (EarthRot.tirs2i xp yp sp).mat := by
    intro xp yp sp
    rw [EarthRot.mat_tirs2i]
    exact rotation_bounded (((EarthRot.rot_R1 _).mul (EarthRot.rot_R2 _)).mul (EarthRot.rot_R3 _))
  have cc := close_mul cp c1 (bp ..) (b1 ..) (by norm_num)
  rw [← eq] at cc
  have bq : ∀ era s sp d e xp yp : ℝ, Bounded 1 (EarthRot.c2i era s sp d e xp yp).mat := by
    intro era s sp d e xp yp
    rw [EarthRot.mat_c2i]
    exact rotation_bounded (((((EarthRot.rot_R1 _).mul (EarthRot.rot_R2 _)).mul (EarthRot.rot_R3 _)).mul (EarthRot.rot_R2 _)).mul (EarthRot.rot_R3 _))
  refine ⟨_, _, _, _, ⟨0, 0, rate fl eops.lod⟩,
    mmul (mmul (toMat fl (tirs2i fl fsin fcos qmul (s2r eops.xp) (s2r eops.yp) (sp00 fl s2r t))) (dRdt fl fsin fcos (Rounded.era00 fl f tu) (rate fl eops.lod)))
      (toMat fl (celestialQ fl fsin fcos fatan fatan2 qmul (fl (x + s2r eops.dX)) (fl (y + s2r eops.dY))
        (s06 fl fsin fcos s2r (fun i => (fargs14 fl s2r t).getD i 0) t x y))), ?_, ?_, ?_, ?_, close_mono (close_tri c cb) (by norm_num), close_mono (close_tri c cc) (by norm_num), fun r => ?_⟩
  · unfold c2i06a
    rw [F.cip]
    rfl
  · unfold c2i06aBz
    rw [F.cip]
    rfl
  · unfold c2i06aPQ
    rw [F.cip]
    rfl
  · unfold c2i06aD
    rw [F.cip]
    rfl
  · have R0 := size_nonneg r
    have z : Close3 0 r r := ⟨by simp, by simp, by simp⟩
    have tri : ∀ {a b c : V3} {ε δ : ℝ}, Close3 ε a c → Close3 δ b c → Close3 (ε + δ) a b := by
      intro a b c ε δ h k
      have key : ∀ {x y z : ℝ}, |x - z| ≤ ε → |y - z| ≤ δ → |x - y| ≤ ε + δ := by
        intro x y z h1 h2
        have h1 := abs_le.mp h1
        have h2 := abs_le.mp h2
        exact abs_le.mpr ⟨by linarith, by linarith⟩
      exact ⟨key h.1 k.1, key h.2.1 k.2.1, key h.2.2 k.2.2⟩
    have v := turned2 hrot (RoundedState.QNear.sq n (by norm_num)) c (bq ..) z
    have vb := turned2 hrot (RoundedState.QNear.sq nb (by norm_num)) cb (bq ..) z
    have v1 := turned2 hrot (RoundedState.QNear.sq n1 (by norm_num)) c1 (b1 ..) z
    have v2 := turned2 hrot (RoundedState.QNear.sq np (by norm_num)) cp (bp ..) v1
    rw [← M3.mulVec_mul, ← eq] at v2
    have bt : ∀ era s sp d e xp yp : ℝ, Bounded 1 (EarthRot.c2i era s sp d e xp yp).mat.transpose := by
      intro era s sp d e xp yp
      rw [EarthRot.mat_c2i]
      exact rotation_bounded (RoundedState.rotation_t
        (((((EarthRot.rot_R1 _).mul (EarthRot.rot_R2 _)).mul (EarthRot.rot_R3 _)).mul (EarthRot.rot_R2 _)).mul (EarthRot.rot_R3 _)))
    have w := turned2 hrot (q := Quat.conj _) (by rw [RoundedState.conj_sq]; exact RoundedState.QNear.sq n (by norm_num))
      (by rw [Orient.conj_mat]; exact RoundedState.close_transpose c) (bt ..) z
    have wb := turned2 hrot (q := Quat.conj _) (by rw [RoundedState.conj_sq]; exact RoundedState.QNear.sq nb (by norm_num))
      (by rw [Orient.conj_mat]; exact RoundedState.close_transpose cb) (bt ..) z
    refine ⟨Close3.mono (tri v vb) ?_, Close3.mono (tri v v2) ?_, Close3.mono (tri w wb) ?_⟩
    · simp only [mul_zero, add_zero]
      nlinarith
    · simp only [mul_zero, add_zero]
      have s1 := (b1 (Rounded.era00 fl f tu) (s06 fl fsin fcos s2r (fun i => (fargs14 fl s2r t).getD i 0) t x y) d0 e0).size r
      have := mul_le_mul_of_nonneg_right hul.le R0
      nlinarith
    · simp only [mul_zero, add_zero]
      nlinarith

end

/-- The hypotheses can be met: rounding to nearest, whichever products are fused, exact functions of the C library, Eigen's products without vector
instructions, at noon of MJD 56084. -/
example (s : ℕ → Bool) : ∃ q b q1 p om, let t : ℝ := 4540 / 36525
    let r : EopRec := ⟨0.1, 0.3, 0.0002, -0.0001, 0.001, 0.0005⟩
    let s2r : ℝ → ℝ := fun x => x * (2 * Real.pi / 1296000)
    let a2 : ℝ → ℝ → ℝ := fun y x => Complex.arg ⟨x, y⟩
    c2i06a (rnArith s) Real.sin Real.cos Real.arctan s2r a2 (product (rnArith s)) t 0.5 4540 r = .ok q ∧
    c2i06aBz (rnArith s) Real.sin Real.cos Real.arctan s2r a2 t 0.5 4540 r = .ok b ∧
    c2i06aPQ (rnArith s) Real.sin Real.cos Real.arctan s2r a2 (product (rnArith s)) t 0.5 4540 r = .ok (q1, p, om) ∧
    Close 2e-13 q.mat b.mat ∧ Close 4e-13 q.mat (p.mat * q1.mat) := by
  have hu := u_pos
  have trig : Trig Real.sin Real.cos := ⟨fun x => by simp [hu.le], fun x => by simp [hu.le]⟩
  obtain ⟨q, b, q1, p, om, dM, h1, h2, h3, -, h5, h6, -⟩ := forms_agree_tight (mmul := matProduct (rnArith s)) (rn_faithful s) trig
    (show InverseTrig Real.arctan _ from inverse_exact) s2r_exact (product_ok (rn_faithful s)) (RoundedState.transformVector_ok (rn_faithful s))
    (T := 4540 / 36525) (t := 4540 / 36525) 0.5 4540 (by simp; positivity) (by norm_num [abs_of_pos]) ⟨0.1, 0.3, 0.0002, -0.0001, 0.001, 0.0005⟩
    (by norm_num [abs_of_pos]) (by norm_num [abs_of_pos]) (by norm_num [abs_of_pos]) (by norm_num [abs_of_pos])
  exact ⟨q, b, q1, p, om, h1, h2, h3, h5, h6⟩

end Verif.RoundedGcrs
