import Verif.Props.RoundedStateTight
import Verif.Props.RoundedOrient
import Verif.Spec.RoundedOptions
/-
Helpers for `Props/RoundedOptions`: how the celestial position and velocity change with the record.
-/
namespace Verif.RoundedOptions
open Verif Verif.Eop Verif.Rounding Verif.Iau Verif.RoundedOrient Verif.RoundedState Verif.RoundedGcrs
open Verif.EarthRot (poleX poleY locator tioLocator arcsec EopRec earthRate)

/-- The two coordinates of the pole determine the celestial motion. -/
theorem celestial_det {d e d' e' : ℝ} (h1 : Real.sin d * Real.cos e = Real.sin d' * Real.cos e') (h2 : Real.sin d * Real.sin e = Real.sin d' * Real.sin e')
    (a : 0 ≤ d) (b : d ≤ Real.pi / 2) (a' : 0 ≤ d') (b' : d' ≤ Real.pi / 2) (s : ℝ) : EarthRot.celestial d e s = EarthRot.celestial d' e' s := by
  have hp := Real.pi_pos
  have s0 := Real.sin_nonneg_of_nonneg_of_le_pi a (by linarith)
  have s1 := Real.sin_nonneg_of_nonneg_of_le_pi a' (by linarith)
  have sq : Real.sin d ^ 2 = Real.sin d' ^ 2 := by
    have k1 := Real.sin_sq_add_cos_sq e
    have k2 := Real.sin_sq_add_cos_sq e'
    have : Real.sin d ^ 2 * (Real.sin e ^ 2 + Real.cos e ^ 2) = Real.sin d' ^ 2 * (Real.sin e' ^ 2 + Real.cos e' ^ 2) := by
      have e1 : Real.sin d ^ 2 * (Real.sin e ^ 2 + Real.cos e ^ 2) = (Real.sin d * Real.sin e) ^ 2 + (Real.sin d * Real.cos e) ^ 2 := by ring
      rw [e1, h1, h2]; ring
    rwa [k1, k2, mul_one, mul_one] at this
  have hs : Real.sin d = Real.sin d' := by rwa [sq_eq_sq₀ s0 s1] at sq
  have hd : d = d' := Real.injOn_sin ⟨by linarith, b⟩ ⟨by linarith, b'⟩ hs
  subst hd
  by_cases z : Real.sin d = 0
  · have d0 : d = 0 := Real.injOn_sin ⟨by linarith, b⟩ ⟨by linarith, by linarith⟩ (by rw [z, Real.sin_zero])
    subst d0
    have key : ∀ e, EarthRot.celestial 0 e s = EarthRot.R3 s := by
      intro e
      have r2 : EarthRot.R2 (-0) = 1 := by
        unfold EarthRot.R2
        ext <;> simp [M3.one_def]
      unfold EarthRot.celestial
      rw [r2, M3.mul_one, EarthRot.R3_mul, EarthRot.R3_mul]
      congr 1
      ring
    rw [key, key]
  · have c := mul_left_cancel₀ z h1
    have c' := mul_left_cancel₀ z h2
    unfold EarthRot.celestial EarthRot.R3
    simp only [Real.cos_neg, Real.sin_neg, c, c']

/-- Entry by entry, w (A - (B + C) / 2). -/
noncomputable def comb (w : ℝ) (A B C : M3) : M3 :=
  ⟨w * (A.xx - (B.xx + C.xx) / 2), w * (A.xy - (B.xy + C.xy) / 2), w * (A.xz - (B.xz + C.xz) / 2),
   w * (A.yx - (B.yx + C.yx) / 2), w * (A.yy - (B.yy + C.yy) / 2), w * (A.yz - (B.yz + C.yz) / 2),
   w * (A.zx - (B.zx + C.zx) / 2), w * (A.zy - (B.zy + C.zy) / 2), w * (A.zz - (B.zz + C.zz) / 2)⟩

/-- The derivative of the rotation is a combination of rotations. -/
theorem turn_comb (C W : M3) (θ w : ℝ) : W.transpose * turn w * (C * EarthRot.spin θ).transpose =
    comb w (C * EarthRot.spin (θ + Real.pi / 2) * W).transpose (C * EarthRot.spin θ * W).transpose (C * EarthRot.spin (θ + Real.pi) * W).transpose := by
  unfold EarthRot.spin EarthRot.R3 comb turn
  simp only [M3.mul_def, M3.transpose, Real.cos_neg, Real.sin_neg, Real.cos_add_pi_div_two, Real.sin_add_pi_div_two, Real.cos_add_pi, Real.sin_add_pi]
  ext <;> simp only <;> ring

theorem comb_close {w' w η ε : ℝ} {A B C A' B' C' : M3} (hw : |w'| ≤ 7.3e-5) (hd : |w' - w| ≤ η) (a : Close ε A' A) (b : Close ε B' B) (c : Close ε C' C)
    (bA : Bounded 1 A) (bB : Bounded 1 B) (bC : Bounded 1 C) : Close (1.46e-4 * ε + 2 * η) (comb w' A' B' C') (comb w A B C) := by
  have key : ∀ {x y z x' y' z' : ℝ}, |x' - x| ≤ ε → |y' - y| ≤ ε → |z' - z| ≤ ε → |x| ≤ 1 → |y| ≤ 1 → |z| ≤ 1 →
      |w' * (x' - (y' + z') / 2) - w * (x - (y + z) / 2)| ≤ 1.46e-4 * ε + 2 * η := by
    intro x y z x' y' z' h1 h2 h3 k1 k2 k3
    rw [show w' * (x' - (y' + z') / 2) - w * (x - (y + z) / 2) = w' * ((x' - x) - ((y' - y) + (z' - z)) / 2) + (w' - w) * (x - (y + z) / 2) by ring]
    have e1 : |(x' - x) - ((y' - y) + (z' - z)) / 2| ≤ 2 * ε := by
      have h1 := abs_le.mp h1
      have h2 := abs_le.mp h2
      have h3 := abs_le.mp h3
      exact abs_le.mpr ⟨by linarith, by linarith⟩
    have e2 : |x - (y + z) / 2| ≤ 2 := by
      have h1 := abs_le.mp k1
      have h2 := abs_le.mp k2
      have h3 := abs_le.mp k3
      exact abs_le.mpr ⟨by linarith, by linarith⟩
    have m1 := mul_le_mul hw e1 (abs_nonneg _) (by norm_num)
    have m2 := mul_le_mul hd e2 (abs_nonneg _) ((abs_nonneg _).trans hd)
    rw [← abs_mul] at m1 m2
    refine (abs_add_le _ _).trans ((add_le_add m1 m2).trans (le_of_eq ?_))
    ring
  obtain ⟨a1, a2, a3, a4, a5, a6, a7, a8, a9⟩ := a
  obtain ⟨b1, b2, b3, b4, b5, b6, b7, b8, b9⟩ := b
  obtain ⟨c1, c2, c3, c4, c5, c6, c7, c8, c9⟩ := c
  obtain ⟨p1, p2, p3, p4, p5, p6, p7, p8, p9⟩ := bA
  obtain ⟨q1, q2, q3, q4, q5, q6, q7, q8, q9⟩ := bB
  obtain ⟨r1, r2, r3, r4, r5, r6, r7, r8, r9⟩ := bC
  exact ⟨key a1 b1 c1 p1 q1 r1, key a2 b2 c2 p2 q2 r2, key a3 b3 c3 p3 q3 r3, key a4 b4 c4 p4 q4 r4, key a5 b5 c5 p5 q5 r5, key a6 b6 c6 p6 q6 r6,
    key a7 b7 c7 p7 q7 r7, key a8 b8 c8 p8 q8 r8, key a9 b9 c9 p9 q9 r9⟩

theorem moves_unique {f : ℝ → V3} {a b : V3} {t : ℝ} (h : Harmonic.Moves f a t) (k : Harmonic.Moves f b t) : a = b := by
  ext
  · exact h.1.unique k.1
  · exact h.2.1.unique k.2.1
  · exact h.2.2.unique k.2.2

theorem close_vec {A B : M3} {ε : ℝ} (h : Close ε A B) (v : V3) : Close3 (ε * size v) (A * v) (B * v) := position_rounded h v

theorem rate_size {l : ℝ} (h : |l| ≤ 60) : |earthRate l| ≤ 7.3e-5 := by
  unfold earthRate
  have h := abs_le.mp h
  exact abs_le.mpr ⟨by linarith, by linarith⟩

theorem rate_lip {l' l E : ℝ} (h : |l' - l| ≤ E) : |earthRate l' - earthRate l| ≤ 8.5e-10 * E := by
  rw [show earthRate l' - earthRate l = -(7.2921151467064e-5 / 86400) * (l' - l) by unfold earthRate; ring, abs_mul]
  exact mul_le_mul (by rw [abs_neg, abs_of_pos (by norm_num)]; norm_num) h (abs_nonneg _) (by norm_num)

/-- What a point with position `r` and velocity `v` does in the celestial frame. -/
theorem celestial_state (C W : M3) (θ w : ℝ) (M : ℝ → M3) (hM : ∀ x, M x = C * EarthRot.spin (θ + w * x) * W) (r v : V3) :
    Celestial M r v ((C * EarthRot.spin θ * W) * r, (C * EarthRot.spin θ * W) * v + (W.transpose * turn w * (C * EarthRot.spin θ).transpose).transpose * r) := by
  have h0 : M 0 = C * EarthRot.spin θ * W := by rw [hM]; simp
  have h := (Orient.moves_frame (N := M) (D := W.transpose * turn w * (C * EarthRot.spin θ).transpose) (fun a => by
    have := moves_spin C W θ w a
    simp only [hM]
    exact this) r v).1
  rw [h0] at h
  exact ⟨by rw [h0], h⟩

/-- Records that are close have frames that are close. -/
theorem frames_close {tt : Epoch} {D' D : ℝ} {e' e : EopRec} {d1 ε1 d ε : ℝ}
    (h' : EarthRot.spherical (poleX tt.jcenturies + arcsec e'.dX) (poleY tt.jcenturies + arcsec e'.dY) = some (d1, ε1))
    (h : EarthRot.spherical (poleX tt.jcenturies + arcsec e.dX) (poleY tt.jcenturies + arcsec e.dY) = some (d, ε))
    (bX' : |poleX tt.jcenturies + arcsec e'.dX| ≤ 0.15) (bY' : |poleY tt.jcenturies + arcsec e'.dY| ≤ 0.15)
    (bX : |poleX tt.jcenturies + arcsec e.dX| ≤ 0.15) (bY : |poleY tt.jcenturies + arcsec e.dY| ≤ 0.15)
    (hX : |e'.dX - e.dX| ≤ 1e-11) (hY : |e'.dY - e.dY| ≤ 1e-11) (hx : |e'.xp - e.xp| ≤ 1e-11) (hy : |e'.yp - e.yp| ≤ 1e-11)
    (hl : |e'.lod - e.lod| ≤ 1e-10) (bl : |e'.lod| ≤ 60) (hD : |eraIers D' - eraIers D| ≤ 1e-13) {M' : ℝ → M3} (hM : FrameOf tt D' e' M') :
    ∃ M, FrameOf tt D e M ∧ ∀ r v s, Celestial M' r v s → ∃ S, Celestial M r v S ∧ Close3 (4.1e-13 * size r) s.1 S.1 ∧
      Close3 (4.1e-13 * size v + 6.1e-17 * size r) s.2 S.2 := by
  obtain ⟨k1, k2, -, k4, k5⟩ := EarthRot.spherical_spec h
  obtain ⟨l1, l2, -, l4, l5⟩ := EarthRot.spherical_spec h'
  obtain ⟨d2, ε2, m1, m2, m3, m4, m5⟩ := hM
  have det := celestial_det (m1.trans l1.symm) (m2.trans l2.symm) m3 m4 l4 l5 (locator tt.jcenturies)
  simp only [det] at m5
  clear det m1 m2 m3 m4
  refine ⟨fun x => EarthRot.celestial d ε (locator tt.jcenturies) * EarthRot.spin (eraIers D + earthRate e.lod * x) *
    EarthRot.polarMotion (tioLocator tt.jcenturies) (arcsec e.xp) (arcsec e.yp), ⟨d, ε, k1, k2, k4, k5, fun x => rfl⟩, fun r v s hs => ?_⟩
  have st' := celestial_state _ _ _ _ M' m5 r v
  have st := celestial_state (EarthRot.celestial d ε (locator tt.jcenturies)) (EarthRot.polarMotion (tioLocator tt.jcenturies) (arcsec e.xp) (arcsec e.yp))
    (eraIers D) (earthRate e.lod) _ (fun x => rfl) r v
  refine ⟨_, st, ?_⟩
  have near : ∀ φ, Close 4.05e-13
      (EarthRot.celestial d1 ε1 (locator tt.jcenturies) * EarthRot.spin (eraIers D' + φ) * EarthRot.polarMotion (tioLocator tt.jcenturies) (arcsec e'.xp) (arcsec e'.yp)).transpose
      (EarthRot.celestial d ε (locator tt.jcenturies) * EarthRot.spin (eraIers D + φ) * EarthRot.polarMotion (tioLocator tt.jcenturies) (arcsec e.xp) (arcsec e.yp)).transpose := by
    intro φ
    have lip := c2i_lip h h' bX bY bX' bY' (eraIers D' + φ) (locator tt.jcenturies) (tioLocator tt.jcenturies) (arcsec e'.xp) (arcsec e'.yp)
    have ang := c2i_angles (eraIers D' + φ) (eraIers D + φ) (locator tt.jcenturies) (tioLocator tt.jcenturies) d ε (arcsec e'.xp) (arcsec e.xp) (arcsec e'.yp)
      (arcsec e.yp)
    rw [show eraIers D' + φ - (eraIers D + φ) = eraIers D' - eraIers D by ring] at ang
    rw [show poleX tt.jcenturies + arcsec e'.dX - (poleX tt.jcenturies + arcsec e.dX) = arcsec e'.dX - arcsec e.dX by ring,
      show poleY tt.jcenturies + arcsec e'.dY - (poleY tt.jcenturies + arcsec e.dY) = arcsec e'.dY - arcsec e.dY by ring] at lip
    have a1 := arcsec_lip hX
    have a2 := arcsec_lip hY
    have a3 := arcsec_lip hx
    have a4 := arcsec_lip hy
    have tot := (norm_sub_le_norm_sub_add_norm_sub _ _ _).trans (add_le_add lip ang)
    have n : QNear 1.005e-13 (EarthRot.c2i (eraIers D' + φ) (locator tt.jcenturies) (tioLocator tt.jcenturies) d1 ε1 (arcsec e'.xp) (arcsec e'.yp))
        (EarthRot.c2i (eraIers D + φ) (locator tt.jcenturies) (tioLocator tt.jcenturies) d ε (arcsec e.xp) (arcsec e.yp)) :=
      .inl ⟨tot.trans (by linarith), unit_norm (EarthRot.unit_c2i ..)⟩
    have := n.mat (by norm_num)
    rw [c2i_spec, c2i_spec] at this
    exact close_mono this (by norm_num)
  have c0 := close_transpose (near 0)
  simp only [add_zero, M3.transpose_transpose] at c0
  have bd : ∀ θ, Bounded 1 (EarthRot.celestial d ε (locator tt.jcenturies) * EarthRot.spin θ *
      EarthRot.polarMotion (tioLocator tt.jcenturies) (arcsec e.xp) (arcsec e.yp)).transpose := by
    intro θ
    refine rotation_bounded (rotation_t (((rot_celestial ..).mul ?_).mul (rot_polar ..)))
    unfold EarthRot.spin
    exact EarthRot.rot_R3 _
  have n0 := near 0
  simp only [add_zero] at n0
  have cd := close_transpose (comb_close (rate_size bl) (rate_lip hl) (near (Real.pi / 2)) n0 (near Real.pi) (bd _) (bd _) (bd _))
  rw [← turn_comb, ← turn_comb] at cd
  have e1 : s.1 = _ := hs.1.trans st'.1.symm
  have e2 := moves_unique hs.2 st'.2
  rw [e1, e2]
  have R0 := size_nonneg r
  have V0 := size_nonneg v
  have p1 := close_vec c0 r
  have p2 := close_vec c0 v
  have p3 := close_vec cd r
  refine ⟨Close3.mono p1 (by linarith), ?_⟩
  have add3 : ∀ {a a' b b' : V3} {ε δ : ℝ}, Close3 ε a' a → Close3 δ b' b → Close3 (ε + δ) (a' + b') (a + b) := by
    intro a a' b b' ε δ h k
    have key : ∀ {x x' y y' : ℝ}, |x' - x| ≤ ε → |y' - y| ≤ δ → |x' + y' - (x + y)| ≤ ε + δ := by
      intro x x' y y' h1 h2
      have h1 := abs_le.mp h1
      have h2 := abs_le.mp h2
      exact abs_le.mpr ⟨by linarith, by linarith⟩
    exact ⟨key h.1 k.1, key h.2.1 k.2.1, key h.2.2 k.2.2⟩
  exact Close3.mono (add3 p2 p3) (by linarith)

end Verif.RoundedOptions
