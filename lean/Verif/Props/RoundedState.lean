import Verif.Proof.RoundedState
/-
C122: position and velocity from GCRS to ITRS and back in double precision.
-/
namespace Verif.RoundedState
open Verif Verif.Rounding Verif.Rounded Verif.RoundedGcrs Verif.Iau
open Verif.EarthRot (poleX poleY locator tioLocator arcsec EopRec earthRate)

section
variable {fl : Arith} {fsin fcos fatan s2r : ℝ → ℝ} {fatan2 : ℝ → ℝ → ℝ} {qmul : Quat → Quat → Quat} {mmul : M3 → M3 → M3} {rot : Quat → V3 → V3}
  {mv : M3 → V3 → V3}

/-- What the library returns, against the moving frame of the Conventions. -/
theorem frame_rounded (hf : Faithful fl) (hT : Trig fsin fcos) (hI : InverseTrig fatan fatan2) (hs : SecToRad s2r) (hm : QuatMul qmul) (hmm : MatMul mmul)
    (tt ut1 : Epoch) {t f tu t1 : ℝ} (ht : |t - tt.jcenturies| ≤ 4 * u) (hu1 : Sees ut1 f tu t1) (hr : |tt.jcenturies| ≤ 1)
    (hr1 : |ut1.daysSinceJ2000| ≤ 36525) (eops : EopRec) (hdX : |eops.dX| ≤ 3600) (hdY : |eops.dY| ≤ 3600) (hxp : |eops.xp| ≤ 3600)
    (hyp : |eops.yp| ≤ 3600) (hl : |eops.lod| ≤ 60) :
    ∃ q dM M D, c2i06aD fl fsin fcos fatan s2r fatan2 qmul mmul t f tu eops = .ok (q, dM) ∧ Frame tt ut1 eops M ∧ (∀ x, EarthRot.IsRotation (M x)) ∧
      |q.sqNorm - 1| ≤ 1e-6 ∧ Close 3.2e-12 q.mat (M 0).transpose ∧ (∀ w : V3, Harmonic.Moves (fun x => (M x).transpose * w) (D * w) 0) ∧
      MApp 6.57e-4 1e-15 dM D := by
  obtain ⟨q, dM, d, e, D, g1, g2, g3, g4, g5, g6, g7, g8, p, g9⟩ := derivative_near hf hT hI hs hm hmm tt ut1 ht hu1 hr hr1 eops hdX hdY hxp hyp hl
    (fun x => eraIers ut1.daysSinceJ2000 + earthRate eops.lod * x) 0 ⟨0, by simp⟩
    (by simpa using ((hasDerivAt_id (0 : ℝ)).const_mul (earthRate eops.lod)).const_add (eraIers ut1.daysSinceJ2000))
  refine ⟨q, dM, fun x => EarthRot.celestial d e (locator tt.jcenturies) * EarthRot.spin (eraIers ut1.daysSinceJ2000 + earthRate eops.lod * x) *
    EarthRot.polarMotion (tioLocator tt.jcenturies) (arcsec eops.xp) (arcsec eops.yp), D, g1, ⟨d, e, g2, g3, g4, g5, fun x => rfl⟩, fun x => ?_, QNear.sq g9 (by norm_num),
    g6, g7, g8⟩
  unfold EarthRot.celestial EarthRot.spin EarthRot.polarMotion
  exact (((((EarthRot.rot_R3 _).mul (EarthRot.rot_R2 _)).mul (EarthRot.rot_R3 _)).mul (EarthRot.rot_R3 _)).mul (EarthRot.rot_R3 _)).mul
    (((EarthRot.rot_R3 _).mul (EarthRot.rot_R2 _)).mul (EarthRot.rot_R1 _))

/-- C122: one call of `c2i06a` with the derivative, and the documented formulas: for every point and velocity in the celestial frame the terrestrial position is
right to 3.3e-12 times the size of the position, and the velocity, that of the frame of the Conventions turning at the rate of the length of day, to 3.3e-12
times the size of the velocity plus 1.1e-15 per second times the size of the position; likewise from the terrestrial frame to the celestial frame. -/
theorem state_rounded (hf : Faithful fl) (hT : Trig fsin fcos) (hI : InverseTrig fatan fatan2) (hs : SecToRad s2r) (hm : QuatMul qmul) (hmm : MatMul mmul)
    (hrot : Turns rot) (hmv : MatVec mv)
    (tt ut1 : Epoch) {t f tu t1 : ℝ} (ht : |t - tt.jcenturies| ≤ 4 * u) (hu1 : Sees ut1 f tu t1) (hr : |tt.jcenturies| ≤ 1)
    (hr1 : |ut1.daysSinceJ2000| ≤ 36525) (eops : EopRec) (hdX : |eops.dX| ≤ 3600) (hdY : |eops.dY| ≤ 3600) (hxp : |eops.xp| ≤ 3600)
    (hyp : |eops.yp| ≤ 3600) (hl : |eops.lod| ≤ 60) :
    ∃ q dM M, c2i06aD fl fsin fcos fatan s2r fatan2 qmul mmul t f tu eops = .ok (q, dM) ∧ Frame tt ut1 eops M ∧ ∀ r v : V3,
      (∃ s, Terrestrial M r v s ∧ Close3 (3.3e-12 * size r) (toTerrestrial fl rot mv q dM r v).1 s.1 ∧
        Close3 (3.3e-12 * size v + 1.1e-15 * size r) (toTerrestrial fl rot mv q dM r v).2 s.2) ∧
      ∃ s, Celestial M r v s ∧ Close3 (3.3e-12 * size r) (toCelestial fl rot mv q dM r v).1 s.1 ∧
        Close3 (3.3e-12 * size v + 1.1e-15 * size r) (toCelestial fl rot mv q dM r v).2 s.2 := by
  obtain ⟨q, dM, M, D, g1, g2, g3, g4, g5, g6, g7⟩ := frame_rounded hf hT hI hs hm hmm tt ut1 ht hu1 hr hr1 eops hdX hdY hxp hyp hl
  refine ⟨q, dM, M, g1, g2, fun r v => ?_⟩
  obtain ⟨m1, m2⟩ := Orient.moves_frame g6 r v
  refine ⟨⟨((M 0).transpose * r, (M 0).transpose * v + D * r), ⟨rfl, m2⟩, state_app hf hrot hmv g4 g5 (rotation_bounded (rotation_t (g3 0))) g7 r v⟩,
    ⟨(M 0 * r, M 0 * v + D.transpose * r), ⟨rfl, m1⟩, ?_⟩⟩
  refine state_app hf hrot hmv (by rw [conj_sq]; exact g4) ?_ (rotation_bounded (g3 0)) (mapp_transpose g7) r v
  rw [Orient.conj_mat]
  exact close_transpose g5

/-- C122: there and back: the position returns to 2.2e-11 of its size, the velocity to 2.3e-11 of its size plus 2.2e-14 per second times the size of the position. -/
theorem state_round_trip (hf : Faithful fl) (hT : Trig fsin fcos) (hI : InverseTrig fatan fatan2) (hs : SecToRad s2r) (hm : QuatMul qmul) (hmm : MatMul mmul)
    (hrot : Turns rot) (hmv : MatVec mv)
    (tt ut1 : Epoch) {t f tu t1 : ℝ} (ht : |t - tt.jcenturies| ≤ 4 * u) (hu1 : Sees ut1 f tu t1) (hr : |tt.jcenturies| ≤ 1)
    (hr1 : |ut1.daysSinceJ2000| ≤ 36525) (eops : EopRec) (hdX : |eops.dX| ≤ 3600) (hdY : |eops.dY| ≤ 3600) (hxp : |eops.xp| ≤ 3600)
    (hyp : |eops.yp| ≤ 3600) (hl : |eops.lod| ≤ 60) :
    ∃ q dM, c2i06aD fl fsin fcos fatan s2r fatan2 qmul mmul t f tu eops = .ok (q, dM) ∧ ∀ r v : V3,
      let s := toTerrestrial fl rot mv q dM r v
      Close3 (2.2e-11 * size r) (toCelestial fl rot mv q dM s.1 s.2).1 r ∧
        Close3 (2.3e-11 * size v + 2.2e-14 * size r) (toCelestial fl rot mv q dM s.1 s.2).2 v := by
  obtain ⟨q, dM, M, D, g1, g2, g3, g4, g5, g6, g7⟩ := frame_rounded hf hT hI hs hm hmm tt ut1 ht hu1 hr hr1 eops hdX hdY hxp hyp hl
  refine ⟨q, dM, g1, fun r v => ?_⟩
  intro s
  have R0 := size_nonneg r
  have V0 := size_nonneg v
  have bt := rotation_bounded (rotation_t (g3 0))
  have bm := rotation_bounded (g3 0)
  have bD := mapp_bounded g7
  have bDt := mapp_bounded (mapp_transpose g7)
  obtain ⟨a1, a2⟩ := state_app hf hrot hmv g4 g5 bt g7 r v
  change Close3 _ s.1 _ at a1
  change Close3 _ s.2 _ at a2
  have hc : Close 3.2e-12 q.conj.mat (M 0) := by rw [Orient.conj_mat]; exact close_transpose g5
  obtain ⟨b1, b2⟩ := state_app hf hrot hmv (q := q.conj) (by rw [conj_sq]; exact g4) hc bm (mapp_transpose g7) s.1 s.2
  have s1 : size s.1 ≤ 3.01 * size r := by
    have := size_close a1
    have := bt.size r
    linarith
  have s2 : size s.2 ≤ 3.01 * size v + 2e-3 * size r := by
    have h1 := size_close a2
    have h2 := bt.size v
    have h3 := bD.size r
    have h4 : size ((M 0).transpose * v + D * r) ≤ size ((M 0).transpose * v) + size (D * r) := by
      unfold size
      have k1 := abs_add_le ((M 0).transpose * v).x (D * r).x
      have k2 := abs_add_le ((M 0).transpose * v).y (D * r).y
      have k3 := abs_add_le ((M 0).transpose * v).z (D * r).z
      simp only [V3.add_x, V3.add_y, V3.add_z]
      linarith
    linarith
  obtain ⟨c1, c2, c3⟩ := bounded_close bm a1 zero_le_one
  obtain ⟨d1, d2, d3⟩ := bounded_close bm a2 zero_le_one
  obtain ⟨e1, e2, e3⟩ := bounded_close bDt a1 (by norm_num)
  have back : M 0 * ((M 0).transpose * r) = r := by rw [← M3.mulVec_mul, (g3 0).1, M3.one_mulVec]
  have backv : M 0 * ((M 0).transpose * v + D * r) + D.transpose * ((M 0).transpose * r) = v := by
    have h := skew g3 g6
    have hr : ((M 0) * D + D.transpose * (M 0).transpose) * r = (0 : M3) * r := by rw [h]
    have ho := (g3 0).1
    have hv : M 0 * ((M 0).transpose * v) = v := by rw [← M3.mulVec_mul, ho, M3.one_mulVec]
    rw [Orient.mulVec_add, hv]
    simp only [M3.mulVec_def, M3.mul_def, M3.add_def, M3.zero_def, V3.mk.injEq, zero_mul, add_zero] at hr
    obtain ⟨h1, h2, h3⟩ := hr
    ext
    · simp only [V3.add_x, M3.mulVec_def]; linarith
    · simp only [V3.add_y, M3.mulVec_def]; linarith
    · simp only [V3.add_z, M3.mulVec_def]; linarith
  obtain ⟨p1, p2, p3⟩ := b1
  obtain ⟨q1, q2, q3⟩ := b2
  refine ⟨⟨?_, ?_, ?_⟩, ?_, ?_, ?_⟩
  · have := abs_sub_le (rot q.conj s.1).x (M 0 * s.1).x (M 0 * ((M 0).transpose * r)).x
    rw [← congrArg V3.x back]
    show |(rot q.conj s.1).x - _| ≤ _
    exact this.trans ((add_le_add p1 c1).trans (by linarith))
  · have := abs_sub_le (rot q.conj s.1).y (M 0 * s.1).y (M 0 * ((M 0).transpose * r)).y
    rw [← congrArg V3.y back]
    show |(rot q.conj s.1).y - _| ≤ _
    exact this.trans ((add_le_add p2 c2).trans (by linarith))
  · have := abs_sub_le (rot q.conj s.1).z (M 0 * s.1).z (M 0 * ((M 0).transpose * r)).z
    rw [← congrArg V3.z back]
    show |(rot q.conj s.1).z - _| ≤ _
    exact this.trans ((add_le_add p3 c3).trans (by linarith))
  · rw [← congrArg V3.x backv]
    have h := abs_sub_le (add fl (rot q.conj s.2) (mv dM.transpose s.1)).x (M 0 * s.2 + D.transpose * s.1).x
      (M 0 * ((M 0).transpose * v + D * r) + D.transpose * ((M 0).transpose * r)).x
    have h2 : |(M 0 * s.2 + D.transpose * s.1).x - (M 0 * ((M 0).transpose * v + D * r) + D.transpose * ((M 0).transpose * r)).x| ≤
        |(M 0 * s.2).x - (M 0 * ((M 0).transpose * v + D * r)).x| + |(D.transpose * s.1).x - (D.transpose * ((M 0).transpose * r)).x| :=
      abs4 _ _ _ _
    show |(add fl (rot q.conj s.2) (mv dM.transpose s.1)).x - _| ≤ _
    exact h.trans ((add_le_add q1 (h2.trans (add_le_add d1 e1))).trans (by linarith))
  · rw [← congrArg V3.y backv]
    have h := abs_sub_le (add fl (rot q.conj s.2) (mv dM.transpose s.1)).y (M 0 * s.2 + D.transpose * s.1).y
      (M 0 * ((M 0).transpose * v + D * r) + D.transpose * ((M 0).transpose * r)).y
    have h2 : |(M 0 * s.2 + D.transpose * s.1).y - (M 0 * ((M 0).transpose * v + D * r) + D.transpose * ((M 0).transpose * r)).y| ≤
        |(M 0 * s.2).y - (M 0 * ((M 0).transpose * v + D * r)).y| + |(D.transpose * s.1).y - (D.transpose * ((M 0).transpose * r)).y| :=
      abs4 _ _ _ _
    show |(add fl (rot q.conj s.2) (mv dM.transpose s.1)).y - _| ≤ _
    exact h.trans ((add_le_add q2 (h2.trans (add_le_add d2 e2))).trans (by linarith))
  · rw [← congrArg V3.z backv]
    have h := abs_sub_le (add fl (rot q.conj s.2) (mv dM.transpose s.1)).z (M 0 * s.2 + D.transpose * s.1).z
      (M 0 * ((M 0).transpose * v + D * r) + D.transpose * ((M 0).transpose * r)).z
    have h2 : |(M 0 * s.2 + D.transpose * s.1).z - (M 0 * ((M 0).transpose * v + D * r) + D.transpose * ((M 0).transpose * r)).z| ≤
        |(M 0 * s.2).z - (M 0 * ((M 0).transpose * v + D * r)).z| + |(D.transpose * s.1).z - (D.transpose * ((M 0).transpose * r)).z| :=
      abs4 _ _ _ _
    show |(add fl (rot q.conj s.2) (mv dM.transpose s.1)).z - _| ≤ _
    exact h.trans ((add_le_add q3 (h2.trans (add_le_add d3 e3))).trans (by linarith))

/-- C122: the other form of `c2i06a`, with two quaternions and the rotation vector of the Earth, and the cross product. -/
theorem state_parts_rounded (hf : Faithful fl) (hT : Trig fsin fcos) (hI : InverseTrig fatan fatan2) (hs : SecToRad s2r) (hm : QuatMul qmul)
    (hrot : Turns rot) (tt ut1 : Epoch) {t f tu t1 : ℝ} (ht : |t - tt.jcenturies| ≤ 4 * u) (hu1 : Sees ut1 f tu t1) (hr : |tt.jcenturies| ≤ 1)
    (hr1 : |ut1.daysSinceJ2000| ≤ 36525) (eops : EopRec) (hdX : |eops.dX| ≤ 3600) (hdY : |eops.dY| ≤ 3600) (hxp : |eops.xp| ≤ 3600)
    (hyp : |eops.yp| ≤ 3600) (hl : |eops.lod| ≤ 60) :
    ∃ q p om M, c2i06aPQ fl fsin fcos fatan s2r fatan2 qmul t f tu eops = .ok (q, p, om) ∧ Frame tt ut1 eops M ∧ ∀ r v : V3,
      (∃ s, Terrestrial M r v s ∧ Close3 (1e-11 * size r) (toTerrestrial2 fl rot q p om r v).1 s.1 ∧
        Close3 (1e-11 * size v + 8e-16 * size r) (toTerrestrial2 fl rot q p om r v).2 s.2) ∧
      ∃ s, Celestial M r v s ∧ Close3 (1e-11 * size r) (toCelestial2 fl rot q p om r v).1 s.1 ∧
        Close3 (1e-11 * size v + 8e-16 * size r) (toCelestial2 fl rot q p om r v).2 s.2 := by
  obtain ⟨q, p, w, d, e, h1, h2, h3, h4, h5, h6, h7, h8, ⟨q0, h9⟩, p0, h10⟩ := parts_near hf hT hI hs hm tt ut1 ht hu1 hr hr1 eops hdX hdY hxp hyp hl
  have hu := u_pos
  have hul := u_lt
  have sq := QNear.sq h9 (by norm_num)
  have sp := QNear.sq h10 (by norm_num)
  have rC : EarthRot.IsRotation (EarthRot.celestial d e (locator tt.jcenturies) * EarthRot.spin (eraIers ut1.daysSinceJ2000)) := by
    unfold EarthRot.celestial EarthRot.spin
    exact ((((EarthRot.rot_R3 _).mul (EarthRot.rot_R2 _)).mul (EarthRot.rot_R3 _)).mul (EarthRot.rot_R3 _)).mul (EarthRot.rot_R3 _)
  have rW : EarthRot.IsRotation (EarthRot.polarMotion (tioLocator tt.jcenturies) (arcsec eops.xp) (arcsec eops.yp)) := by
    unfold EarthRot.polarMotion
    exact ((EarthRot.rot_R3 _).mul (EarthRot.rot_R2 _)).mul (EarthRot.rot_R1 _)
  have mov := moves_spin (EarthRot.celestial d e (locator tt.jcenturies)) (EarthRot.polarMotion (tioLocator tt.jcenturies) (arcsec eops.xp) (arcsec eops.yp))
    (eraIers ut1.daysSinceJ2000) (earthRate eops.lod)
  refine ⟨q, p, ⟨0, 0, w⟩, _, h1, ⟨d, e, h2, h3, h4, h5, fun x => rfl⟩, fun r v => ?_⟩
  obtain ⟨m1, m2⟩ := Orient.moves_frame mov r v
  simp only [mul_zero, add_zero] at m1 m2
  generalize hA : EarthRot.celestial d e (locator tt.jcenturies) * EarthRot.spin (eraIers ut1.daysSinceJ2000) = A at *
  generalize hW : EarthRot.polarMotion (tioLocator tt.jcenturies) (arcsec eops.xp) (arcsec eops.yp) = W at *
  have R0 := size_nonneg r
  have kz : ∀ z : V3, (⟨0, earthRate eops.lod, 0, -earthRate eops.lod, 0, 0, 0, 0, 0⟩ : M3) * z = -V3.cross ⟨0, 0, earthRate eops.lod⟩ z := by
    intro z
    unfold V3.cross
    ext <;> simp [M3.mulVec_def]
  have kt : ∀ z : V3, (⟨0, earthRate eops.lod, 0, -earthRate eops.lod, 0, 0, 0, 0, 0⟩ : M3).transpose * z = V3.cross ⟨0, 0, earthRate eops.lod⟩ z := by
    intro z
    unfold V3.cross
    ext <;> simp [M3.mulVec_def, M3.transpose]
  have small : ∀ {a : V3}, |a.x| ≤ size r ∧ |a.y| ≤ size r ∧ |a.z| ≤ size r →
      |(V3.cross ⟨0, 0, earthRate eops.lod⟩ a).x| ≤ 7.3e-5 * size r ∧ |(V3.cross ⟨0, 0, earthRate eops.lod⟩ a).y| ≤ 7.3e-5 * size r ∧
        |(V3.cross ⟨0, 0, earthRate eops.lod⟩ a).z| ≤ 7.3e-5 * size r := by
    intro a ha
    have k1 := mul_le_mul h8.1 ha.1 (abs_nonneg _) (by norm_num)
    have k2 := mul_le_mul h8.1 ha.2.1 (abs_nonneg _) (by norm_num)
    rw [← abs_mul] at k1 k2
    unfold V3.cross
    simp only [zero_mul, zero_sub, sub_zero, abs_neg, abs_zero]
    exact ⟨k2, k1, by positivity⟩
  refine ⟨⟨(W.transpose * (A.transpose * r), W.transpose * (A.transpose * v + -V3.cross ⟨0, 0, earthRate eops.lod⟩ (A.transpose * r))), ⟨?_, ?_⟩, ?_⟩,
    ⟨(A * (W * r), A * (W * v + V3.cross ⟨0, 0, earthRate eops.lod⟩ (W * r))), ⟨?_, ?_⟩, ?_⟩⟩
  · simp only [mul_zero, add_zero]
    rw [hA, M3.transpose_mul, M3.mulVec_mul]
  · refine Eq.subst (motive := fun z => Harmonic.Moves _ z 0) ?_ m2
    rw [M3.transpose_mul, M3.mulVec_mul, M3.mulVec_mul, M3.mulVec_mul, Orient.mulVec_add, kz]
  · obtain ⟨t1, t2, t3⟩ := two_app hf hrot sq sp h6 h7 (rotation_bounded (rotation_t rC)) (rotation_bounded (rotation_t rW)) (by norm_num) r v
    obtain ⟨b1, b2, b3⟩ := (rotation_bounded (rotation_t rC)).vec r
    rw [one_mul] at b1 b2 b3
    have c := cross_z hf h8 t2 ⟨b1, b2, b3⟩ R0 (by positivity) (mul_le_mul_of_nonneg_right (by linarith) R0)
    refine ⟨t1, ?_⟩
    have k := t3 (-cross fl 0 ⟨0, 0, w⟩ (rot q r)) (-V3.cross ⟨0, 0, earthRate eops.lod⟩ (A.transpose * r)) ?_ ?_
    · exact k
    · obtain ⟨c1, c2, c3⟩ := c
      refine ⟨?_, ?_, ?_⟩ <;> simp only [V3.neg_x, V3.neg_y, V3.neg_z] <;> rw [neg_sub_neg, abs_sub_comm] <;> assumption
    · simp only [V3.neg_x, V3.neg_y, V3.neg_z, abs_neg]
      exact small ⟨b1, b2, b3⟩
  · simp only [mul_zero, add_zero]
    rw [hA, M3.mulVec_mul]
  · refine Eq.subst (motive := fun z => Harmonic.Moves _ z 0) ?_ m1
    rw [M3.transpose_mul, M3.transpose_mul, M3.transpose_transpose, M3.transpose_transpose, M3.mulVec_mul, M3.mulVec_mul, M3.mulVec_mul, Orient.mulVec_add, kt]
  · have ca : Close 5e-14 p.conj.mat W := by rw [Orient.conj_mat]; exact close_transpose h7
    have cb : Close 3.2e-12 q.conj.mat A := by rw [Orient.conj_mat]; exact close_transpose h6
    obtain ⟨t1, t2, t3⟩ := two_app hf hrot (a := p.conj) (b := q.conj) (by rw [conj_sq]; exact sp) (by rw [conj_sq]; exact sq) ca cb (rotation_bounded rW)
      (rotation_bounded rC) (by norm_num) r v
    obtain ⟨b1, b2, b3⟩ := (rotation_bounded rW).vec r
    rw [one_mul] at b1 b2 b3
    have c := cross_z hf h8 t2 ⟨b1, b2, b3⟩ R0 (by positivity) (mul_le_mul_of_nonneg_right (by linarith) R0)
    exact ⟨t1, t3 _ _ c (small ⟨b1, b2, b3⟩)⟩

end

/-- The hypotheses can be met: rounding to nearest, whichever products are fused, exact functions of the C library, and the products of the model, at noon of
MJD 56084, for a satellite 7000 km from the centre of the Earth. -/
example (s : ℕ → Bool) : ∃ q dM, let t : ℝ := (56084 + 0.5 - 51544.5) / 36525
    let d : ℝ := 56084 + 0.5 - 51544.5
    let r : EopRec := ⟨0.1, 0.3, 0.0002, -0.0001, 0.001, 0.0005⟩
    let s2r : ℝ → ℝ := fun x => x * (2 * Real.pi / 1296000)
    let a2 : ℝ → ℝ → ℝ := fun y x => Complex.arg ⟨x, y⟩
    let fl := rnArith s
    c2i06aD fl Real.sin Real.cos Real.arctan s2r a2 (product fl) (matProduct fl) t 0.5 d r = .ok (q, dM) ∧
    let there := toTerrestrial fl (transformVector fl) (mulVec fl) q dM ⟨7e6, 0, 0⟩ ⟨0, 7.5e3, 0⟩
    let back := toCelestial fl (transformVector fl) (mulVec fl) q dM there.1 there.2
    Close3 1.54e-4 back.1 ⟨7e6, 0, 0⟩ ∧ Close3 3.3e-7 back.2 ⟨0, 7.5e3, 0⟩ ∧
    (∃ p q' om, c2i06aPQ fl Real.sin Real.cos Real.arctan s2r a2 (product fl) t 0.5 d r = .ok (q', p, om)) := by
  have hu := u_pos
  let ep : Epoch := ⟨56084, 0.5, by norm_num, by norm_num⟩
  have hd : ep.daysSinceJ2000 = 56084 + 0.5 - 51544.5 := by show ((56084 : ℤ) : ℝ) + 0.5 - 51544.5 = _; norm_num
  have hs : Sees ep 0.5 (56084 + 0.5 - 51544.5) ((56084 + 0.5 - 51544.5) / 36525) :=
    ⟨by simp [ep, hu.le], by rw [hd, sub_self, abs_zero]; positivity, by unfold Epoch.jcenturies; rw [hd, sub_self, abs_zero]; positivity⟩
  have hj : ep.jcenturies = 4540 / 36525 := by unfold Epoch.jcenturies; rw [hd]; norm_num
  have he : ep.daysSinceJ2000 = 4540 := by rw [hd]; norm_num
  have trig : Trig Real.sin Real.cos := ⟨fun x => by simp [hu.le], fun x => by simp [hu.le]⟩
  have h1 : |((56084 : ℝ) + 0.5 - 51544.5) / 36525 - ep.jcenturies| ≤ 4 * u := by
    rw [hj, show ((56084 : ℝ) + 0.5 - 51544.5) / 36525 = 4540 / 36525 by norm_num, sub_self, abs_zero]; positivity
  have h2 : |ep.jcenturies| ≤ 1 := by rw [hj]; norm_num [abs_of_pos]
  have h3 : |ep.daysSinceJ2000| ≤ 36525 := by rw [he]; norm_num [abs_of_pos]
  obtain ⟨q, dM, g1, g2⟩ := state_round_trip (rn_faithful s) trig (show InverseTrig Real.arctan _ from inverse_exact) s2r_exact
    (product_ok (rn_faithful s)) (matProduct_ok (rn_faithful s)) (transformVector_ok (rn_faithful s)) (mulVec_ok (rn_faithful s)) ep ep h1 hs h2 h3
    ⟨0.1, 0.3, 0.0002, -0.0001, 0.001, 0.0005⟩
    (by norm_num [abs_of_pos]) (by norm_num [abs_of_pos]) (by norm_num [abs_of_pos]) (by norm_num [abs_of_pos]) (by norm_num [abs_of_pos])
  obtain ⟨q', p, om, -, g3, -⟩ := state_parts_rounded (rn_faithful s) trig (show InverseTrig Real.arctan _ from inverse_exact) s2r_exact
    (product_ok (rn_faithful s)) (transformVector_ok (rn_faithful s)) ep ep h1 hs h2 h3 ⟨0.1, 0.3, 0.0002, -0.0001, 0.001, 0.0005⟩
    (by norm_num [abs_of_pos]) (by norm_num [abs_of_pos]) (by norm_num [abs_of_pos]) (by norm_num [abs_of_pos]) (by norm_num [abs_of_pos])
  have h := g2 ⟨7e6, 0, 0⟩ ⟨0, 7.5e3, 0⟩
  have s1 : size ⟨7e6, 0, 0⟩ = 7e6 := by unfold size; norm_num
  have s2 : size ⟨0, 7.5e3, 0⟩ = 7.5e3 := by unfold size; norm_num
  obtain ⟨⟨k1, k2, k3⟩, k4, k5, k6⟩ := h
  rw [s1] at k1 k2 k3 k4 k5 k6
  rw [s2] at k4 k5 k6
  exact ⟨q, dM, g1, ⟨k1.trans (by norm_num), k2.trans (by norm_num), k3.trans (by norm_num)⟩, ⟨k4.trans (by norm_num), k5.trans (by norm_num),
    k6.trans (by norm_num)⟩, p, q', om, g3⟩

end Verif.RoundedState
