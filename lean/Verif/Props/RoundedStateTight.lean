import Verif.Proof.RoundedStateTight
import Verif.Props.RoundedForms
/-
C122: the errors of the angles cancel on the way there and back and between the forms of the rotation.
-/
namespace Verif.RoundedState
open Verif Verif.Rounding Verif.Rounded Verif.RoundedGcrs Verif.RoundedCip Verif.Iau
open Verif.EarthRot (poleX poleY locator tioLocator arcsec EopRec earthRate)

section
variable {fl : Arith} {fsin fcos fatan s2r : ℝ → ℝ} {fatan2 : ℝ → ℝ → ℝ} {qmul : Quat → Quat → Quat} {mmul : M3 → M3 → M3} {rot : Quat → V3 → V3}
  {mv : M3 → V3 → V3}

/-- The matrix of a turn about the third axis with rate `w`. -/
def turn (w : ℝ) : M3 := ⟨0, w, 0, -w, 0, 0, 0, 0, 0⟩

theorem celestialQ_spec : ∀ d e s : ℝ, (Quat.aaZ (e + s) * Quat.aaY (-d) * Quat.aaZ (-e)).mat = (EarthRot.celestial d e s).transpose := by
  intro d e s
  rw [Quat.mat_mul ((Quat.unit_Z _).mul (Quat.unit_Y _)) (Quat.unit_Z _), Quat.mat_mul (Quat.unit_Z _) (Quat.unit_Y _), EarthRot.mat_Z, EarthRot.mat_Y,
    EarthRot.mat_Z]
  unfold EarthRot.celestial
  simp only [M3.transpose_mul, EarthRot.R2_transpose, EarthRot.R3_transpose, neg_neg]
  rw [show -(e + s) = -s + -e by ring, ← EarthRot.R3_mul]
  simp only [M3.mul_assoc]

theorem rot_celestial : ∀ d e s : ℝ, EarthRot.IsRotation (EarthRot.celestial d e s) := by
  intro d e s
  unfold EarthRot.celestial
  exact (((EarthRot.rot_R3 _).mul (EarthRot.rot_R2 _)).mul (EarthRot.rot_R3 _)).mul (EarthRot.rot_R3 _)

theorem rot_polar : ∀ sp xp yp : ℝ, EarthRot.IsRotation (EarthRot.polarMotion sp xp yp) := by
  intro sp xp yp
  unfold EarthRot.polarMotion
  exact ((EarthRot.rot_R3 _).mul (EarthRot.rot_R2 _)).mul (EarthRot.rot_R1 _)

theorem dRdt_spec : ∀ θ w : ℝ, EarthRot.dRdt θ w = turn w * (EarthRot.spin θ).transpose := by
  intro θ w
  unfold EarthRot.dRdt EarthRot.spin EarthRot.R3 turn
  simp only [M3.mul_def, M3.transpose, Real.cos_neg, Real.sin_neg]
  ext <;> simp

theorem rot_celestialQ : ∀ d e s : ℝ, (Quat.aaZ (e + s) * Quat.aaY (-d) * Quat.aaZ (-e)).mat * (Quat.aaZ (e + s) * Quat.aaY (-d) * Quat.aaZ (-e)).mat.transpose = 1 := by
  intro d e s
  rw [celestialQ_spec]
  exact (rotation_t (rot_celestial d e s)).1

theorem rot_tirs2i : ∀ xp yp sp : ℝ, (EarthRot.tirs2i xp yp sp).mat * (EarthRot.tirs2i xp yp sp).mat.transpose = 1 := by
  intro xp yp sp
  rw [tirs2i_spec]
  exact (rotation_t (rot_polar sp xp yp)).1

theorem celestialQ_same (hf : Faithful fl) (hT : Trig fsin fcos) (hm : QuatMul qmul) {X Y s d e : ℝ} (bs : |s| ≤ 1)
    (hd : |(spherical fl fatan fatan2 X Y).1 - d| ≤ 4 * u) (bd : |(spherical fl fatan fatan2 X Y).1| ≤ 2)
    (he : Near (4 * u) (spherical fl fatan fatan2 X Y).2 e) (be : |(spherical fl fatan fatan2 X Y).2| ≤ 4) :
    QNear 1.2e-14 (celestialQ fl fsin fcos fatan fatan2 qmul X Y s) (Quat.aaZ (e + s) * Quat.aaY (-d) * Quat.aaZ (-e)) :=
  celestialQ_near hf hT hm (by rw [sub_self, abs_zero]; norm_num) bs hd bd he be

theorem tirs2i_same (hf : Faithful fl) (hT : Trig fsin fcos) (hm : QuatMul qmul) {sp xp yp : ℝ} (bsp : |sp| ≤ 0.001) (bx : |xp| ≤ 0.0175) (by' : |yp| ≤ 0.0175) :
    QNear 1e-14 (tirs2i fl fsin fcos qmul xp yp sp) (EarthRot.tirs2i xp yp sp) :=
  tirs2i_near hf hT hm (by rw [sub_self, abs_zero]; norm_num) bsp (same bx) (same by')

/-- What both forms return, against the frame that belongs exactly to the angles the library has computed: `A` takes intermediate terrestrial to celestial
coordinates, `W` terrestrial to intermediate ones. -/
theorem frame_tight (hf : Faithful fl) (hT : Trig fsin fcos) (hI : InverseTrig fatan fatan2) (hs : SecToRad s2r) (hm : QuatMul qmul) (hmm : MatMul mmul)
    {T t : ℝ} (f tu : ℝ) (ht : |t - T| ≤ 4 * u) (hr : |T| ≤ 1) (eops : EopRec) (hdX : |eops.dX| ≤ 3600) (hdY : |eops.dY| ≤ 3600) (hxp : |eops.xp| ≤ 3600)
    (hyp : |eops.yp| ≤ 3600) (hl : |eops.lod| ≤ 60) :
    ∃ q dM q1 p w' w C θ W, c2i06aD fl fsin fcos fatan s2r fatan2 qmul mmul t f tu eops = .ok (q, dM) ∧
      c2i06aPQ fl fsin fcos fatan s2r fatan2 qmul t f tu eops = .ok (q1, p, ⟨0, 0, w'⟩) ∧ App 7.3e-5 3e-20 w' w ∧
      EarthRot.IsRotation C ∧ EarthRot.IsRotation W ∧ |q.sqNorm - 1| ≤ 1e-6 ∧ |q1.sqNorm - 1| ≤ 1e-6 ∧ |p.sqNorm - 1| ≤ 1e-6 ∧
      Close 8.5e-14 q.mat (C * EarthRot.spin θ * W).transpose ∧ Close 5.1e-14 q1.mat (C * EarthRot.spin θ).transpose ∧ Close 4.1e-14 p.mat W.transpose ∧
      MApp 6.57e-4 6.5e-17 dM (W.transpose * turn w * (C * EarthRot.spin θ).transpose) := by
  obtain ⟨x, y, d, e, d0, e0, F⟩ := front hf hT hI hs ht hr eops hdX hdY hxp hyp
  have bx := s2r_small hs hxp
  have by' := s2r_small hs hyp
  have n := c2i_tight (era := Rounded.era00 fl f tu) hf hT hm (anp_abs hf _) F.bs F.bsp F.hd F.bd F.he F.be bx by'
  have n1 := c2tirs_tight (era := Rounded.era00 fl f tu) hf hT hm (anp_abs hf _) F.bs F.hd F.bd F.he F.be
  have np := tirs2i_same hf hT hm F.bsp bx by'
  have nC := celestialQ_same (fl := fl) hf hT hm F.bs F.hd F.bd F.he F.be
  have c := n.mat (by norm_num)
  have c1 := n1.mat (by norm_num)
  have cp := np.mat (by norm_num)
  have w := rate_app hf hl
  have mC := toMat_app hf nC (by norm_num) (rot_celestialQ _ _ _) (E := 5.1e-14) (by norm_num)
  have mT := toMat_app hf np (by norm_num) (rot_tirs2i _ _ _) (E := 4.3e-14) (by norm_num)
  have mR := dRdt_near (era := Rounded.era00 fl f tu) hf hT w
  have p1 := mT.mul hmm mR (M := 2.19e-4) (e := 9.9e-18) (by norm_num) (by norm_num)
  have p2 := p1.mul hmm mC (M := 6.57e-4) (e := 6.5e-17) (by norm_num) (by norm_num)
  rw [tirs2i_spec, celestialQ_spec, dRdt_spec] at p2
  rw [c2i_spec] at c
  rw [c2tirs_spec] at c1
  rw [tirs2i_spec] at cp
  rw [M3.mul_assoc, M3.mul_assoc, ← M3.transpose_mul, ← M3.mul_assoc] at p2
  refine ⟨_, _, _, _, rate fl eops.lod, EarthRot.rate eops.lod,
    EarthRot.celestial d0 e0 (s06 fl fsin fcos s2r (fun i => (fargs14 fl s2r t).getD i 0) t x y), Rounded.era00 fl f tu,
    EarthRot.polarMotion (sp00 fl s2r t) (s2r eops.xp) (s2r eops.yp), ?_, ?_, w, rot_celestial d0 e0 _, rot_polar (sp00 fl s2r t) (s2r eops.xp) (s2r eops.yp), QNear.sq n (by norm_num), QNear.sq n1 (by norm_num),
    QNear.sq np (by norm_num), close_mono c (by norm_num), close_mono c1 (by norm_num), close_mono cp (by norm_num),
    p2⟩
  · unfold c2i06aD
    rw [F.cip]
    rfl
  · unfold c2i06aPQ
    rw [F.cip]
    rfl

theorem frame_moves (C W : M3) (θ w : ℝ) (hC : EarthRot.IsRotation C) (hW : EarthRot.IsRotation W) : ∃ M : ℝ → M3, M 0 = C * EarthRot.spin θ * W ∧
    (∀ x, EarthRot.IsRotation (M x)) ∧
    ∀ a : V3, Harmonic.Moves (fun x => (M x).transpose * a) (W.transpose * turn w * (C * EarthRot.spin θ).transpose * a) 0 := by
  refine ⟨fun x => C * EarthRot.spin (θ + w * x) * W, by simp, fun x => ?_, fun a => moves_spin C W θ w a⟩
  unfold EarthRot.spin
  exact (hC.mul (EarthRot.rot_R3 _)).mul hW

/-- C122: there and back with one result of `c2i06a`: the errors of the angles cancel, so that the position returns to 5.7e-13 of its size (4 micrometres for a
satellite 7000 km from the centre), the velocity to 5.7e-13 of its size plus 8e-16 per second times the size of the position; no bound on UT1. -/
theorem round_trip_tight (hf : Faithful fl) (hT : Trig fsin fcos) (hI : InverseTrig fatan fatan2) (hs : SecToRad s2r) (hm : QuatMul qmul) (hmm : MatMul mmul)
    (hrot : Turns rot) (hmv : MatVec mv)
    {T t : ℝ} (f tu : ℝ) (ht : |t - T| ≤ 4 * u) (hr : |T| ≤ 1) (eops : EopRec) (hdX : |eops.dX| ≤ 3600) (hdY : |eops.dY| ≤ 3600) (hxp : |eops.xp| ≤ 3600)
    (hyp : |eops.yp| ≤ 3600) (hl : |eops.lod| ≤ 60) :
    ∃ q dM, c2i06aD fl fsin fcos fatan s2r fatan2 qmul mmul t f tu eops = .ok (q, dM) ∧ ∀ r v : V3,
      let s := toTerrestrial fl rot mv q dM r v
      Close3 (5.7e-13 * size r) (toCelestial fl rot mv q dM s.1 s.2).1 r ∧
        Close3 (5.7e-13 * size v + 8e-16 * size r) (toCelestial fl rot mv q dM s.1 s.2).2 v := by
  obtain ⟨q, dM, q1, p, w', w, C, θ, W, g1, -, -, hC, hW, g4, -, -, g5, -, -, g7⟩ := frame_tight hf hT hI hs hm hmm f tu ht hr eops hdX hdY hxp hyp hl
  obtain ⟨M, e0, g3, g6⟩ := frame_moves C W θ w hC hW
  rw [← e0] at g5
  refine ⟨q, dM, g1, fun r v => ?_⟩
  clear g1
  generalize W.transpose * turn w * (C * EarthRot.spin θ).transpose = D at *
  intro s
  have R0 := size_nonneg r
  have V0 := size_nonneg v
  have bt := rotation_bounded (rotation_t (g3 0))
  have bm := rotation_bounded (g3 0)
  have bD := mapp_bounded g7
  have bDt := mapp_bounded (mapp_transpose g7)
  obtain ⟨a1, a2⟩ := state_tight hf hrot hmv g4 g5 bt g7 r v
  change Close3 _ s.1 _ at a1
  change Close3 _ s.2 _ at a2
  have hc : Close 8.5e-14 q.conj.mat (M 0) := by rw [Orient.conj_mat]; exact close_transpose g5
  obtain ⟨b1, b2⟩ := state_tight hf hrot hmv (q := q.conj) (by rw [conj_sq]; exact g4) hc bm (mapp_transpose g7) s.1 s.2
  have s1 : size s.1 ≤ 3.01 * size r := by
    have := size_close a1
    have := bt.size r
    linarith
  have s2 : size s.2 ≤ 3.01 * size v + 2e-3 * size r := by
    have h1 := size_close a2
    have h2 := bt.size v
    have h3 := bD.size r
    have h4 : size ((M 0).transpose * v + D * r) ≤ size ((M 0).transpose * v) + size (D * r) := by
      unfold size
      have k1 := abs_add_le ((M 0).transpose * v).x (D * r).x
      have k2 := abs_add_le ((M 0).transpose * v).y (D * r).y
      have k3 := abs_add_le ((M 0).transpose * v).z (D * r).z
      simp only [V3.add_x, V3.add_y, V3.add_z]
      linarith
    linarith
  obtain ⟨c1, c2, c3⟩ := bounded_close bm a1 zero_le_one
  obtain ⟨d1, d2, d3⟩ := bounded_close bm a2 zero_le_one
  obtain ⟨e1, e2, e3⟩ := bounded_close bDt a1 (by norm_num)
  have back : M 0 * ((M 0).transpose * r) = r := by rw [← M3.mulVec_mul, (g3 0).1, M3.one_mulVec]
  have backv : M 0 * ((M 0).transpose * v + D * r) + D.transpose * ((M 0).transpose * r) = v := by
    have h := skew g3 g6
    have hr : ((M 0) * D + D.transpose * (M 0).transpose) * r = (0 : M3) * r := by rw [h]
    have ho := (g3 0).1
    have hv : M 0 * ((M 0).transpose * v) = v := by rw [← M3.mulVec_mul, ho, M3.one_mulVec]
    rw [Orient.mulVec_add, hv]
    simp only [M3.mulVec_def, M3.mul_def, M3.add_def, M3.zero_def, V3.mk.injEq, zero_mul, add_zero] at hr
    obtain ⟨h1, h2, h3⟩ := hr
    ext
    · simp only [V3.add_x, M3.mulVec_def]; linarith
    · simp only [V3.add_y, M3.mulVec_def]; linarith
    · simp only [V3.add_z, M3.mulVec_def]; linarith
  obtain ⟨p1, p2, p3⟩ := b1
  obtain ⟨q1, q2, q3⟩ := b2
  refine ⟨⟨?_, ?_, ?_⟩, ?_, ?_, ?_⟩
  · have := abs_sub_le (rot q.conj s.1).x (M 0 * s.1).x (M 0 * ((M 0).transpose * r)).x
    rw [← congrArg V3.x back]
    show |(rot q.conj s.1).x - _| ≤ _
    exact this.trans ((add_le_add p1 c1).trans (by linarith))
  · have := abs_sub_le (rot q.conj s.1).y (M 0 * s.1).y (M 0 * ((M 0).transpose * r)).y
    rw [← congrArg V3.y back]
    show |(rot q.conj s.1).y - _| ≤ _
    exact this.trans ((add_le_add p2 c2).trans (by linarith))
  · have := abs_sub_le (rot q.conj s.1).z (M 0 * s.1).z (M 0 * ((M 0).transpose * r)).z
    rw [← congrArg V3.z back]
    show |(rot q.conj s.1).z - _| ≤ _
    exact this.trans ((add_le_add p3 c3).trans (by linarith))
  · rw [← congrArg V3.x backv]
    have h := abs_sub_le (add fl (rot q.conj s.2) (mv dM.transpose s.1)).x (M 0 * s.2 + D.transpose * s.1).x
      (M 0 * ((M 0).transpose * v + D * r) + D.transpose * ((M 0).transpose * r)).x
    have h2 : |(M 0 * s.2 + D.transpose * s.1).x - (M 0 * ((M 0).transpose * v + D * r) + D.transpose * ((M 0).transpose * r)).x| ≤
        |(M 0 * s.2).x - (M 0 * ((M 0).transpose * v + D * r)).x| + |(D.transpose * s.1).x - (D.transpose * ((M 0).transpose * r)).x| :=
      abs4 _ _ _ _
    show |(add fl (rot q.conj s.2) (mv dM.transpose s.1)).x - _| ≤ _
    exact h.trans ((add_le_add q1 (h2.trans (add_le_add d1 e1))).trans (by linarith))
  · rw [← congrArg V3.y backv]
    have h := abs_sub_le (add fl (rot q.conj s.2) (mv dM.transpose s.1)).y (M 0 * s.2 + D.transpose * s.1).y
      (M 0 * ((M 0).transpose * v + D * r) + D.transpose * ((M 0).transpose * r)).y
    have h2 : |(M 0 * s.2 + D.transpose * s.1).y - (M 0 * ((M 0).transpose * v + D * r) + D.transpose * ((M 0).transpose * r)).y| ≤
        |(M 0 * s.2).y - (M 0 * ((M 0).transpose * v + D * r)).y| + |(D.transpose * s.1).y - (D.transpose * ((M 0).transpose * r)).y| :=
      abs4 _ _ _ _
    show |(add fl (rot q.conj s.2) (mv dM.transpose s.1)).y - _| ≤ _
    exact h.trans ((add_le_add q2 (h2.trans (add_le_add d2 e2))).trans (by linarith))
  · rw [← congrArg V3.z backv]
    have h := abs_sub_le (add fl (rot q.conj s.2) (mv dM.transpose s.1)).z (M 0 * s.2 + D.transpose * s.1).z
      (M 0 * ((M 0).transpose * v + D * r) + D.transpose * ((M 0).transpose * r)).z
    have h2 : |(M 0 * s.2 + D.transpose * s.1).z - (M 0 * ((M 0).transpose * v + D * r) + D.transpose * ((M 0).transpose * r)).z| ≤
        |(M 0 * s.2).z - (M 0 * ((M 0).transpose * v + D * r)).z| + |(D.transpose * s.1).z - (D.transpose * ((M 0).transpose * r)).z| :=
      abs4 _ _ _ _
    show |(add fl (rot q.conj s.2) (mv dM.transpose s.1)).z - _| ≤ _
    exact h.trans ((add_le_add q3 (h2.trans (add_le_add d3 e3))).trans (by linarith))

/-- C122: the two forms of `c2i06a` give the same terrestrial and the same celestial states: positions to 5e-13 of their size, velocities to 5e-13 of their
size plus 1e-16 per second times the size of the position. -/
theorem states_agree_tight (hf : Faithful fl) (hT : Trig fsin fcos) (hI : InverseTrig fatan fatan2) (hs : SecToRad s2r) (hm : QuatMul qmul) (hmm : MatMul mmul)
    (hrot : Turns rot) (hmv : MatVec mv)
    {T t : ℝ} (f tu : ℝ) (ht : |t - T| ≤ 4 * u) (hr : |T| ≤ 1) (eops : EopRec) (hdX : |eops.dX| ≤ 3600) (hdY : |eops.dY| ≤ 3600) (hxp : |eops.xp| ≤ 3600)
    (hyp : |eops.yp| ≤ 3600) (hl : |eops.lod| ≤ 60) :
    ∃ q dM q1 p om, c2i06aD fl fsin fcos fatan s2r fatan2 qmul mmul t f tu eops = .ok (q, dM) ∧
      c2i06aPQ fl fsin fcos fatan s2r fatan2 qmul t f tu eops = .ok (q1, p, om) ∧ ∀ r v : V3,
      (Close3 (5e-13 * size r) (toTerrestrial fl rot mv q dM r v).1 (toTerrestrial2 fl rot q1 p om r v).1 ∧
        Close3 (5e-13 * size v + 1e-16 * size r) (toTerrestrial fl rot mv q dM r v).2 (toTerrestrial2 fl rot q1 p om r v).2) ∧
      Close3 (5e-13 * size r) (toCelestial fl rot mv q dM r v).1 (toCelestial2 fl rot q1 p om r v).1 ∧
        Close3 (5e-13 * size v + 1e-16 * size r) (toCelestial fl rot mv q dM r v).2 (toCelestial2 fl rot q1 p om r v).2 := by
  obtain ⟨q, dM, q1, p, w', w, C, θ, W, g1, g2, hw, hC, hW, k, k1, kp, c, c1, cp, hD⟩ := frame_tight hf hT hI hs hm hmm f tu ht hr eops hdX hdY hxp hyp hl
  have hu := u_pos
  have hul := u_lt
  refine ⟨q, dM, q1, p, _, g1, g2, fun r v => ?_⟩
  have rA : EarthRot.IsRotation (C * EarthRot.spin θ) := by
    unfold EarthRot.spin
    exact hC.mul (EarthRot.rot_R3 _)
  generalize C * EarthRot.spin θ = A at *
  have R0 := size_nonneg r
  have V0 := size_nonneg v
  have kz : ∀ z : V3, turn w * z = -V3.cross ⟨0, 0, w⟩ z := by
    intro z
    unfold V3.cross turn
    ext <;> simp [M3.mulVec_def]
  have kt : ∀ z : V3, (turn w).transpose * z = V3.cross ⟨0, 0, w⟩ z := by
    intro z
    unfold V3.cross turn
    ext <;> simp [M3.mulVec_def, M3.transpose]
  have small : ∀ {a : V3}, |a.x| ≤ size r ∧ |a.y| ≤ size r ∧ |a.z| ≤ size r →
      |(V3.cross ⟨0, 0, w⟩ a).x| ≤ 7.3e-5 * size r ∧ |(V3.cross ⟨0, 0, w⟩ a).y| ≤ 7.3e-5 * size r ∧ |(V3.cross ⟨0, 0, w⟩ a).z| ≤ 7.3e-5 * size r := by
    intro a ha
    have k1 := mul_le_mul hw.1 ha.1 (abs_nonneg _) (by norm_num)
    have k2 := mul_le_mul hw.1 ha.2.1 (abs_nonneg _) (by norm_num)
    rw [← abs_mul] at k1 k2
    unfold V3.cross
    simp only [zero_mul, zero_sub, sub_zero, abs_neg, abs_zero]
    exact ⟨k2, k1, by positivity⟩
  have tri : ∀ {a b c : V3} {ε δ : ℝ}, Close3 ε a c → Close3 δ b c → Close3 (ε + δ) a b := by
    intro a b c ε δ h k
    have key : ∀ {x y z : ℝ}, |x - z| ≤ ε → |y - z| ≤ δ → |x - y| ≤ ε + δ := by
      intro x y z h1 h2
      have h1 := abs_le.mp h1
      have h2 := abs_le.mp h2
      exact abs_le.mpr ⟨by linarith, by linarith⟩
    exact ⟨key h.1 k.1, key h.2.1 k.2.1, key h.2.2 k.2.2⟩
  constructor
  · obtain ⟨s1, s2⟩ := state_tight hf hrot hmv k c (rotation_bounded (rotation_t (rA.mul hW))) hD r v
    obtain ⟨t1, t2, t3⟩ := two_tight hf hrot k1 kp c1 cp (rotation_bounded (rotation_t rA)) (rotation_bounded (rotation_t hW)) (by norm_num) r v
    obtain ⟨b1, b2, b3⟩ := (rotation_bounded (rotation_t rA)).vec r
    rw [one_mul] at b1 b2 b3
    have cr := cross_z hf hw t2 ⟨b1, b2, b3⟩ R0 (by positivity) (mul_le_mul_of_nonneg_right (by linarith) R0)
    have kk := t3 (-cross fl 0 ⟨0, 0, w'⟩ (rot q1 r)) (-V3.cross ⟨0, 0, w⟩ (A.transpose * r)) (by
      obtain ⟨c1, c2, c3⟩ := cr
      refine ⟨?_, ?_, ?_⟩ <;> simp only [V3.neg_x, V3.neg_y, V3.neg_z] <;> rw [neg_sub_neg, abs_sub_comm] <;> assumption) (by
      simp only [V3.neg_x, V3.neg_y, V3.neg_z, abs_neg]
      exact small ⟨b1, b2, b3⟩)
    rw [M3.transpose_mul, M3.mulVec_mul] at s1
    rw [M3.transpose_mul, M3.mulVec_mul, M3.mulVec_mul, M3.mulVec_mul, kz, ← Orient.mulVec_add] at s2
    exact ⟨Close3.mono (tri s1 t1) (by linarith), Close3.mono (tri s2 kk) (by linarith)⟩
  · have cc : Close 8.5e-14 q.conj.mat (A * W) := by rw [Orient.conj_mat]; exact close_transpose c
    have ca : Close 4.1e-14 p.conj.mat W := by rw [Orient.conj_mat]; exact close_transpose cp
    have cb : Close 5.1e-14 q1.conj.mat A := by rw [Orient.conj_mat]; exact close_transpose c1
    obtain ⟨s1, s2⟩ := state_tight hf hrot hmv (q := q.conj) (by rw [conj_sq]; exact k) cc (rotation_bounded (rA.mul hW)) (mapp_transpose hD) r v
    obtain ⟨t1, t2, t3⟩ := two_tight hf hrot (a := p.conj) (b := q1.conj) (by rw [conj_sq]; exact kp) (by rw [conj_sq]; exact k1) ca cb (rotation_bounded hW)
      (rotation_bounded rA) (by norm_num) r v
    obtain ⟨b1, b2, b3⟩ := (rotation_bounded hW).vec r
    rw [one_mul] at b1 b2 b3
    have cr := cross_z hf hw t2 ⟨b1, b2, b3⟩ R0 (by positivity) (mul_le_mul_of_nonneg_right (by linarith) R0)
    have kk := t3 _ _ cr (small ⟨b1, b2, b3⟩)
    rw [M3.mulVec_mul] at s1
    rw [M3.transpose_mul, M3.transpose_mul, M3.transpose_transpose, M3.transpose_transpose, M3.mulVec_mul, M3.mulVec_mul, M3.mulVec_mul, kt,
      ← Orient.mulVec_add] at s2
    exact ⟨Close3.mono (tri s1 t1) (by linarith), Close3.mono (tri s2 kk) (by linarith)⟩

end

/-- The hypotheses can be met: rounding to nearest, whichever products are fused, exact functions of the C library, Eigen's products without vector
instructions, at noon of MJD 56084, for a satellite 7000 km from the centre of the Earth: back within 4 micrometres and 1e-8 m/s. -/
example (s : ℕ → Bool) : ∃ q dM q1 p om, let t : ℝ := 4540 / 36525
    let e : EopRec := ⟨0.1, 0.3, 0.0002, -0.0001, 0.001, 0.0005⟩
    let s2r : ℝ → ℝ := fun x => x * (2 * Real.pi / 1296000)
    let a2 : ℝ → ℝ → ℝ := fun y x => Complex.arg ⟨x, y⟩
    let fl := rnArith s
    c2i06aD fl Real.sin Real.cos Real.arctan s2r a2 (product fl) (matProduct fl) t 0.5 4540 e = .ok (q, dM) ∧
    c2i06aPQ fl Real.sin Real.cos Real.arctan s2r a2 (product fl) t 0.5 4540 e = .ok (q1, p, om) ∧
    let there := toTerrestrial fl (transformVector fl) (mulVec fl) q dM ⟨7e6, 0, 0⟩ ⟨0, 7.5e3, 0⟩
    let back := toCelestial fl (transformVector fl) (mulVec fl) q dM there.1 there.2
    Close3 4e-6 back.1 ⟨7e6, 0, 0⟩ ∧ Close3 1e-8 back.2 ⟨0, 7.5e3, 0⟩ ∧
    Close3 4.5e-9 there.2 (toTerrestrial2 fl (transformVector fl) q1 p om ⟨7e6, 0, 0⟩ ⟨0, 7.5e3, 0⟩).2 := by
  have hu := u_pos
  have trig : Trig Real.sin Real.cos := ⟨fun x => by simp [hu.le], fun x => by simp [hu.le]⟩
  have s1 : size ⟨7e6, 0, 0⟩ = 7e6 := by unfold size; norm_num
  have s2 : size ⟨0, 7.5e3, 0⟩ = 7.5e3 := by unfold size; norm_num
  obtain ⟨q, dM, g1, g2⟩ := round_trip_tight (rn_faithful s) trig (show InverseTrig Real.arctan _ from inverse_exact) s2r_exact
    (product_ok (rn_faithful s)) (matProduct_ok (rn_faithful s)) (transformVector_ok (rn_faithful s)) (mulVec_ok (rn_faithful s))
    (T := 4540 / 36525) (t := 4540 / 36525) 0.5 4540 (by simp; positivity) (by norm_num [abs_of_pos]) ⟨0.1, 0.3, 0.0002, -0.0001, 0.001, 0.0005⟩
    (by norm_num [abs_of_pos]) (by norm_num [abs_of_pos]) (by norm_num [abs_of_pos]) (by norm_num [abs_of_pos]) (by norm_num [abs_of_pos])
  obtain ⟨q', dM', q1, p, om, h1, h2, h3⟩ := states_agree_tight (rn_faithful s) trig (show InverseTrig Real.arctan _ from inverse_exact) s2r_exact
    (product_ok (rn_faithful s)) (matProduct_ok (rn_faithful s)) (transformVector_ok (rn_faithful s)) (mulVec_ok (rn_faithful s))
    (T := 4540 / 36525) (t := 4540 / 36525) 0.5 4540 (by simp; positivity) (by norm_num [abs_of_pos]) ⟨0.1, 0.3, 0.0002, -0.0001, 0.001, 0.0005⟩
    (by norm_num [abs_of_pos]) (by norm_num [abs_of_pos]) (by norm_num [abs_of_pos]) (by norm_num [abs_of_pos]) (by norm_num [abs_of_pos])
  have same := g1.symm.trans h1
  simp only [Res.ok.injEq, Prod.mk.injEq] at same
  obtain ⟨rfl, rfl⟩ := same
  obtain ⟨k1, k2⟩ := g2 ⟨7e6, 0, 0⟩ ⟨0, 7.5e3, 0⟩
  obtain ⟨⟨-, k3⟩, -⟩ := h3 ⟨7e6, 0, 0⟩ ⟨0, 7.5e3, 0⟩
  rw [s1] at k1 k2 k3
  rw [s2] at k2 k3
  exact ⟨q, dM, q1, p, om, g1, h2, Close3.mono k1 (by norm_num), Close3.mono k2 (by norm_num), Close3.mono k3 (by norm_num)⟩

end Verif.RoundedState
