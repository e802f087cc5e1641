import Verif.Model.OrientFrames
import Verif.Spec.Frames
import Verif.Props.Orient
import Verif.Props.Gcrs
/-
C99: the transformations for a record of Earth orientation.
-/
namespace Verif.Orient
open Verif Verif.Eop Verif.EarthRot Verif.Angle Verif.Harmonic Verif.Quat

theorem ut1_days (dat : ℝ → ℝ) (tt : Iau.Epoch) (d : ℝ) :
    (tt2ut1 dat tt d).daysSinceJ2000 = mjd tt - 51544.5 + (d - dat (mjd tt) - 32.184) / 86400 := by
  unfold Iau.Epoch.daysSinceJ2000 tt2ut1 mjd
  simp only [Int.floor_add_fract]
  ring

theorem conj_mat (q : Quat) : q.conj.mat = q.mat.transpose := by
  unfold Quat.conj Quat.mat M3.transpose
  ext <;> simp only <;> ring

theorem mulVec_add (A : M3) (x y : V3) : A * (x + y) = A * x + A * y := by
  simp only [M3.mulVec_def]
  ext <;> simp only [V3.add_x, V3.add_y, V3.add_z] <;> ring

/-- Derivative of a moving matrix applied to a moving vector, from the derivatives of the transpose. -/
theorem moves_frame {N : ℝ → M3} {D : M3} (h : ∀ u : V3, Moves (fun x => (N x).transpose * u) (D * u) 0) (r v : V3) :
    Moves (fun x => N x * (r + x * v)) ((N 0) * v + D.transpose * r) 0 ∧
    Moves (fun x => (N x).transpose * (r + x * v)) ((N 0).transpose * v + D * r) 0 := by
  obtain ⟨a1, a2, a3⟩ := h ⟨1, 0, 0⟩
  obtain ⟨b1, b2, b3⟩ := h ⟨0, 1, 0⟩
  obtain ⟨c1, c2, c3⟩ := h ⟨0, 0, 1⟩
  simp only [M3.mulVec_def, M3.transpose, mul_one, mul_zero, add_zero, zero_add] at a1 a2 a3 b1 b2 b3 c1 c2 c3
  have lin : ∀ a b : ℝ, HasDerivAt (fun x : ℝ => a + x * b) b 0 := fun a b => by
    simpa using ((hasDerivAt_id (0 : ℝ)).mul_const b).const_add a
  unfold Moves
  simp only [M3.mulVec_def, M3.transpose, V3.add_x, V3.add_y, V3.add_z, V3.smul_x, V3.smul_y, V3.smul_z]
  refine ⟨⟨?_, ?_, ?_⟩, ?_, ?_, ?_⟩
  · exact (((a1.mul (lin r.x v.x)).add (a2.mul (lin r.y v.y))).add (a3.mul (lin r.z v.z))).congr_deriv (by ring)
  · exact (((b1.mul (lin r.x v.x)).add (b2.mul (lin r.y v.y))).add (b3.mul (lin r.z v.z))).congr_deriv (by ring)
  · exact (((c1.mul (lin r.x v.x)).add (c2.mul (lin r.y v.y))).add (c3.mul (lin r.z v.z))).congr_deriv (by ring)
  · exact (((a1.mul (lin r.x v.x)).add (b1.mul (lin r.y v.y))).add (c1.mul (lin r.z v.z))).congr_deriv (by ring)
  · exact (((a2.mul (lin r.x v.x)).add (b2.mul (lin r.y v.y))).add (c2.mul (lin r.z v.z))).congr_deriv (by ring)
  · exact (((a3.mul (lin r.x v.x)).add (b3.mul (lin r.y v.y))).add (c3.mul (lin r.z v.z))).congr_deriv (by ring)

theorem turn_axis (era lod : ℝ) (z : V3) : (dRdt era (rate lod)).transpose * z = (R3 era).transpose * V3.cross (axis lod) z := by
  unfold dRdt R3 V3.cross axis
  simp only [M3.mulVec_def, M3.transpose]
  ext <;> simp only <;> ring

/-- What the four functions return for a record, and how it relates to the frame of the Conventions. -/
theorem transforms (dat : ℝ → ℝ) (tt : Iau.Epoch) (e : Rec ℝ) (ht : |centuries (mjd tt)| ≤ 10) (hX : |e.dX| ≤ 3600) (hY : |e.dY| ≤ 3600) :
    ∃ q q1 p dM N, c2i06aAt (tt2ut1 dat) tt (eopRec e) = .ok (some q) ∧ c2i06aBzAt (tt2ut1 dat) tt (eopRec e) = .ok (some q) ∧
      c2i06aPQAt (tt2ut1 dat) tt (eopRec e) = .ok (some (q1, p, axis e.lod)) ∧ c2i06aDAt (tt2ut1 dat) tt (eopRec e) = .ok (some (q, dM)) ∧
      Frame (mjd tt) ⟨e.xp, e.yp, e.dut - dat (mjd tt), e.lod, e.dX, e.dY⟩ N ∧ q.mat = (N 0).transpose ∧ IsRotation q.mat ∧
      (∀ u : V3, Moves (fun x => (N x).transpose * u) (dM * u) 0) ∧ q.mat = p.mat * q1.mat ∧
      (∀ w : V3, dM.transpose * w = q1.mat.transpose * V3.cross (axis e.lod) (p.mat.transpose * w)) ∧
      p.mat = R1 (-sec2rad e.yp) * R2 (-sec2rad e.xp) * R3 (tioLocator (centuries (mjd tt))) ∧ IsRotation q1.mat := by
  set era : ℝ → ℝ := fun x => Iau.eraIers (tt2ut1 dat tt e.dut).daysSinceJ2000 + earthRate e.lod * x with hera
  obtain ⟨q, dM, d, ε, h1, h2, h3, h4, h5, h6⟩ := rate_of_rotation (tt2ut1 dat) tt (eopRec e) ht hX hY era 0 ⟨0, by simp [hera, eopRec]⟩ (by
    simpa [hera, eopRec] using ((hasDerivAt_id (0 : ℝ)).const_mul (earthRate e.lod)).const_add (Iau.eraIers (tt2ut1 dat tt e.dut).daysSinceJ2000))
  simp only at h6
  obtain ⟨f1, f2, f3⟩ := four_agree (tt2ut1 dat) tt (eopRec e)
  have g1 : c2i06aAt (tt2ut1 dat) tt (eopRec e) = .ok (some q) := by
    rw [← f3, h1]
    rfl
  have g2 : c2i06aBzAt (tt2ut1 dat) tt (eopRec e) = .ok (some q) := by rw [f1, g1]
  have hD := h1
  unfold c2i06aDAt at hD
  rw [argsAt_ok] at hD
  simp only [Res.bind, Res.ok.injEq] at hD
  obtain ⟨T, B, hT, hB, k1, k2, k3, q1, p, ω, k4, k5, k6, k7⟩ := parts hD
  have g3 : c2i06aPQAt (tt2ut1 dat) tt (eopRec e) = .ok (some (q1, p, axis e.lod)) := by
    unfold c2i06aPQAt
    rw [argsAt_ok]
    simp only [Res.bind]
    rw [k4, k5]
    rfl
  have hq : q.mat = T * R3 (Iau.era00 (tt2ut1 dat tt e.dut)) * B := by
    obtain ⟨q', e1, e2⟩ := k1 (Iau.era00 (tt2ut1 dat tt e.dut))
    have : c2i06a _ = some q := k2
    rw [show (eopRec e).dut = e.dut from rfl] at this
    simp only at e1
    rw [this] at e1
    cases e1
    exact e2
  refine ⟨q, q1, p, dM, fun x => celestial d ε (locator tt.jcenturies) * spin (era x) * polarMotion (tioLocator tt.jcenturies) (arcsec e.xp) (arcsec e.yp),
    g1, g2, g3, h1, ⟨d, ε, h2, h3, h4, h5, fun x => ?_⟩, h6.1, (rotations _).1 q k2, h6.2, ?_, ?_, ?_, ?_⟩
  · simp only [hera, ut1_days]
    rfl
  · rw [hq, k6, k7, M3.mul_assoc]
    rfl
  · intro w
    rw [k3, k6, k7]
    simp only [M3.transpose_mul, M3.mulVec_mul]
    rw [turn_axis, show (eopRec e).lod = e.lod from rfl]
  · unfold c2i06aPQ at k4
    obtain ⟨de, -, hde⟩ := Option.map_eq_some_iff.1 k4
    simp only [Prod.mk.injEq] at hde
    rw [← hde.2.1, mat_tirs2i]
    rfl
  · rw [k7]
    exact (rot_R3 _).mul hB

end Verif.Orient
