import Verif.Model.RoundedCelestial
import Verif.Props.RoundedRotation
/-
C120: the three forms of the celestial motion of the intermediate pole in double precision.
-/
namespace Verif.RoundedGcrs
open Verif Verif.Rounding Verif.Rounded Verif.RoundedCip

section
variable {fl : Rounded.Arith} {fsin fcos fatan : ℝ → ℝ} {fatan2 : ℝ → ℝ → ℝ} {qmul : Quat → Quat → Quat} {mmul : M3 → M3 → M3}

theorem celestial_spec (d e s : ℝ) : (Quat.aaZ (e + s) * Quat.aaY (-d) * Quat.aaZ (-e)).mat = (EarthRot.celestial d e s).transpose := by
  have h := c2tirs_spec 0 s d e
  unfold EarthRot.c2tirs at h
  rw [neg_zero, zero_add] at h
  have h1 : EarthRot.spin 0 = ⟨1, 0, 0, 0, 1, 0, 0, 0, 1⟩ := by
    unfold EarthRot.spin EarthRot.R3
    ext <;> simp
  rw [h, h1]
  congr 1
  generalize EarthRot.celestial d e s = m
  ext <;> simp [M3.mul_def]

/-- C120: for every pole within 8 degrees of the axis and every locator up to a radian, the product of three rotations and the quaternion in closed form
are the inverse of the matrix Q of the Conventions up to 5e-14 in every entry. -/
theorem celestial_rounded (hf : Faithful fl) (hT : Trig fsin fcos) (hI : InverseTrig fatan fatan2) (hm : QuatMul qmul) {X Y s : ℝ} (hX : |X| ≤ 0.15)
    (hY : |Y| ≤ 0.15) (hs : |s| ≤ 1) : ∃ d e, Real.sin d * Real.cos e = X ∧ Real.sin d * Real.sin e = Y ∧ 0 ≤ d ∧ d ≤ Real.pi / 2 ∧
      Close 5e-14 (celestialQ fl fsin fcos fatan fatan2 qmul X Y s).mat (EarthRot.celestial d e s).transpose ∧
      Close 2e-14 (cq fl fsin fcos fatan fatan2 X Y s).mat (EarthRot.celestial d e s).transpose := by
  have hu := u_pos
  have hul := u_lt
  obtain ⟨d, e, hde, nd, ne, be, bd⟩ := spherical_round hf hI hX hY
  obtain ⟨x1, y1, z1, d0, d1⟩ := EarthRot.spherical_spec hde
  have n1 := celestialQ_near hf hT hm (s' := s) (s := s) (by rw [sub_self, abs_zero]; norm_num) hs nd bd ne be
  have c1 := n1.mat (by norm_num)
  rw [celestial_spec] at c1
  refine ⟨d, e, x1, y1, d0, d1, close_mono c1 (by norm_num), ?_⟩
  have one : Quat.Unit (Quat.aaZ (e + s) * Quat.aaY (-d) * Quat.aaZ (-e)) := ((Quat.unit_Z _).mul (Quat.unit_Y _)).mul (Quat.unit_Z _)
  have h := EarthRot.Cq_eq X Y s
  unfold EarthRot.Cq EarthRot.C at h
  rw [hde] at h
  simp only [Option.map_some, Option.some.injEq] at h
  have n2 : QNear 4e-15 (cq fl fsin fcos fatan fatan2 X Y s) (Quat.aaZ (e + s) * Quat.aaY (-d) * Quat.aaZ (-e)) := by
    refine .inl ⟨?_, unit_norm one⟩
    rw [← h]
    obtain ⟨cd, -⟩ := near_trig hT (Near.of_abs nd)
    have acd : App 1 7.2e-16 (fcos (spherical fl fatan fatan2 X Y).1) (Real.cos d) := ⟨Real.abs_cos_le_one _, cd.trans (by linarith)⟩
    have zl : 0.95 ≤ Real.cos d := by
      rw [z1]
      apply Real.le_sqrt_of_sq_le
      have := abs_le.mp hX
      have := abs_le.mp hY
      nlinarith
    obtain ⟨aZ, afac⟩ := fac_app hf acd zl
    have hs2 : App 0.5 6.1e-17 (fl (s / 2)) (s / 2) := by
      refine (flN hf (M := 0.5) (e := 0) ⟨?_, by simp⟩).mono le_rfl (by norm_num)
      rw [abs_div, abs_two]; linarith
    obtain ⟨ac, as⟩ := near_trig hT (Near.of_abs hs2.2)
    have ac : App 1 3.1e-16 (fcos (fl (s / 2))) (Real.cos (s / 2)) := ⟨Real.abs_cos_le_one _, ac.trans (by linarith)⟩
    have as : App 0.5 3.1e-16 (fsin (fl (s / 2))) (Real.sin (s / 2)) := ⟨Real.abs_sin_le_abs.trans hs2.1, as.trans (by linarith)⟩
    have aX : App 0.15 0 (-X) (-X) := ⟨by rw [abs_neg]; exact hX, by simp⟩
    have aY : App 0.15 0 Y Y := ⟨hY, by simp⟩
    have w := (flN hf (afac.mul (flN hf (ac.mul aZ)))).2
    have x := (flN hf (afac.mul (flN hf ((prN hf 0 (ac.mul aY)).sub (prN hf 1 (as.mul aX)))))).2
    have y := (flN hf (afac.mul (flN hf ((prN hf 2 (ac.mul aX)).add (prN hf 3 (as.mul aY)))))).2
    have z := (flN hf (afac.mul (flN hf (as.mul aZ)))).2
    refine norm_le (by norm_num) ?_
    have sq : ∀ {x b : ℝ}, |x| ≤ b → x ^ 2 ≤ b ^ 2 := fun {x b} h => sq_le_sq' (abs_le.mp h).1 (abs_le.mp h).2
    exact (add_le_add (add_le_add (add_le_add (sq w) (sq x)) (sq y)) (sq z)).trans (by norm_num)
  have c2 := n2.mat (by norm_num)
  rw [celestial_spec] at c2
  exact close_mono c2 (by norm_num)

/-- C120: the matrix in X and Y is Q inverse up to 3/8 (X² + Y²)³, which its series leaves out, and 5e-15 for all roundings. -/
theorem celestial_series_rounded (hf : Faithful fl) (hT : Trig fsin fcos) (hm : MatMul mmul) {X Y s : ℝ} (hX : |X| ≤ 0.15)
    (hY : |Y| ≤ 0.15) : ∃ d e, Real.sin d * Real.cos e = X ∧ Real.sin d * Real.sin e = Y ∧ 0 ≤ d ∧ d ≤ Real.pi / 2 ∧
      Close (3 / 8 * (X ^ 2 + Y ^ 2) ^ 3 + 5e-15) (crxy fl fsin fcos mmul X Y s) (EarthRot.celestial d e s).transpose := by
  have hul := u_lt
  have hX1 := abs_le.mp hX
  have hY1 := abs_le.mp hY
  obtain ⟨d, e, hde, -⟩ := EarthRot.spherical_value X Y (by nlinarith)
  obtain ⟨x1, y1, z1, d0, d1⟩ := EarthRot.spherical_spec hde
  refine ⟨d, e, x1, y1, d0, d1, ?_⟩
  have hC : EarthRot.C X Y s = some (Quat.aaZ (e + s) * Quat.aaY (-d) * Quat.aaZ (-e)) := by unfold EarthRot.C; rw [hde]; rfl
  obtain ⟨k1, k2, k3, k4, k5, k6, k7, k8, k9⟩ := EarthRot.Crxy_close X Y s _ hC
  rw [celestial_spec] at k1 k2 k3 k4 k5 k6 k7 k8 k9
  have near : MApp 3.4 5e-15 (crxy fl fsin fcos mmul X Y s) (EarthRot.Crxy X Y s) := by
    unfold crxy EarthRot.Crxy
    simp only
    have aX : App 0.15 0 X X := ⟨hX, by simp⟩
    have aY : App 0.15 0 Y Y := ⟨hY, by simp⟩
    have r2 : ∀ k, App 0.045 1.1e-17 (fl (fl.pr k (X * X) + fl.pr (k + 1) (Y * Y))) (X * X + Y * Y) := fun k =>
      (flN hf ((prN hf k (aX.mul aX)).add (prN hf (k + 1) (aY.mul aY)))).mono (by norm_num) (by norm_num)
    have one : App 1 0 (1 : ℝ) 1 := ⟨by norm_num, by norm_num⟩
    have half : App 0.5 0 (1 / 2 : ℝ) (1 / 2) := ⟨by norm_num [abs_of_pos], by norm_num⟩
    have eighth : App 0.125 0 (1 / 8 : ℝ) (1 / 8) := ⟨by norm_num [abs_of_pos], by norm_num⟩
    have a := (flN hf (half.add (prN hf 2 (eighth.mul (r2 0))))).mono (M' := 0.506) (e' := 7e-17) (by norm_num) (by norm_num)
    generalize fl (1 / 2 + fl.pr 2 (1 / 8 * fl (fl.pr 0 (X * X) + fl.pr (0 + 1) (Y * Y)))) = a' at a ⊢
    have xx := (flN hf (one.sub (prN hf 3 ((flN hf (a.mul aX)).mul aX)))).mono (M' := 1.1) (e' := 3e-16) (by norm_num) (by norm_num)
    have yy := (flN hf (one.sub (prN hf 4 ((flN hf (a.mul aY)).mul aY)))).mono (M' := 1.1) (e' := 3e-16) (by norm_num) (by norm_num)
    have zz := (flN hf (one.sub (prN hf 5 (a.mul (r2 6))))).mono (M' := 1.1) (e' := 3e-16) (by norm_num) (by norm_num)
    have xy := (flN hf ((flN hf (a.neg.mul aX)).mul aY)).mono (M' := 1.1) (e' := 3e-16) (by norm_num) (by norm_num)
    have bX := aX.mono (M' := 1.1) (e' := 3e-16) (by norm_num) (by norm_num)
    have bY := aY.mono (M' := 1.1) (e' := 3e-16) (by norm_num) (by norm_num)
    have bX' := aX.neg.mono (M' := 1.1) (e' := 3e-16) (by norm_num) (by norm_num)
    have bY' := aY.neg.mono (M' := 1.1) (e' := 3e-16) (by norm_num) (by norm_num)
    have ac : App 1 2.4e-16 (fcos s) (Real.cos s) := ⟨Real.abs_cos_le_one _, (hT.cos s).trans (by linarith)⟩
    have as : App 1 2.4e-16 (fsin s) (Real.sin s) := ⟨Real.abs_sin_le_one _, (hT.sin s).trans (by linarith)⟩
    have z0 : App 1 7e-16 (0 : ℝ) 0 := ⟨by norm_num, by norm_num⟩
    have turn : MApp 1 7e-16 (turnZ fl fsin fcos s) (Quat.aaZ s).mat := by
      have ac' := ac.mono (M' := 1) (e' := 7e-16) (by norm_num) (by norm_num)
      have as' := as.mono (M' := 1) (e' := 7e-16) (by norm_num) (by norm_num)
      have hz : App 1 7e-16 (fl (fl (1 - fcos s) + fcos s)) 1 := by
        refine ⟨by norm_num, ?_⟩
        have b := ac.abs'
        have h1 := flN hf (M := 2.001) (e := 0) (x' := 1 - fcos s) (x := 1 - fcos s) ⟨(abs_sub _ _).trans (by rw [abs_one]; linarith), by simp⟩
        have h2 : App 1 2.5e-16 (fl (1 - fcos s) + fcos s) 1 := by
          refine ⟨by norm_num, ?_⟩
          have := h1.2
          rw [show fl (1 - fcos s) + fcos s - 1 = fl (1 - fcos s) - (1 - fcos s) by ring]
          exact this.trans (by norm_num)
        exact (flN hf h2).2.trans (by norm_num)
      rw [EarthRot.mat_Z]
      unfold turnZ EarthRot.R3
      simp only [Real.cos_neg, Real.sin_neg, neg_neg]
      exact ⟨ac', as'.neg, z0, as', ac', z0, z0, z0, hz⟩
    refine turn.mul (B := 1.1) (b := 3e-16) hm ?_ (by norm_num) (by norm_num)
    exact ⟨xx, xy, bX', xy, yy, bY', bX, bY, zz⟩
  obtain ⟨n1, n2, n3, n4, n5, n6, n7, n8, n9⟩ := near
  have t : ∀ {a b c : ℝ}, App 3.4 5e-15 a b → |b - c| ≤ 3 / 8 * (X ^ 2 + Y ^ 2) ^ 3 → |a - c| ≤ 3 / 8 * (X ^ 2 + Y ^ 2) ^ 3 + 5e-15 := by
    intro a b c h1 h2
    have := abs_add_le (a - b) (b - c)
    rw [sub_add_sub_cancel] at this
    have := h1.2
    linarith
  have z : ∀ {b c : ℝ}, b = c → |b - c| ≤ 3 / 8 * (X ^ 2 + Y ^ 2) ^ 3 := fun h => by rw [h, sub_self, abs_zero]; positivity
  exact ⟨t n1 k1, t n2 k2, t n3 (z k3), t n4 k4, t n5 k5, t n6 (z k6), t n7 (z k7), t n8 (z k8), t n9 k9⟩

end

/-- The hypotheses can be met: rounding to nearest, whichever products are fused, exact functions of the C library; the pole of about 2050. -/
example (r : ℕ → Bool) : ∃ d e, Real.sin d * Real.cos e = 0.005 ∧ Real.sin d * Real.sin e = -0.00003 ∧
    Close 2e-14 (cq (rnArith r) Real.sin Real.cos Real.arctan (fun y x => Complex.arg ⟨x, y⟩) 0.005 (-0.00003) 1e-8).mat
      (EarthRot.celestial d e 1e-8).transpose := by
  have hu := u_pos
  obtain ⟨d, e, h1, h2, -, -, -, h3⟩ := celestial_rounded (rn_faithful r) (fsin := Real.sin) (fcos := Real.cos) ⟨fun x => by simp [hu.le], fun x => by simp [hu.le]⟩
    (show InverseTrig Real.arctan (fun y x => Complex.arg ⟨x, y⟩) from inverse_exact) (product_ok (rn_faithful r)) (X := 0.005) (Y := -0.00003) (s := 1e-8)
    (by rw [abs_le]; constructor <;> norm_num) (by rw [abs_le]; constructor <;> norm_num) (by rw [abs_le]; constructor <;> norm_num)
  exact ⟨d, e, h1, h2, h3⟩

/-- Likewise for the matrix in X and Y. -/
example (r : ℕ → Bool) : ∃ d e, Real.sin d * Real.cos e = 0.005 ∧ Real.sin d * Real.sin e = -0.00003 ∧
    Close (3 / 8 * (0.005 ^ 2 + (-0.00003) ^ 2) ^ 3 + 5e-15) (crxy (rnArith r) Real.sin Real.cos (matProduct (rnArith r)) 0.005 (-0.00003) 1e-8)
      (EarthRot.celestial d e 1e-8).transpose := by
  have hu := u_pos
  obtain ⟨d, e, h1, h2, -, -, h3⟩ := celestial_series_rounded (rn_faithful r) (fsin := Real.sin) (fcos := Real.cos) ⟨fun x => by simp [hu.le], fun x => by simp [hu.le]⟩
    (matProduct_ok (rn_faithful r)) (X := 0.005) (Y := -0.00003) (s := 1e-8)
    (by rw [abs_le]; constructor <;> norm_num) (by rw [abs_le]; constructor <;> norm_num)
  exact ⟨d, e, h1, h2, h3⟩

end Verif.RoundedGcrs
