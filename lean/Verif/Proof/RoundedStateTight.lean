import Verif.Proof.RoundedForms
import Verif.Proof.RoundedState
/-
Position and velocity with the errors of the angles set apart.
-/
namespace Verif.RoundedState
open Verif Verif.Rounding Verif.Rounded Verif.RoundedGcrs Verif.Iau

section
variable {fl : Rounded.Arith} {rot : Quat → V3 → V3} {mv : M3 → V3 → V3}

theorem turned_tight (ht : Turns rot) {q : Quat} (hq : |q.sqNorm - 1| ≤ 1e-6) {Q : M3} (hc : Close 8.5e-14 q.mat Q) (hQ : Bounded 1 Q) (v : V3) :
    Close3 (9.2e-14 * size v) (rot q v) (Q * v) := by
  have h := turned2 ht hq hc hQ (⟨by simp, by simp, by simp⟩ : Close3 0 v v)
  refine Close3.mono h ?_
  have hul := mul_le_mul_of_nonneg_right u_lt.le (size_nonneg v)
  have := size_nonneg v
  simp only [mul_zero, add_zero]
  linarith

/-- A row of the derivative times a vector. -/
theorem row_tight {r a' a b' b c' c x y z : ℝ} (h : Dot3 r (a' * x) (b' * y) (c' * z)) (ha : App 6.57e-4 6.5e-17 a' a) (hb : App 6.57e-4 6.5e-17 b' b)
    (hc : App 6.57e-4 6.5e-17 c' c) : |r - (a * x + b * y + c * z)| ≤ 6.54e-17 * (|x| + |y| + |z|) := by
  have hul := u_lt
  have hu := u_pos
  have h1 := row_bound (x := x) (y := y) (z := z) ha.abs' hb.abs' hc.abs'
  have h2 : |(a' * x + b' * y + c' * z) - (a * x + b * y + c * z)| ≤ 6.5e-17 * (|x| + |y| + |z|) := by
    rw [show (a' * x + b' * y + c' * z) - (a * x + b * y + c * z) = (a' - a) * x + (b' - b) * y + (c' - c) * z by ring]
    exact (abs3 _ _ _).trans (row_bound ha.2 hb.2 hc.2)
  have h3 := abs_sub_le r (a' * x + b' * y + c' * z) (a * x + b * y + c * z)
  unfold Dot3 at h
  have S0 : 0 ≤ |x| + |y| + |z| := by positivity
  have h4 := mul_le_mul_of_nonneg_left h1 (by positivity : 0 ≤ 4 * u)
  have h5 := mul_le_mul_of_nonneg_right hul.le S0
  nlinarith

/-- Position and velocity, for a rotation and a derivative that are accurate. -/
theorem state_tight (hf : Faithful fl) (ht : Turns rot) (hmv : MatVec mv) {q : Quat} (hq : |q.sqNorm - 1| ≤ 1e-6) {Q dM D : M3} (hc : Close 8.5e-14 q.mat Q)
    (hQ : Bounded 1 Q) (hD : MApp 6.57e-4 6.5e-17 dM D) (r v : V3) :
    Close3 (9.3e-14 * size r) (rot q r) (Q * r) ∧ Close3 (9.3e-14 * size v + 6.6e-17 * size r) (add fl (rot q v) (mv dM r)) (Q * v + D * r) := by
  have hu := u_pos
  have hul := u_lt
  have R0 := size_nonneg r
  have V0 := size_nonneg v
  obtain ⟨a1, a2, a3⟩ := turned_tight ht hq hc hQ r
  obtain ⟨b1, b2, b3⟩ := turned_tight ht hq hc hQ v
  obtain ⟨m1, m2, m3⟩ := hQ.vec v
  obtain ⟨n1, n2, n3⟩ := (mapp_bounded hD).vec r
  obtain ⟨d1, d2, d3, d4, d5, d6, d7, d8, d9⟩ := hD
  obtain ⟨e1, e2, e3⟩ := hmv dM r
  have f1 := row_tight e1 d1 d2 d3
  have f2 := row_tight e2 d4 d5 d6
  have f3 := row_tight e3 d7 d8 d9
  refine ⟨⟨a1.trans (by linarith), a2.trans (by linarith), a3.trans (by linarith)⟩, ?_⟩
  have key : ∀ {x' x y' y : ℝ}, |x' - x| ≤ 9.2e-14 * size v → |x| ≤ 1 * size v → |y' - y| ≤ 6.54e-17 * size r → |y| ≤ 6.57e-4 * size r →
      |fl (x' + y') - (x + y)| ≤ 9.3e-14 * size v + 6.6e-17 * size r := by
    intro x' x y' y h1 h2 h3 h4
    have hx : App (1 * size v) (9.2e-14 * size v) x' x := ⟨h2, h1⟩
    have hy : App (6.57e-4 * size r) (6.54e-17 * size r) y' y := ⟨h4, h3⟩
    refine ((hx.add hy).fl hf).2.trans ?_
    have := mul_le_mul_of_nonneg_right hul.le (by positivity : 0 ≤ 1 * size v + 6.57e-4 * size r + (9.2e-14 * size v + 6.54e-17 * size r))
    linarith
  exact ⟨key b1 m1 f1 n1, key b2 m2 f2 n2, key b3 m3 f3 n3⟩

/-- One quaternion, the sum with a velocity of `7.3e-5` times the position, and the other quaternion. -/
theorem two_tight (hf : Faithful fl) (ht : Turns rot) {a b : Quat} (ha : |a.sqNorm - 1| ≤ 1e-6) (hb : |b.sqNorm - 1| ≤ 1e-6) {A B : M3} {εa εb : ℝ}
    (ca : Close εa a.mat A) (cb : Close εb b.mat B) (bA : Bounded 1 A) (bB : Bounded 1 B) (he : εa + εb ≤ 9.3e-14) (r v : V3) :
    Close3 (3.3e-13 * size r) (rot b (rot a r)) (B * (A * r)) ∧ Close3 ((56 * u + εa) * size r) (rot a r) (A * r) ∧
    ∀ c' c : V3, Close3 (7.31e-5 * ((56 * u + εa) * size r) + 1e-19 * size r) c' c → |c.x| ≤ 7.3e-5 * size r ∧ |c.y| ≤ 7.3e-5 * size r ∧ |c.z| ≤ 7.3e-5 * size r →
      Close3 (3.3e-13 * size v + 2.6e-17 * size r) (rot b (add fl (rot a v) c')) (B * (A * v + c)) := by
  have hu := u_pos
  have hul := u_lt
  have R0 := size_nonneg r
  have V0 := size_nonneg v
  have ea : 0 ≤ εa := (abs_nonneg _).trans ca.1
  have eb : 0 ≤ εb := (abs_nonneg _).trans cb.1
  have z : ∀ w : V3, Close3 0 w w := fun w => ⟨by simp, by simp, by simp⟩
  have ar := turned2 ht ha ca bA (z r)
  have av := turned2 ht ha ca bA (z v)
  simp only [mul_zero, add_zero] at ar av
  have sr := bA.size r
  have sv := bA.size v
  generalize hα : 56 * u + εa = α at *
  have α0 : 0 ≤ α := by rw [← hα]; positivity
  have hαβ : α + (56 * u + εb) ≤ 1.065e-13 := by linarith
  have β0 : 0 ≤ 56 * u + εb := by positivity
  refine ⟨?_, ar, ?_⟩
  · refine Close3.mono (turned2 ht hb cb bB ar) ?_
    generalize 56 * u + εb = β at *
    have h1 : size (A * r) + 3 * (α * size r) ≤ 3.01 * size r := by nlinarith
    have h2 := mul_le_mul_of_nonneg_left h1 β0
    have h3 := mul_le_mul_of_nonneg_right hαβ R0
    nlinarith
  · intro c' c hc hb'
    have hsum : Close3 (α * size v + (7.31e-5 * (α * size r) + 1e-19 * size r) + 1.21e-16 * (size v + 7.3e-5 * size r)) (add fl (rot a v) c') (A * v + c) := by
      have key : ∀ {x' x y' y : ℝ}, |x' - x| ≤ α * size v → |x| ≤ 1 * size v → |y' - y| ≤ 7.31e-5 * (α * size r) + 1e-19 * size r → |y| ≤ 7.3e-5 * size r →
          |fl (x' + y') - (x + y)| ≤ α * size v + (7.31e-5 * (α * size r) + 1e-19 * size r) + 1.21e-16 * (size v + 7.3e-5 * size r) := by
        intro x' x y' y h1 h2 h3 h4
        have hx : App (1 * size v) (α * size v) x' x := ⟨h2, h1⟩
        have hy : App (7.3e-5 * size r) (7.31e-5 * (α * size r) + 1e-19 * size r) y' y := ⟨h4, h3⟩
        refine ((hx.add hy).fl hf).2.trans ?_
        have k1 : α * size v ≤ 1.1e-13 * size v := mul_le_mul_of_nonneg_right (by linarith) V0
        have k2 : α * size r ≤ 1.1e-13 * size r := mul_le_mul_of_nonneg_right (by linarith) R0
        have := mul_le_mul_of_nonneg_right hul.le (by positivity : 0 ≤ 1 * size v + 7.3e-5 * size r + (α * size v + (7.31e-5 * (α * size r) + 1e-19 * size r)))
        linarith
      obtain ⟨m1, m2, m3⟩ := bA.vec v
      exact ⟨key av.1 m1 hc.1 hb'.1, key av.2.1 m2 hc.2.1 hb'.2.1, key av.2.2 m3 hc.2.2 hb'.2.2⟩
    refine Close3.mono (turned2 ht hb cb bB hsum) ?_
    have hs : size (A * v + c) ≤ 3 * size v + 2.2e-4 * size r := by
      have k1 := abs_add_le (A * v).x c.x
      have k2 := abs_add_le (A * v).y c.y
      have k3 := abs_add_le (A * v).z c.z
      unfold size at sv ⊢
      simp only [V3.add_x, V3.add_y, V3.add_z]
      obtain ⟨b1, b2, b3⟩ := hb'
      unfold size at b1 b2 b3 R0
      linarith
    generalize 56 * u + εb = β at *
    have k1 : α * size v ≤ 1.1e-13 * size v := mul_le_mul_of_nonneg_right (by linarith) V0
    have k2 : α * size r ≤ 1.1e-13 * size r := mul_le_mul_of_nonneg_right (by linarith) R0
    have h1 : size (A * v + c) + 3 * (α * size v + (7.31e-5 * (α * size r) + 1e-19 * size r) + 1.21e-16 * (size v + 7.3e-5 * size r)) ≤
      3.01 * size v + 2.21e-4 * size r := by linarith
    have h2 := mul_le_mul_of_nonneg_left h1 β0
    have h3 := mul_le_mul_of_nonneg_right hαβ R0
    have h4 := mul_le_mul_of_nonneg_right hαβ V0
    have h5 := mul_nonneg α0 R0
    have h6 := mul_nonneg α0 V0
    have h7 := mul_nonneg β0 R0
    have h8 := mul_nonneg β0 V0
    linarith

end

section
variable {fl : Rounded.Arith} {fsin fcos : ℝ → ℝ}

theorem dRdt_near (hf : Faithful fl) (hT : Trig fsin fcos) {era w' w : ℝ} (hw : App 7.3e-5 3e-20 w' w) :
    MApp 7.3e-5 7e-20 (dRdt fl fsin fcos era w') (EarthRot.dRdt era w) := by
  have hul := u_lt
  have ac : App 1 2.4e-16 (fcos era) (Real.cos era) := ⟨Real.abs_cos_le_one _, (hT.cos era).trans (by linarith)⟩
  have as : App 1 2.4e-16 (fsin era) (Real.sin era) := ⟨Real.abs_sin_le_one _, (hT.sin era).trans (by linarith)⟩
  have hc := (flN hf (hw.mul ac)).mono (M' := 7.3e-5) (e' := 7e-20) (by norm_num) (by norm_num)
  have hs := (flN hf (hw.mul as)).mono (M' := 7.3e-5) (e' := 7e-20) (by norm_num) (by norm_num)
  have z : App 7.3e-5 7e-20 (0 : ℝ) 0 := ⟨by norm_num, by norm_num⟩
  exact ⟨hs.neg, hc, z, hc.neg, hs.neg, z, z, z, z⟩

end

end Verif.RoundedState
