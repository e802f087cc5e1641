import Verif.Proof.RoundedVectors
import Verif.Proof.RoundNearest
/-
C109: the relativistic acceleration in double precision.
-/
namespace Verif.RoundedRelativity
open Verif Verif.Rounding Verif.Rounded
open Verif.Relativity (State)

/-- C109: every component of the relativistic acceleration computed in double precision is that of (10.12) up to 130 units of roundoff of
the sizes of its terms. -/
theorem relativity_rounded {fl : Rounded.Arith} {sq : V3 → ℝ} {dot : V3 → V3 → ℝ} {cube : ℝ → ℝ} (hf : Faithful fl) (hq : SumOfSquares sq)
    (hd : DotProduct dot) (hc3 : Cube cube) (sat sun : State) (GMe GMs J c beta gamma : ℝ) (hr : sat.r ≠ 0) (hs : sun.r ≠ 0) (hG : GMe ≠ 0)
    (hc : c ≠ 0) :
    let a := acceleration fl sq dot cube sat sun GMe GMs J c beta gamma
    let b := Relativity.eqSchwarzschild sat.r sat.v GMe c beta gamma + Relativity.eqLenseThirring sat.r sat.v ⟨0, 0, J⟩ GMe c gamma +
      Relativity.eqDeSitter sat.v (-sun.r) (-sun.v) GMs c gamma
    let ε := 130 * u * termSize sat.r.norm sat.v.norm sun.r.norm sun.v.norm GMe GMs J c beta gamma
    |a.x - b.x| ≤ ε ∧ |a.y - b.y| ≤ ε ∧ |a.z - b.z| ≤ ε := by
  intro a b ε
  have hb : b = Relativity.acceleration sat sun GMe GMs J c beta gamma := (Relativity.relativity_si sat sun GMe GMs J c beta gamma hr hs hG hc).symm
  rw [hb]
  have r := km_rel hf sat.r
  have v := km_rel hf sat.v
  have R := (km_rel hf sun.r).neg
  have V := (km_rel hf sun.v).neg
  have hJ : VRel ⟨0, 0, fl (J * lit fl 1e-6)⟩ ⟨0, 0, J * 1e-6⟩ :=
    ⟨(Rel.refl 0).mono (by norm_num), (Rel.refl 0).mono (by norm_num), scale_rel hf J (by norm_num)⟩
  have nJ : (⟨0, 0, J * 1e-6⟩ : V3).norm = |J * 1e-6| := by
    unfold V3.norm V3.dot
    simp only [mul_zero, zero_add]
    exact Real.sqrt_mul_self_eq_abs _
  have s0 : 0 < sat.r.norm := Relativity.norm_pos hr
  have R0 : 0 < sun.r.norm := Relativity.norm_pos hs
  have hGk : GMe * 1e-9 ≠ 0 := mul_ne_zero hG (by norm_num)
  have hck : c * 1e-3 ≠ 0 := mul_ne_zero hc (by norm_num)
  have ns := norm_rel hf hq r
  have nR := norm_rel hf hq R
  have dvv := dot_sc hd v v
  have drv := dot_sc hd r v
  have drj := dot_sc hd r hJ
  obtain ⟨x1, x2, x3⟩ := cross_sc hf r v
  obtain ⟨y1, y2, y3⟩ := cross_sc hf v hJ
  obtain ⟨z1, z2, z3⟩ := cross2_sc hf V R v
  rw [nJ] at drj y1 y2 y3
  have nr := norm_km sat.r
  have nv := norm_km sat.v
  have nRR : (-((1e-3 : ℝ) * sun.r)).norm = 1e-3 * sun.r.norm := by rw [norm_neg, norm_km]
  have nVV : (-((1e-3 : ℝ) * sun.v)).norm = 1e-3 * sun.v.norm := by rw [norm_neg, norm_km]
  rw [nr, nv] at drv x1 x2 x3
  rw [nr] at ns drj
  rw [nv, ← pow_two] at dvv
  rw [nv] at y1 y2 y3
  rw [nVV, nRR, nv] at z1 z2 z3
  rw [nRR] at nR
  have comp : ∀ {w' : V3} {w : V3}, VRel w' w → Sc 2.1 w.norm w'.x w.x ∧ Sc 2.1 w.norm w'.y w.y ∧ Sc 2.1 w.norm w'.z w.z := by
    intro w' w h
    have n : (0 : ℝ) ≤ 2.1 := by norm_num
    exact ⟨(Sc.of_rel h.x).le n (le_norm (by nlinarith [mul_self_nonneg w.y, mul_self_nonneg w.z])),
      (Sc.of_rel h.y).le n (le_norm (by nlinarith [mul_self_nonneg w.x, mul_self_nonneg w.z])),
      (Sc.of_rel h.z).le n (le_norm (by nlinarith [mul_self_nonneg w.x, mul_self_nonneg w.y]))⟩
  obtain ⟨r1, r2, r3⟩ := comp r
  obtain ⟨v1, v2, v3⟩ := comp v
  rw [nr] at r1 r2 r3
  rw [nv] at v1 v2 v3
  have p : (0 : ℝ) < 1e-3 := by norm_num
  have n9 : (0 : ℝ) ≤ 1e-9 := by norm_num
  have e' := scale_rel hf GMe n9
  have s' := scale_rel hf GMs n9
  have c' := scale_rel hf c p.le
  have q1 := mul_pos p s0
  have q2 := mul_nonneg p.le (norm_nonneg sat.v)
  have q3 := mul_pos p R0
  have q4 := mul_nonneg p.le (norm_nonneg sun.v)
  have X := total_sc hf hc3 (beta := beta) (gamma := gamma) q1 q2 q3 q4 hGk hck ns nR e' s' c' r1 v1 dvv drv drj x1 y1 z1
  have Y := total_sc hf hc3 (beta := beta) (gamma := gamma) q1 q2 q3 q4 hGk hck ns nR e' s' c' r2 v2 dvv drv drj x2 y2 z2
  have Z := total_sc hf hc3 (beta := beta) (gamma := gamma) q1 q2 q3 q4 hGk hck ns nR e' s' c' r3 v3 dvv drv drj x3 y3 z3
  rw [size_km sat.v.norm sun.v.norm GMs J beta gamma s0 R0 hc] at X Y Z
  have opp : ∀ a : V3, (-1 : ℝ) * ((1e-3 : ℝ) * a) = -((1e-3 : ℝ) * a) := by intro a; ext <;> simp
  have k : (1e3 : ℝ) = 1000 := by norm_num
  have E : ∀ f : V3 → ℝ, (∀ (t : ℝ) (v : V3), f (t * v) = t * f v) → (∀ v w : V3, f (v + w) = f v + f w) → (∀ v w : V3, f (v - w) = f v - f w) →
      f (Relativity.acceleration sat sun GMe GMs J c beta gamma) = (((2 * (beta + gamma) * (GMe * 1e-9 / (1e-3 * sat.r.norm)) -
        gamma * ((1e-3 : ℝ) * sat.v).dot ((1e-3 : ℝ) * sat.v)) * f ((1e-3 : ℝ) * sat.r) + (2 * (1 + gamma) * ((1e-3 : ℝ) * sat.r).dot ((1e-3 : ℝ) * sat.v)) *
          f ((1e-3 : ℝ) * sat.v)) + (1 + gamma) * ((3 / (1e-3 * sat.r.norm) / (1e-3 * sat.r.norm) * ((1e-3 : ℝ) * sat.r).dot ⟨0, 0, J * 1e-6⟩) *
          f (((1e-3 : ℝ) * sat.r).cross ((1e-3 : ℝ) * sat.v)) + f (((1e-3 : ℝ) * sat.v).cross ⟨0, 0, J * 1e-6⟩)) -
        (1 + 2 * gamma) * (GMs * 1e-9 / (GMe * 1e-9)) * ((1e-3 * sat.r.norm) ^ 3 / (1e-3 * sun.r.norm) ^ 3) *
          f (((-((1e-3 : ℝ) * sun.v)).cross (-((1e-3 : ℝ) * sun.r))).cross ((1e-3 : ℝ) * sat.v))) *
        (GMe * 1e-9 / (c * 1e-3 * (c * 1e-3) * (1e-3 * sat.r.norm) * (1e-3 * sat.r.norm) * (1e-3 * sat.r.norm))) * 1000 := by
    intro f h1 h2 h3
    unfold Relativity.acceleration Relativity.schwarzschild Relativity.lensThirring Relativity.geodesic Relativity.State.scale
    simp only [h1, h2, h3, opp, nr, nRR, k]
    ring
  have Ex := E V3.x (fun _ _ => rfl) (fun _ _ => rfl) (fun _ _ => rfl)
  have Ey := E V3.y (fun _ _ => rfl) (fun _ _ => rfl) (fun _ _ => rfl)
  have Ez := E V3.z (fun _ _ => rfl) (fun _ _ => rfl) (fun _ _ => rfl)
  rw [Ex, Ey, Ez]
  exact ⟨X, Y, Z⟩

/-- C109: with the default constants, for a satellite at least 6500 km from the geocentre and no faster than 12 km/s, the error of every component
is below 2e-21 m/s². -/
theorem relativity_default {fl : Rounded.Arith} {sq : V3 → ℝ} {dot : V3 → V3 → ℝ} {cube : ℝ → ℝ} (hf : Faithful fl) (hq : SumOfSquares sq)
    (hd : DotProduct dot) (hc3 : Cube cube) (sat sun : State) (hr : 6.5e6 ≤ sat.r.norm) (hv : sat.v.norm ≤ 1.2e4) (hR : 1.4e11 ≤ sun.r.norm)
    (hV : sun.v.norm ≤ 3.1e4) :
    let a := acceleration fl sq dot cube sat sun 3.986004418e14 1.32712442099e20 9.8e8 299792458 1 1
    let b := Relativity.eqSchwarzschild sat.r sat.v 3.986004418e14 299792458 1 1 +
      Relativity.eqLenseThirring sat.r sat.v ⟨0, 0, 9.8e8⟩ 3.986004418e14 299792458 1 +
      Relativity.eqDeSitter sat.v (-sun.r) (-sun.v) 1.32712442099e20 299792458 1
    |a.x - b.x| ≤ 2e-21 ∧ |a.y - b.y| ≤ 2e-21 ∧ |a.z - b.z| ≤ 2e-21 := by
  intro a b
  have nz : ∀ {w : V3}, (0 : ℝ) < w.norm → w ≠ 0 := by
    intro w h e
    rw [e] at h
    have : (0 : V3).norm = 0 := by unfold V3.norm V3.dot; simp
    linarith
  have s0 : 0 < sat.r.norm := lt_of_lt_of_le (by norm_num) hr
  have R0 : 0 < sun.r.norm := lt_of_lt_of_le (by norm_num) hR
  have h := relativity_rounded hf hq hd hc3 sat sun 3.986004418e14 1.32712442099e20 9.8e8 299792458 1 1 (nz s0) (nz R0) (by norm_num) (by norm_num)
  have e := size_default s0 R0 hr (norm_nonneg sat.v) hv hR (norm_nonneg sun.v) hV
  have b : 130 * u * termSize sat.r.norm sat.v.norm sun.r.norm sun.v.norm 3.986004418e14 1.32712442099e20 9.8e8 299792458 1 1 ≤ 2e-21 := by
    refine le_trans (mul_le_mul_of_nonneg_left e (by have := u_pos; positivity)) ?_
    unfold u
    norm_num
  exact ⟨h.1.trans b, h.2.1.trans b, h.2.2.trans b⟩

/-- The dot product as it is formed without vector instructions is one of those allowed. -/
theorem dots_ok {fl : Rounded.Arith} (hf : Faithful fl) : DotProduct (dots fl) := by
  intro a b
  have q : ∀ (k : ℕ) (x : ℝ), Sc 1 |x| (fl.pr k x) x := fun k x => ⟨le_rfl, by rw [one_mul]; exact hf.prel k x⟩
  have yz := ((q 21 (a.y * b.y)).add (q 22 (a.z * b.z))).fl hf (by norm_num)
  have h := ((((q 20 (a.x * b.x)).mono (by norm_num)).add yz).fl hf (by norm_num)).mono (l := 4) (by norm_num)
  have := h.2
  rw [← add_assoc, ← add_assoc] at this
  exact this

/-- The hypotheses can be met, whichever products are fused: a satellite at 7000 km and the Sun at its mean distance. -/
example (s : ℕ → Bool) :
    |(acceleration (rnArith s) (RoundedPoint.squares (rnArith s)) (dots (rnArith s)) (fun x => x ^ 3) ⟨⟨7e6, 0, 0⟩, ⟨0, 7.5e3, 0⟩⟩
        ⟨⟨1.496e11, 0, 0⟩, ⟨0, 3e4, 0⟩⟩ 3.986004418e14 1.32712442099e20 9.8e8 299792458 1 1).x -
      (Relativity.eqSchwarzschild ⟨7e6, 0, 0⟩ ⟨0, 7.5e3, 0⟩ 3.986004418e14 299792458 1 1 +
        Relativity.eqLenseThirring ⟨7e6, 0, 0⟩ ⟨0, 7.5e3, 0⟩ ⟨0, 0, 9.8e8⟩ 3.986004418e14 299792458 1 +
        Relativity.eqDeSitter ⟨0, 7.5e3, 0⟩ (-⟨1.496e11, 0, 0⟩) (-⟨0, 3e4, 0⟩) 1.32712442099e20 299792458 1).x| ≤ 2e-21 := by
  have n : ∀ x y : ℝ, 0 ≤ x → (⟨x, 0, 0⟩ : V3).norm = x ∧ (⟨0, x, 0⟩ : V3).norm = x := by
    intro x y h
    unfold V3.norm V3.dot
    simp only [mul_zero, add_zero, zero_add]
    exact ⟨Real.sqrt_mul_self h, Real.sqrt_mul_self h⟩
  have h := relativity_default (rn_faithful s) (RoundedPoint.squares_ok (rn_faithful s)) (dots_ok (rn_faithful s)) (cube := fun x => x ^ 3)
    (fun x => by rw [sub_self, abs_zero]; have := u_pos; positivity) ⟨⟨7e6, 0, 0⟩, ⟨0, 7.5e3, 0⟩⟩ ⟨⟨1.496e11, 0, 0⟩, ⟨0, 3e4, 0⟩⟩
    (by rw [(n 7e6 0 (by norm_num)).1]; norm_num) (by rw [(n 7.5e3 0 (by norm_num)).2]; norm_num)
    (by rw [(n 1.496e11 0 (by norm_num)).1]; norm_num) (by rw [(n 3e4 0 (by norm_num)).2]; norm_num)
  exact h.1

end Verif.RoundedRelativity
