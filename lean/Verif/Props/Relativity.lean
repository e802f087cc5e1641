import Verif.Spec.Relativity
import Mathlib.Tactic.Linarith
import Mathlib.Tactic.Ring
import Mathlib.Tactic.NormNum
import Mathlib.Tactic.FieldSimp
import Mathlib.Tactic.Positivity
/-
C67: the relativistic acceleration.
-/
namespace Verif.Relativity

theorem norm_scale (k : ℝ) (a : V3) : (k * a).norm = |k| * a.norm := by
  have : (k * a).dot (k * a) = k ^ 2 * a.dot a := by simp only [V3.dot, V3.smul_x, V3.smul_y, V3.smul_z]; ring
  rw [V3.norm, this, Real.sqrt_mul (sq_nonneg k), Real.sqrt_sq_eq_abs]; rfl

theorem norm_pos {a : V3} (h : a ≠ 0) : 0 < a.norm := by
  apply Real.sqrt_pos.mpr
  have h2 : a.x ≠ 0 ∨ a.y ≠ 0 ∨ a.z ≠ 0 := by
    by_contra hc
    push Not at hc
    exact h (V3.ext hc.1 hc.2.1 hc.2.2)
  simp only [V3.dot]
  rcases h2 with h2 | h2 | h2
  · have := mul_self_pos.mpr h2; nlinarith [mul_self_nonneg a.y, mul_self_nonneg a.z]
  · have := mul_self_pos.mpr h2; nlinarith [mul_self_nonneg a.x, mul_self_nonneg a.z]
  · have := mul_self_pos.mpr h2; nlinarith [mul_self_nonneg a.x, mul_self_nonneg a.y]

/-- C67: the result is the sum of the three terms of (10.12) in SI units, with the angular momentum
along the z axis and the Earth's heliocentric state opposite to the Sun's geocentric one. -/
theorem relativity_si (sat sun : State) (GMe GMs J c beta gamma : ℝ) (hr : sat.r ≠ 0) (hs : sun.r ≠ 0)
    (hG : GMe ≠ 0) (hc : c ≠ 0) :
    acceleration sat sun GMe GMs J c beta gamma =
      eqSchwarzschild sat.r sat.v GMe c beta gamma +
      eqLenseThirring sat.r sat.v ⟨0, 0, J⟩ GMe c gamma +
      eqDeSitter sat.v (-sun.r) (-sun.v) GMs c gamma := by
  have h1 := (norm_pos hr).ne'
  have h2 := (norm_pos hs).ne'
  have hneg : (-sun.r).norm = sun.r.norm := by
    have : (-sun.r : V3) = (-1 : ℝ) * sun.r := by ext <;> simp
    rw [this, norm_scale]; simp
  have e1 : (sat.scale 1e-3).r.norm = 1e-3 * sat.r.norm := by
    simp only [State.scale, norm_scale]; norm_num
  have e2 : ((sun.scale 1e-3).scale (-1)).r.norm = 1e-3 * sun.r.norm := by
    simp only [State.scale, norm_scale]; norm_num
  unfold acceleration schwarzschild lensThirring geodesic eqSchwarzschild eqLenseThirring eqDeSitter
  simp only [e1, e2, hneg]
  generalize sat.r.norm = s at *
  generalize sun.r.norm = R at *
  ext <;>
  · simp only [V3.add_x, V3.add_y, V3.add_z, V3.sub_x, V3.sub_y, V3.sub_z, V3.neg_x, V3.neg_y, V3.neg_z,
      V3.smul_x, V3.smul_y, V3.smul_z, V3.dot, V3.cross, State.scale]
    field_simp
    ring

example : ∃ sat sun : State, sat.r ≠ 0 ∧ sun.r ≠ 0 ∧ sat.v ≠ 0 ∧ (3.986004418e14 : ℝ) ≠ 0 ∧ (299792458 : ℝ) ≠ 0 :=
  ⟨⟨⟨7e6, 0, 0⟩, ⟨0, 7.5e3, 0⟩⟩, ⟨⟨1.496e11, 0, 0⟩, ⟨0, 3e4, 0⟩⟩,
    fun h => by have := congrArg V3.x h; norm_num at this, fun h => by have := congrArg V3.x h; norm_num at this,
    fun h => by have := congrArg V3.y h; norm_num at this, by norm_num, by norm_num⟩

end Verif.Relativity
