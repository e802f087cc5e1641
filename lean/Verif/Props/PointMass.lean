import Verif.Model.PointMass
import Verif.Spec.Harmonic
import Verif.Proof.Harmonic
/-
Property C59: acceleration due to a point mass, and its Jacobian.
-/
namespace Verif.PointMass
open Verif Verif.Harmonic

/-- C59: both functions return the same acceleration. -/
theorem same (r b : V3) (GM : ℝ) : (accJ r b GM).1 = acc r b GM := rfl

/-- C59: no acceleration at the centre of the Earth. -/
theorem centre (b : V3) (GM : ℝ) : acc 0 b GM = 0 := by
  have e : (0 - b : V3).dot (0 - b) = b.dot b := by unfold V3.dot; simp
  have n : (0 - b : V3).norm = b.norm := by unfold V3.norm; rw [e]
  unfold acc
  simp only [e, n]
  ext <;> simp

/-- C59: proportional to the mass. -/
theorem linear (r b : V3) (k GM : ℝ) : acc r b (k * GM) = k * acc r b GM := by
  unfold acc
  ext <;> simp only [V3.smul_x, V3.smul_y, V3.smul_z, V3.add_x, V3.add_y, V3.add_z] <;> ring

/-- Masses add up. -/
theorem additive (r b : V3) (G H : ℝ) : acc r b (G + H) = acc r b G + acc r b H := by
  unfold acc
  ext <;> simp only [V3.smul_x, V3.smul_y, V3.smul_z, V3.add_x, V3.add_y, V3.add_z] <;> ring

/-- The tidal potential of a body at `b`, as in textbooks: GM (1/|r - b| - r·b/|b|³). -/
noncomputable def tidal (GM : ℝ) (b r : V3) : ℝ := GM * (1 / (r - b).norm - r.dot b / b.norm ^ 3)

theorem moves_sub {p : ℝ → V3} {v : V3} {t : ℝ} (b : V3) (h : Moves p v t) : Moves (fun τ => p τ - b) v t :=
  ⟨h.1.sub_const b.x, h.2.1.sub_const b.y, h.2.2.sub_const b.z⟩

theorem dot_norm (s : V3) : s.dot s = s.norm ^ 2 := by
  rw [norm_sq]; unfold V3.dot; ring

/-- C59: the acceleration is the gradient of the tidal potential of the body, at every position other than the body's. -/
theorem acc_gradient (r b : V3) (GM : ℝ) (hb : b ≠ 0) (h : r ≠ b) : IsGradient (tidal GM b) r (acc r b GM) := by
  intro p v t hp hm
  have hs : p t - b ≠ 0 := by
    rw [hp]; intro k; apply h
    have kx := congrArg V3.x k
    have ky := congrArg V3.y k
    have kz := congrArg V3.z k
    simp only [V3.sub_x, V3.sub_y, V3.sub_z, V3.zero_x, V3.zero_y, V3.zero_z, sub_eq_zero] at kx ky kz
    ext <;> assumption
  have hn := norm_pos hs
  have hbn := norm_pos hb
  have d1 := norm_deriv (moves_sub b hm) hs
  have d2 := d1.fun_inv hn.ne'
  have d3 : HasDerivAt (fun τ => (p τ).dot b) (v.dot b) t := by
    unfold V3.dot
    exact ((hm.1.mul_const b.x).add (hm.2.1.mul_const b.y)).add (hm.2.2.mul_const b.z)
  have d := ((d2.sub (d3.div_const (b.norm ^ 3))).const_mul GM)
  unfold tidal
  simp only [one_div]
  refine d.congr_deriv ?_
  rw [hp] at hn ⊢
  unfold acc
  simp only [dot_norm]
  generalize hN : (r - b).norm = N at hn ⊢
  generalize b.norm = B at hbn ⊢
  simp only [V3.dot, V3.smul_x, V3.smul_y, V3.smul_z, V3.add_x, V3.add_y, V3.add_z, V3.sub_x, V3.sub_y, V3.sub_z]
  field_simp
  ring

/-- C59: the Jacobian is the derivative of the acceleration: along every motion through the position, the acceleration changes at the rate
J · velocity. -/
theorem jacobian (r b : V3) (GM : ℝ) (h : r ≠ b) (p : ℝ → V3) (v : V3) (t : ℝ) (hp : p t = r) (hm : Moves p v t) :
    Moves (fun τ => acc (p τ) b GM) ((accJ r b GM).2 * v) t := by
  have hs : p t - b ≠ 0 := by
    rw [hp]; intro k; apply h
    have kx := congrArg V3.x k
    have ky := congrArg V3.y k
    have kz := congrArg V3.z k
    simp only [V3.sub_x, V3.sub_y, V3.sub_z, V3.zero_x, V3.zero_y, V3.zero_z, sub_eq_zero] at kx ky kz
    ext <;> assumption
  have hn := norm_pos hs
  have ms := moves_sub b hm
  have d1 := norm_deriv ms hs
  have d2 : HasDerivAt (fun τ => ((p τ - b).dot (p τ - b) * (p τ - b).norm)⁻¹) (-(3 * (p t - b).norm ^ 2 * ((p t - b).dot v / (p t - b).norm)) / (((p t - b).norm ^ 3) ^ 2)) t := by
    have e : (fun τ => ((p τ - b).dot (p τ - b) * (p τ - b).norm)⁻¹) = fun τ => ((p τ - b).norm ^ 3)⁻¹ := by
      funext τ; rw [dot_norm]; ring
    rw [e]
    refine ((d1.fun_pow 3).fun_inv (pow_ne_zero 3 hn.ne')).congr_deriv ?_
    norm_num
  have comp : ∀ (f : V3 → ℝ) (f' c : ℝ), HasDerivAt (fun τ => f (p τ - b)) f' t →
      HasDerivAt (fun τ => (-GM) * (((p τ - b).dot (p τ - b) * (p τ - b).norm)⁻¹ * f (p τ - b) + c))
        ((-GM) * ((-(3 * (p t - b).norm ^ 2 * ((p t - b).dot v / (p t - b).norm)) / (((p t - b).norm ^ 3) ^ 2)) * f (p t - b) + ((p t - b).dot (p t - b) * (p t - b).norm)⁻¹ * f')) t := by
    intro f f' c hf
    exact ((d2.mul hf).add_const c).const_mul (-GM)
  refine ⟨(comp V3.x _ _ ms.1).congr_deriv ?_, (comp V3.y _ _ ms.2.1).congr_deriv ?_, (comp V3.z _ _ ms.2.2).congr_deriv ?_⟩ <;>
  · rw [hp] at hn ⊢
    unfold accJ outer
    simp only [dot_norm, M3.mulVec_def, M3.smul_def, M3.add_def, M3.one_def]
    generalize (r - b).norm = N at hn ⊢
    simp only [V3.dot, V3.sub_x, V3.sub_y, V3.sub_z]
    field_simp
    ring

/-- C59: the Jacobian is symmetric and has trace zero. -/
theorem jacobian_harmonic (r b : V3) (GM : ℝ) (h : r ≠ b) : (accJ r b GM).2.transpose = (accJ r b GM).2 ∧ (accJ r b GM).2.trace = 0 := by
  have hs : r - b ≠ 0 := by
    intro k; apply h
    have kx := congrArg V3.x k
    have ky := congrArg V3.y k
    have kz := congrArg V3.z k
    simp only [V3.sub_x, V3.sub_y, V3.sub_z, V3.zero_x, V3.zero_y, V3.zero_z, sub_eq_zero] at kx ky kz
    ext <;> assumption
  have hn := norm_pos hs
  have hq := norm_sq (r - b)
  unfold accJ outer
  constructor
  · unfold M3.transpose
    simp only [M3.smul_def, M3.add_def, M3.one_def]
    ext <;> simp only <;> ring
  · unfold M3.trace
    simp only [dot_norm, M3.smul_def, M3.add_def, M3.one_def]
    generalize (r - b).norm = N at hn hq ⊢
    generalize (r - b).x = x at hq ⊢
    generalize (r - b).y = y at hq ⊢
    generalize (r - b).z = z at hq ⊢
    field_simp
    linear_combination (-3) * GM * hq

/-- The hypotheses can be met: a satellite on one axis, a body on another. -/
example : IsGradient (tidal 5 ⟨0, 9, 0⟩) ⟨1, 0, 0⟩ (acc ⟨1, 0, 0⟩ ⟨0, 9, 0⟩ 5) :=
  acc_gradient _ _ _ (by intro h; have := congrArg V3.y h; norm_num at this) (by intro h; have := congrArg V3.x h; norm_num at this)

/-- The acceleration is not zero everywhere: a position on the line to the body, half way. -/
example (GM : ℝ) (hG : 0 < GM) : 0 < (acc ⟨1, 0, 0⟩ ⟨2, 0, 0⟩ GM).x := by
  have n1 : (⟨2, 0, 0⟩ : V3).norm = 2 := by
    unfold V3.norm V3.dot
    rw [show ((2 : ℝ) * 2 + 0 * 0 + 0 * 0) = 2 ^ 2 from by norm_num]
    exact Real.sqrt_sq (by norm_num)
  have n2 : (⟨1, 0, 0⟩ - ⟨2, 0, 0⟩ : V3).norm = 1 := by
    unfold V3.norm V3.dot
    simp only [V3.sub_x, V3.sub_y, V3.sub_z]
    norm_num
  unfold acc
  simp only [n1, n2, dot_norm, V3.smul_x, V3.add_x, V3.sub_x]
  norm_num
  linarith

end Verif.PointMass
