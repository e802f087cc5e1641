import Verif.Proof.CunninghamSums
import Mathlib.Algebra.BigOperators.Group.Finset.Sigma
/-
The sum of the accelerations is the gradient of the potential, the sum of the gradients its second derivative.
-/
namespace Verif.Cunningham
open Verif Verif.Legendre Verif.Harmonic

theorem sum_orders (f : ℕ → ℕ → ℝ) (deg ord : ℕ) :
    ∑ n ∈ Finset.range (deg + 1), ∑ m ∈ Finset.range (min n ord + 1), f n m = ∑ m ∈ Finset.range (ord + 1), ∑ n ∈ Finset.Ico m (deg + 1), f n m := by
  apply Finset.sum_comm'
  intro n m
  simp only [Finset.mem_range, Finset.mem_Ico]
  omega

/-- The sum of the potentials, orders up to q + 1. -/
noncomputable def potSum (C S : ℕ → ℕ → ℝ) (deg q : ℕ) (w : V3) : ℝ :=
  ∑ k ∈ Finset.range q, ∑ j ∈ Finset.range (deg + 1 - (k + 2)), (C (k + 2 + j) (k + 2) * (Z (k + 2 + j) (k + 2) w).re + S (k + 2 + j) (k + 2) * (Z (k + 2 + j) (k + 2) w).im) +
  ∑ j ∈ Finset.range (deg + 1 - 1), (C (1 + j) 1 * (Z (1 + j) 1 w).re + S (1 + j) 1 * (Z (1 + j) 1 w).im) +
  ∑ j ∈ Finset.range (deg + 1), (C (0 + j) 0 * (Z (0 + j) 0 w).re + S (0 + j) 0 * (Z (0 + j) 0 w).im)

theorem potential_eq {GM Re : ℝ} (hRe : 0 < Re) (C S : ℕ → ℕ → ℝ) (deg q : ℕ) {v : V3} (hv : v ≠ 0) :
    potential GM Re C S deg (q + 1) v = GM / Re * potSum C S deg q (scaled v Re) := by
  unfold potential
  rw [sum_orders]
  have e : ∀ n m, harmonic GM Re n m (C n m) (S n m) v = GM / Re * (C n m * (Z n m (scaled v Re)).re + S n m * (Z n m (scaled v Re)).im) := fun n m => harmonic_eq hRe n m _ _ hv
  simp only [e, ← Finset.mul_sum]
  congr 1
  unfold potSum
  rw [Finset.sum_range_succ', Finset.sum_range_succ']
  simp only [Finset.sum_Ico_eq_sum_range, zero_add, Nat.sub_zero]

theorem potSum_deriv (C S : ℕ → ℕ → ℝ) (deg q : ℕ) {p : ℝ → V3} {d : V3} {t : ℝ} (h : Moves p d t) (h0 : p t ≠ 0) :
    HasDerivAt (fun τ => potSum C S deg q (p τ)) (1 / 2 * (accSum C S deg q (Zat (p t))).dot d) t := by
  unfold potSum accSum
  rw [dot_add, dot_add, mul_add, mul_add]
  refine HasDerivAt.add (HasDerivAt.add ?_ ?_) ?_
  · refine deriv_sum _ _ _ d t fun k _ => deriv_sum _ _ _ d t fun j _ => ?_
    exact term_grad (k + 2 + j) (k + 1) (by omega) _ _ h h0
  · refine deriv_sum _ _ _ d t fun j _ => ?_
    exact term_grad (1 + j) 0 (by omega) _ _ h h0
  · refine deriv_sum _ _ _ d t fun j _ => ?_
    exact term_grad0 (0 + j) _ _ h h0

theorem accSum_deriv (C S : ℕ → ℕ → ℝ) (deg q : ℕ) {p : ℝ → V3} {d : V3} {t : ℝ} (h : Moves p d t) (h0 : p t ≠ 0) :
    Moves (fun τ => accSum C S deg q (Zat (p τ))) ((1 / 2 : ℝ) * (gradSum C S deg q (Zat (p t)) * d)) t := by
  unfold accSum gradSum
  rw [half_add, half_add]
  refine Moves.add (Moves.add ?_ ?_) ?_
  · refine moves_sum _ _ _ d t fun k _ => moves_sum _ _ _ d t fun j _ => ?_
    exact term_hess (k + 2 + j) k (by omega) _ _ h h0
  · refine moves_sum _ _ _ d t fun j _ => ?_
    exact term_hess1 (1 + j) (by omega) _ _ h h0
  · refine moves_sum _ _ _ d t fun j _ => ?_
    exact term_hess0 (0 + j) _ h h0

theorem accSum_congr (C S : ℕ → ℕ → ℝ) (deg q : ℕ) (hq : q + 1 ≤ deg) (G H : ℕ → ℕ → ℂ) (h : ∀ n m, m ≤ n → n ≤ deg + 1 → m ≤ q + 2 → G n m = H n m) :
    accSum C S deg q G = accSum C S deg q H := by
  have a : ∀ n m c d, m + 1 ≤ n → n ≤ deg → m ≤ q → accT n m c d G = accT n m c d H := by
    intro n m c d h1 h2 h3
    unfold accT
    rw [h (n + 1) m (by omega) (by omega) (by omega), h (n + 1) (m + 1) (by omega) (by omega) (by omega), h (n + 1) (m + 2) (by omega) (by omega) (by omega)]
  have a0 : ∀ n c, n ≤ deg → accT0 n c G = accT0 n c H := by
    intro n c h1
    unfold accT0
    rw [h (n + 1) 0 (by omega) (by omega) (by omega), h (n + 1) 1 (by omega) (by omega) (by omega)]
  unfold accSum
  congr 1
  congr 1
  · refine Finset.sum_congr rfl fun k hk => Finset.sum_congr rfl fun j hj => ?_
    rw [Finset.mem_range] at hk hj
    exact a _ _ _ _ (by omega) (by omega) (by omega)
  · refine Finset.sum_congr rfl fun j hj => ?_
    rw [Finset.mem_range] at hj
    exact a _ _ _ _ (by omega) (by omega) (by omega)
  · refine Finset.sum_congr rfl fun j hj => ?_
    rw [Finset.mem_range] at hj
    exact a0 _ _ (by omega)

theorem gradSum_congr (C S : ℕ → ℕ → ℝ) (deg q : ℕ) (hq : q + 1 ≤ deg) (G H : ℕ → ℕ → ℂ) (h : ∀ n m, m ≤ n → n ≤ deg + 2 → m ≤ q + 3 → G n m = H n m) :
    gradSum C S deg q G = gradSum C S deg q H := by
  unfold gradSum
  congr 1
  congr 1
  · refine Finset.sum_congr rfl fun k hk => Finset.sum_congr rfl fun j hj => ?_
    rw [Finset.mem_range] at hk hj
    unfold gradT
    rw [h _ k (by omega) (by omega) (by omega), h _ (k + 1) (by omega) (by omega) (by omega), h _ (k + 2) (by omega) (by omega) (by omega), h _ (k + 3) (by omega) (by omega) (by omega),
      h _ (k + 4) (by omega) (by omega) (by omega)]
  · refine Finset.sum_congr rfl fun j hj => ?_
    rw [Finset.mem_range] at hj
    unfold gradT1
    rw [h _ 0 (by omega) (by omega) (by omega), h _ 1 (by omega) (by omega) (by omega), h _ 2 (by omega) (by omega) (by omega), h _ 3 (by omega) (by omega) (by omega)]
  · refine Finset.sum_congr rfl fun j hj => ?_
    rw [Finset.mem_range] at hj
    unfold gradT0
    rw [h _ 0 (by omega) (by omega) (by omega), h _ 1 (by omega) (by omega) (by omega), h _ 2 (by omega) (by omega) (by omega)]

theorem scaled_ne {v : V3} {Re : ℝ} (hRe : 0 < Re) (hv : v ≠ 0) : scaled v Re ≠ 0 := by
  intro h
  apply hv
  have hx := congrArg V3.x h
  have hy := congrArg V3.y h
  have hz := congrArg V3.z h
  simp only [scaled, V3.zero_x, V3.zero_y, V3.zero_z, div_eq_zero_iff] at hx hy hz
  ext
  · exact hx.resolve_right hRe.ne'
  · exact hy.resolve_right hRe.ne'
  · exact hz.resolve_right hRe.ne'

theorem scaled_moves {p : ℝ → V3} {d : V3} {t : ℝ} (Re : ℝ) (h : Moves p d t) : Moves (fun τ => scaled (p τ) Re) (scaled d Re) t :=
  ⟨h.1.div_const Re, h.2.1.div_const Re, h.2.2.div_const Re⟩

theorem moves_ne {p : ℝ → V3} {d : V3} {t : ℝ} (h : Moves p d t) (h0 : p t ≠ 0) : ∀ᶠ τ in nhds t, p τ ≠ 0 := by
  by_cases hx : (p t).x = 0
  · by_cases hy : (p t).y = 0
    · have hz : (p t).z ≠ 0 := fun hz => h0 (by ext <;> assumption)
      filter_upwards [h.2.2.continuousAt.eventually_ne hz] with τ hτ e
      exact hτ (by rw [e]; rfl)
    · filter_upwards [h.2.1.continuousAt.eventually_ne hy] with τ hτ e
      exact hτ (by rw [e]; rfl)
  · filter_upwards [h.1.continuousAt.eventually_ne hx] with τ hτ e
    exact hτ (by rw [e]; rfl)

/-- The acceleration that should be returned. -/
noncomputable def accel (GM Re : ℝ) (C S : ℕ → ℕ → ℝ) (deg q : ℕ) (v : V3) : V3 := GM / (2 * Re * Re) * accSum C S deg q (Zat (scaled v Re))

theorem accel_gradient {GM Re : ℝ} (hRe : 0 < Re) (C S : ℕ → ℕ → ℝ) (deg q : ℕ) {v : V3} (hv : v ≠ 0) :
    IsGradient (potential GM Re C S deg (q + 1)) v (accel GM Re C S deg q v) := by
  intro p d t hp hm
  have h0 : p t ≠ 0 := by rw [hp]; exact hv
  have e : (fun τ => potential GM Re C S deg (q + 1) (p τ)) =ᶠ[nhds t] fun τ => GM / Re * potSum C S deg q (scaled (p τ) Re) := by
    filter_upwards [moves_ne hm h0] with τ hτ
    exact potential_eq hRe C S deg q hτ
  refine HasDerivAt.congr_of_eventuallyEq ?_ e
  refine ((potSum_deriv C S deg q (scaled_moves Re hm) (scaled_ne hRe h0)).const_mul (GM / Re)).congr_deriv ?_
  rw [hp]
  unfold accel
  rw [smul_dot]
  unfold V3.dot scaled
  have : Re ≠ 0 := hRe.ne'
  field_simp

/-- A gradient is determined by the function. -/
theorem gradient_unique {U : V3 → ℝ} {q g g' : V3} (h : IsGradient U q g) (h' : IsGradient U q g') : g = g' := by
  have line : ∀ d : V3, Moves (fun τ => q + τ * d) d 0 := by
    intro d
    refine ⟨?_, ?_, ?_⟩
    · simpa using ((hasDerivAt_id (0 : ℝ)).mul_const d.x).const_add q.x
    · simpa using ((hasDerivAt_id (0 : ℝ)).mul_const d.y).const_add q.y
    · simpa using ((hasDerivAt_id (0 : ℝ)).mul_const d.z).const_add q.z
  have at0 : ∀ d : V3, q + (0 : ℝ) * d = q := by intro d; ext <;> simp
  have k : ∀ d : V3, g.dot d = g'.dot d := fun d => (h _ d 0 (at0 d) (line d)).unique (h' _ d 0 (at0 d) (line d))
  have kx := k ⟨1, 0, 0⟩
  have ky := k ⟨0, 1, 0⟩
  have kz := k ⟨0, 0, 1⟩
  simp only [V3.dot, mul_one, mul_zero, add_zero, zero_add] at kx ky kz
  ext <;> assumption

/-- The gradient that should be returned. -/
noncomputable def hess (GM Re : ℝ) (C S : ℕ → ℕ → ℝ) (deg q : ℕ) (v : V3) : M3 := GM / (4 * Re * Re * Re) * gradSum C S deg q (Zat (scaled v Re))

theorem accel_moves {GM Re : ℝ} (hRe : 0 < Re) (C S : ℕ → ℕ → ℝ) (deg q : ℕ) {p : ℝ → V3} {d : V3} {t : ℝ} (h : Moves p d t) (h0 : p t ≠ 0) :
    Moves (fun τ => accel GM Re C S deg q (p τ)) (hess GM Re C S deg q (p t) * d) t := by
  have := (accSum_deriv C S deg q (scaled_moves Re h) (scaled_ne hRe h0)).smul (GM / (2 * Re * Re))
  unfold accel hess
  convert this using 1
  generalize gradSum C S deg q (Zat (scaled (p t) Re)) = A
  simp only [M3.smul_def, M3.mulVec_def, scaled]
  have : Re ≠ 0 := hRe.ne'
  ext <;> simp only [V3.smul_x, V3.smul_y, V3.smul_z] <;> field_simp <;> ring

end Verif.Cunningham
