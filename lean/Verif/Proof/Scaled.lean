import Verif.Proof.Rounding
/-
Errors counted in units `u` of a bound for the size.
-/
namespace Verif.Rounding
open Verif Verif.Rounded

/-- `x` is at most `M`, and `x'` differs from it by at most `k` units of `M`. -/
def Sc (k M x' x : ℝ) : Prop := |x| ≤ M ∧ |x' - x| ≤ k * u * M

theorem Sc.nonneg {k M x' x : ℝ} (h : Sc k M x' x) : 0 ≤ M := (abs_nonneg _).trans h.1

theorem Sc.mono {k l M x' x : ℝ} (h : Sc k M x' x) (hl : k ≤ l) : Sc l M x' x :=
  ⟨h.1, h.2.trans (mul_le_mul_of_nonneg_right (mul_le_mul_of_nonneg_right hl u_pos.le) h.nonneg)⟩

theorem Sc.exact (x : ℝ) : Sc 0 |x| x x := ⟨le_rfl, by simp⟩

theorem ku' {k : ℝ} (hk : k ≤ 1000) : k * u ≤ 1e-12 := by
  have := mul_le_mul_of_nonneg_right hk u_pos.le
  linarith [u_lt]

theorem Sc.fl {fl : Arith} (hf : Faithful fl) {k M x' x : ℝ} (h : Sc k M x' x) (hk : k ≤ 1000) : Sc (k + 1.001) M (fl x') x := by
  have hM := h.nonneg
  refine ⟨h.1, ?_⟩
  have h1 := hf.rel x'
  have h2 : |x'| ≤ M + k * u * M := by
    have := abs_add_le (x' - x) x
    rw [sub_add_cancel] at this
    linarith [h.1, h.2]
  have h3 := mul_le_mul_of_nonneg_left h2 u_pos.le
  have h4 := mul_le_mul_of_nonneg_right (ku' hk) (mul_nonneg u_pos.le hM)
  have t := abs_add_le (fl x' - x') (x' - x)
  rw [show fl x' - x' + (x' - x) = fl x' - x by ring] at t
  have := h.2
  nlinarith [mul_nonneg u_pos.le hM]

theorem Sc.pr {fl : Arith} (hf : Faithful fl) (j : ℕ) {k M x' x : ℝ} (h : Sc k M x' x) (hk : k ≤ 1000) : Sc (k + 1.001) M (fl.pr j x') x := by
  have hM := h.nonneg
  refine ⟨h.1, ?_⟩
  have h1 := hf.prel j x'
  have h2 : |x'| ≤ M + k * u * M := by
    have := abs_add_le (x' - x) x
    rw [sub_add_cancel] at this
    linarith [h.1, h.2]
  have h3 := mul_le_mul_of_nonneg_left h2 u_pos.le
  have h4 := mul_le_mul_of_nonneg_right (ku' hk) (mul_nonneg u_pos.le hM)
  have t := abs_add_le (fl.pr j x' - x') (x' - x)
  rw [show fl.pr j x' - x' + (x' - x) = fl.pr j x' - x by ring] at t
  have := h.2
  nlinarith [mul_nonneg u_pos.le hM]

theorem Sc.mul {k l M N x' x y' y : ℝ} (h : Sc k M x' x) (g : Sc l N y' y) (h0 : 0 ≤ k) (hk : k ≤ 1000) (hl0 : 0 ≤ l) (hl : l ≤ 1000) :
    Sc (k + l + 0.001) (M * N) (x' * y') (x * y) := by
  have hu := u_pos
  have hM := h.nonneg
  have hN := g.nonneg
  obtain ⟨h1, h2⟩ := h
  obtain ⟨g1, g2⟩ := g
  refine ⟨by rw [abs_mul]; exact mul_le_mul h1 g1 (abs_nonneg _) hM, ?_⟩
  have e : x' * y' - x * y = (x' - x) * y + x * (y' - y) + (x' - x) * (y' - y) := by ring
  have a1 : |(x' - x) * y| ≤ k * u * M * N := by rw [abs_mul]; exact mul_le_mul h2 g1 (abs_nonneg _) (by positivity)
  have a2 : |x * (y' - y)| ≤ M * (l * u * N) := by rw [abs_mul]; exact mul_le_mul h1 g2 (abs_nonneg _) hM
  have a3 : |(x' - x) * (y' - y)| ≤ (k * u * M) * (l * u * N) := by rw [abs_mul]; exact mul_le_mul h2 g2 (abs_nonneg _) (by positivity)
  have t1 := abs_add_le ((x' - x) * y + x * (y' - y)) ((x' - x) * (y' - y))
  have t2 := abs_add_le ((x' - x) * y) (x * (y' - y))
  rw [e]
  have b : k * u * (l * u) ≤ 0.001 * u := by
    have b2 : l * u ≤ 1000 * u := mul_le_mul_of_nonneg_right hl hu.le
    have b3 : k * u * (l * u) ≤ k * u * (1000 * u) := mul_le_mul_of_nonneg_left b2 (by positivity)
    have b4 : k * u * (1000 * u) ≤ 1e-12 * (1000 * u) := mul_le_mul_of_nonneg_right (ku' hk) (by positivity)
    linarith
  have b' := mul_le_mul_of_nonneg_right b (mul_nonneg hM hN)
  nlinarith

/-- Division by a number that is known with a small relative error. -/
theorem Sc.div {k l M x' x y' y : ℝ} (h : Sc k M x' x) (hy : y ≠ 0) (g : |y' - y| ≤ l * u * |y|) (h0 : 0 ≤ k) (hk : k ≤ 1000) (hl0 : 0 ≤ l)
    (hl : l ≤ 1000) : Sc (k + l + 0.001) (M / |y|) (x' / y') (x / y) := by
  have hu := u_pos
  have hM := h.nonneg
  obtain ⟨h1, h2⟩ := h
  have hyp : 0 < |y| := abs_pos.mpr hy
  have hlow : (1 - 1e-12) * |y| ≤ |y'| := by
    have := abs_sub_abs_le_abs_sub y y'
    rw [abs_sub_comm] at this
    have h3 := mul_le_mul_of_nonneg_right (ku' hl) hyp.le
    linarith
  have hy' : 0 < |y'| := lt_of_lt_of_le (by positivity) hlow
  have hy'0 : y' ≠ 0 := abs_pos.mp hy'
  refine ⟨by rw [abs_div]; exact div_le_div_of_nonneg_right h1 hyp.le, ?_⟩
  have e : x' / y' - x / y = ((x' - x) * y - x * (y' - y)) / (y' * y) := by field_simp; ring
  rw [e, abs_div, abs_mul y' y, div_le_iff₀ (by positivity)]
  have a1 : |(x' - x) * y| ≤ k * u * M * |y| := by rw [abs_mul]; exact mul_le_mul_of_nonneg_right h2 (abs_nonneg _)
  have a2 : |x * (y' - y)| ≤ M * (l * u * |y|) := by rw [abs_mul]; exact mul_le_mul h1 g (abs_nonneg _) hM
  have t := abs_sub ((x' - x) * y) (x * (y' - y))
  have e2 : (k + l + 0.001) * u * (M / |y|) * (|y'| * |y|) = (k + l + 0.001) * u * M * |y'| := by field_simp
  rw [e2]
  have c1 : (k + l + 0.001) * u * M * ((1 - 1e-12) * |y|) ≤ (k + l + 0.001) * u * M * |y'| := mul_le_mul_of_nonneg_left hlow (by positivity)
  have c2 : (k + l) * (u * M * |y|) ≤ (k + l + 0.001) * (1 - 1e-12) * (u * M * |y|) :=
    mul_le_mul_of_nonneg_right (by nlinarith) (by positivity)
  nlinarith

theorem Sc.add {k M N x' x y' y : ℝ} (h : Sc k M x' x) (g : Sc k N y' y) : Sc k (M + N) (x' + y') (x + y) := by
  refine ⟨(abs_add_le _ _).trans (add_le_add h.1 g.1), ?_⟩
  rw [show x' + y' - (x + y) = (x' - x) + (y' - y) by ring, mul_add]
  exact (abs_add_le _ _).trans (add_le_add h.2 g.2)

end Verif.Rounding
