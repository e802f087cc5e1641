import Verif.Proof.Rounding
import Verif.Proof.RoundedGcrs
/-
Relative errors, counted in units `u`.
-/
namespace Verif.Rounding
open Verif

/-- `x'` is `x` up to `k` units of relative error. -/
def Rel (k x' x : ℝ) : Prop := |x' - x| ≤ k * u * |x|

theorem Rel.refl (x : ℝ) : Rel 0 x x := by unfold Rel; simp

theorem Rel.mono {k l x' x : ℝ} (h : Rel k x' x) (hl : k ≤ l) : Rel l x' x :=
  h.trans (mul_le_mul_of_nonneg_right (mul_le_mul_of_nonneg_right hl u_pos.le) (abs_nonneg _))

theorem Rel.neg {k x' x : ℝ} (h : Rel k x' x) : Rel k (-x') (-x) := by
  unfold Rel at *
  rw [abs_neg, show -x' - -x = -(x' - x) by ring, abs_neg]
  exact h

theorem ku {k : ℝ} (hk : k ≤ 100) : k * u ≤ 1e-4 := by
  have := mul_le_mul_of_nonneg_right hk u_pos.le
  linarith [u_lt]

theorem Rel.size {k x' x : ℝ} (h : Rel k x' x) : |x'| ≤ |x| + k * u * |x| := by
  have := abs_sub_abs_le_abs_sub x' x
  unfold Rel at h
  linarith

theorem Rel.lower {k x' x : ℝ} (h : Rel k x' x) : |x| - k * u * |x| ≤ |x'| := by
  have := abs_sub_abs_le_abs_sub x x'
  rw [abs_sub_comm] at this
  unfold Rel at h
  linarith

theorem Rel.fl {fl : ℝ → ℝ} (hf : Rounds fl) {k x' x : ℝ} (h : Rel k x' x) (hk : k ≤ 100) : Rel (k + 1.01) (fl x') x := by
  have h1 := hf.rel x'
  have h2 := mul_le_mul_of_nonneg_left h.size u_pos.le
  have h3 := mul_le_mul_of_nonneg_right (ku hk) (mul_nonneg u_pos.le (abs_nonneg x))
  have e : fl x' - x = (fl x' - x') + (x' - x) := by ring
  have h4 := abs_add_le (fl x' - x') (x' - x)
  rw [← e] at h4
  unfold Rel at *
  nlinarith [mul_nonneg u_pos.le (abs_nonneg x)]

theorem Rel.one {fl : ℝ → ℝ} (hf : Rounds fl) (x : ℝ) : Rel 1 (fl x) x := by
  unfold Rel
  rw [one_mul]
  exact hf.rel x

theorem Rel.mul {k l x' x y' y : ℝ} (h : Rel k x' x) (g : Rel l y' y) (h0 : 0 ≤ k) (hk : k ≤ 100) (hl : l ≤ 100) :
    Rel (k + l + 0.01) (x' * y') (x * y) := by
  unfold Rel at *
  have hu := u_pos
  have e : x' * y' - x * y = (x' - x) * y + x * (y' - y) + (x' - x) * (y' - y) := by ring
  have a1 : |(x' - x) * y| ≤ k * u * |x| * |y| := by rw [abs_mul]; exact mul_le_mul_of_nonneg_right h (abs_nonneg _)
  have a2 : |x * (y' - y)| ≤ |x| * (l * u * |y|) := by rw [abs_mul]; exact mul_le_mul_of_nonneg_left g (abs_nonneg _)
  have a3 : |(x' - x) * (y' - y)| ≤ (k * u * |x|) * (l * u * |y|) := by
    rw [abs_mul]; exact mul_le_mul h g (abs_nonneg _) (by positivity)
  have t1 := abs_add_le ((x' - x) * y + x * (y' - y)) ((x' - x) * (y' - y))
  have t2 := abs_add_le ((x' - x) * y) (x * (y' - y))
  rw [e, abs_mul]
  have hxy : 0 ≤ |x| * |y| := by positivity
  have b : k * u * (l * u) ≤ 0.01 * u := by
    have b1 := ku hk
    have b2 : l * u ≤ 100 * u := mul_le_mul_of_nonneg_right hl hu.le
    have b3 : k * u * (l * u) ≤ k * u * (100 * u) := mul_le_mul_of_nonneg_left b2 (by positivity)
    have b4 : k * u * (100 * u) ≤ 1e-4 * (100 * u) := mul_le_mul_of_nonneg_right b1 (by positivity)
    linarith
  have b' := mul_le_mul_of_nonneg_right b hxy
  nlinarith

theorem Rel.div {k l x' x y' y : ℝ} (h : Rel k x' x) (g : Rel l y' y) (h0 : 0 ≤ k) (hk : k ≤ 100) (hl0 : 0 ≤ l) (hl : l ≤ 100) (hy : y ≠ 0) :
    Rel (k + l + 0.1) (x' / y') (x / y) := by
  have hlow := g.lower
  unfold Rel at *
  have hu := u_pos
  have hyp : 0 < |y| := abs_pos.mpr hy
  have hlu := ku hl
  have hly : 0.9999 * |y| ≤ |y'| := by nlinarith
  have hy' : 0 < |y'| := lt_of_lt_of_le (by positivity) hly
  have hy'0 : y' ≠ 0 := abs_pos.mp hy'
  have e : x' / y' - x / y = ((x' - x) * y - x * (y' - y)) / (y' * y) := by field_simp; ring
  rw [e, abs_div, abs_div, abs_mul, div_le_iff₀ (by positivity)]
  have a1 : |(x' - x) * y| ≤ k * u * |x| * |y| := by rw [abs_mul]; exact mul_le_mul_of_nonneg_right h (abs_nonneg _)
  have a2 : |x * (y' - y)| ≤ |x| * (l * u * |y|) := by rw [abs_mul]; exact mul_le_mul_of_nonneg_left g (abs_nonneg _)
  have t := abs_sub (( x' - x) * y) (x * (y' - y))
  have e2 : (k + l + 0.1) * u * (|x| / |y|) * (|y'| * |y|) = (k + l + 0.1) * u * |x| * |y'| := by field_simp
  rw [e2]
  have h1 : (k + l + 0.1) * u * |x| * (0.9999 * |y|) ≤ (k + l + 0.1) * u * |x| * |y'| :=
    mul_le_mul_of_nonneg_left hly (by positivity)
  have h2 : (k + l) * (u * |x| * |y|) ≤ (k + l + 0.1) * 0.9999 * (u * |x| * |y|) :=
    mul_le_mul_of_nonneg_right (by nlinarith) (by positivity)
  nlinarith

theorem Rel.sqrt {k x' x : ℝ} (h : Rel k x' x) (hx : 0 ≤ x) (hx' : 0 ≤ x') : Rel k (Real.sqrt x') (Real.sqrt x) := by
  unfold Rel at *
  rw [abs_of_nonneg (Real.sqrt_nonneg x)]
  rw [abs_of_nonneg hx] at h
  exact RoundedGcrs.sqrt_rel hx hx' h

theorem Rel.pos {k x' x : ℝ} (h : Rel k x' x) (hk : k ≤ 100) (hx : 0 < x) : 0 < x' := by
  unfold Rel at h
  rw [abs_of_pos hx] at h
  have h1 := (abs_le.mp h).1
  have := mul_le_mul_of_nonneg_right (ku hk) hx.le
  linarith

theorem Rel.nonneg {k x' x : ℝ} (h : Rel k x' x) (hk : k ≤ 100) (hx : 0 ≤ x) : 0 ≤ x' := by
  rcases hx.eq_or_lt with h0 | h0
  · subst h0
    unfold Rel at h
    simp at h
    exact h.ge
  · exact (h.pos hk h0).le

/-- Squares of approximate numbers add up without loss. -/
theorem Rel.add_nonneg {k x' x y' y : ℝ} (h : Rel k x' x) (g : Rel k y' y) (hx : 0 ≤ x) (hy : 0 ≤ y) : Rel k (x' + y') (x + y) := by
  unfold Rel at *
  rw [abs_of_nonneg hx] at h
  rw [abs_of_nonneg hy] at g
  rw [abs_of_nonneg (by positivity : 0 ≤ x + y)]
  have := abs_add_le (x' - x) (y' - y)
  rw [show x' - x + (y' - y) = x' + y' - (x + y) by ring] at this
  linarith

end Verif.Rounding
