import Verif.Spec.Angle
import Mathlib.Tactic.Linarith
import Mathlib.Tactic.Ring
import Mathlib.Tactic.FieldSimp
import Mathlib.Tactic.Positivity
import Mathlib.Tactic.NormNum
/-
Lemmas on `fmod`, `anp` and congruence modulo 2π.
-/
namespace Verif.Angle

theorem D2PI_pos : 0 < D2PI := by unfold D2PI; positivity

theorem fmod_cong (x y : ℝ) : ∃ k : ℤ, fmod x y = x + y * k :=
  ⟨-trunc (x / y), by unfold fmod; push_cast; ring⟩

theorem fmod_nonneg {x y : ℝ} (hy : 0 < y) (hx : 0 ≤ x) : 0 ≤ fmod x y ∧ fmod x y < y := by
  have h0 : 0 ≤ x / y := div_nonneg hx hy.le
  have h1 := Int.floor_le (x / y)
  have h2 := Int.lt_floor_add_one (x / y)
  have e : x = y * (x / y) := by field_simp
  unfold fmod trunc
  rw [if_pos h0]
  constructor
  · nlinarith
  · nlinarith

theorem fmod_neg {x y : ℝ} (hy : 0 < y) (hx : x < 0) : -y < fmod x y ∧ fmod x y ≤ 0 := by
  have h0 : ¬ 0 ≤ x / y := by
    have := div_neg_of_neg_of_pos hx hy
    linarith
  have h1 := Int.le_ceil (x / y)
  have h2 := Int.ceil_lt_add_one (x / y)
  have e : x = y * (x / y) := by field_simp
  unfold fmod trunc
  rw [if_neg h0]
  constructor
  · nlinarith
  · nlinarith

theorem anp_inCircle (a : ℝ) : InCircle (anp a) := by
  have hp := D2PI_pos
  unfold InCircle anp
  simp only
  by_cases ha : 0 ≤ a
  · obtain ⟨h1, h2⟩ := fmod_nonneg hp ha
    rw [if_neg (by linarith)]
    exact ⟨h1, h2⟩
  · obtain ⟨h1, h2⟩ := fmod_neg hp (not_le.mp ha)
    split_ifs with h
    · exact ⟨by linarith, by unfold D2PI at *; linarith⟩
    · exact ⟨by linarith, by unfold D2PI at *; linarith⟩

theorem anp_cong (a : ℝ) : Cong (anp a) a := by
  obtain ⟨k, hk⟩ := fmod_cong a D2PI
  unfold anp
  simp only
  split_ifs
  · exact ⟨k + 1, by rw [hk]; unfold D2PI; push_cast; ring⟩
  · exact ⟨k, by rw [hk]; unfold D2PI; ring⟩

theorem Cong.refl (x : ℝ) : Cong x x := ⟨0, by simp⟩
theorem Cong.symm {x y : ℝ} (h : Cong x y) : Cong y x := by
  obtain ⟨k, h⟩ := h; exact ⟨-k, by rw [h]; push_cast; ring⟩
theorem Cong.trans {x y z : ℝ} (h : Cong x y) (h' : Cong y z) : Cong x z := by
  obtain ⟨k, h⟩ := h; obtain ⟨k', h'⟩ := h'; exact ⟨k + k', by rw [h, h']; push_cast; ring⟩
theorem Cong.add {x y x' y' : ℝ} (h : Cong x y) (h' : Cong x' y') : Cong (x + x') (y + y') := by
  obtain ⟨k, h⟩ := h; obtain ⟨k', h'⟩ := h'; exact ⟨k + k', by rw [h, h']; push_cast; ring⟩
theorem Cong.sub {x y x' y' : ℝ} (h : Cong x y) (h' : Cong x' y') : Cong (x - x') (y - y') := by
  obtain ⟨k, h⟩ := h; obtain ⟨k', h'⟩ := h'; exact ⟨k - k', by rw [h, h']; push_cast; ring⟩
theorem Cong.mul_int {x y : ℝ} (h : Cong x y) (n : ℤ) : Cong (n * x) (n * y) := by
  obtain ⟨k, h⟩ := h; exact ⟨n * k, by rw [h]; push_cast; ring⟩
theorem Cong.of_eq {x y : ℝ} (h : x = y) : Cong x y := h ▸ Cong.refl x

/-- An angle in [0, 2π) is determined by its congruence class. -/
theorem anp_unique {a b : ℝ} (hb : InCircle b) (h : Cong b a) : anp a = b := by
  obtain ⟨k, hk⟩ := (anp_cong a).trans h.symm
  obtain ⟨h1, h2⟩ := anp_inCircle a
  obtain ⟨h3, h4⟩ := hb
  have hp := Real.pi_pos
  have hk0 : k = 0 := by
    have a1 : (k : ℝ) < 1 := by nlinarith
    have a2 : (-1 : ℝ) < k := by nlinarith
    have a1' : k < 1 := by exact_mod_cast a1
    have a2' : -1 < k := by exact_mod_cast a2
    omega
  rw [hk, hk0]; simp

theorem sec2rad_fmod_cong (x : ℝ) : Cong (sec2rad (fmod x TURNAS)) (sec2rad x) := by
  obtain ⟨k, hk⟩ := fmod_cong x TURNAS
  exact ⟨k, by rw [hk]; unfold sec2rad TURNAS; ring⟩

theorem sec2rad_fmod_range (x : ℝ) :
    (0 ≤ x → InCircle (sec2rad (fmod x TURNAS))) ∧
      -(2 * Real.pi) < sec2rad (fmod x TURNAS) ∧ sec2rad (fmod x TURNAS) < 2 * Real.pi := by
  have hp := Real.pi_pos
  have hT : (0 : ℝ) < TURNAS := by unfold TURNAS; norm_num
  have key : ∀ y, sec2rad y = y * (2 * Real.pi / 1296000) := fun _ => rfl
  have hc : 0 < 2 * Real.pi / 1296000 := by positivity
  have hc2 : 1296000 * (2 * Real.pi / 1296000) = 2 * Real.pi := by ring
  have hpos : 0 ≤ x → InCircle (sec2rad (fmod x TURNAS)) := by
    intro hx
    obtain ⟨h1, h2⟩ := fmod_nonneg hT hx
    unfold TURNAS at h2
    constructor
    · rw [key]; exact mul_nonneg h1 hc.le
    · have := mul_lt_mul_of_pos_right h2 hc
      rw [key]; unfold TURNAS; linarith
  refine ⟨hpos, ?_⟩
  by_cases hx : 0 ≤ x
  · obtain ⟨h1, h2⟩ := hpos hx
    exact ⟨by linarith, h2⟩
  · obtain ⟨h1, h2⟩ := fmod_neg hT (not_le.mp hx)
    unfold TURNAS at h1
    rw [key]
    constructor
    · have := mul_lt_mul_of_pos_right h1 hc
      unfold TURNAS at *
      nlinarith
    · have := mul_nonneg (neg_nonneg.mpr h2) hc.le
      nlinarith

theorem fmod_D2PI_cong (x : ℝ) : Cong (fmod x D2PI) x := by
  obtain ⟨k, hk⟩ := fmod_cong x D2PI
  exact ⟨k, by rw [hk]; unfold D2PI; ring⟩

theorem fmod_D2PI_range (x : ℝ) :
    (0 ≤ x → InCircle (fmod x D2PI)) ∧ -(2 * Real.pi) < fmod x D2PI ∧ fmod x D2PI < 2 * Real.pi := by
  have hp := D2PI_pos
  have hpos : 0 ≤ x → InCircle (fmod x D2PI) := fun hx => fmod_nonneg hp hx
  refine ⟨hpos, ?_⟩
  by_cases hx : 0 ≤ x
  · obtain ⟨h1, h2⟩ := hpos hx
    unfold D2PI at *
    exact ⟨by linarith, h2⟩
  · obtain ⟨h1, h2⟩ := fmod_neg hp (not_le.mp hx)
    unfold D2PI at *
    exact ⟨h1, by linarith⟩

end Verif.Angle
