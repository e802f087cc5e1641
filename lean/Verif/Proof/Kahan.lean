import Verif.Spec.Kahan
import Mathlib.Tactic.Linarith
import Mathlib.Tactic.Ring
import Mathlib.Tactic.Positivity
import Mathlib.Tactic.NormNum
/-
Exactness of the branch's subtraction under round-to-nearest (Dekker, Sterbenz).
-/
namespace Verif.Kahan

theorem isFloat_neg {p : ℕ} {x : ℚ} (h : IsFloat p x) : IsFloat p (-x) := by
  obtain ⟨m, e, hm, rfl⟩ := h
  exact ⟨-m, e, by rwa [abs_neg], by push_cast; ring⟩

theorem isFloat_two_mul {p : ℕ} {x : ℚ} (h : IsFloat p x) : IsFloat p (2 * x) := by
  obtain ⟨m, e, hm, rfl⟩ := h
  exact ⟨m, e + 1, hm, by rw [zpow_add₀ (by norm_num)]; ring⟩

theorem isFloat_half {p : ℕ} {x : ℚ} (h : IsFloat p x) : IsFloat p (x / 2) := by
  obtain ⟨m, e, hm, rfl⟩ := h
  exact ⟨m, e - 1, hm, by rw [zpow_sub₀ (by norm_num)]; ring⟩

theorem isFloat_zero (p : ℕ) : IsFloat p 0 := ⟨0, 0, by simp, by simp⟩

/-- A multiple of `2^e` smaller than `2^(p+e)` is a floating-point number. -/
theorem isFloat_of_multiple {p : ℕ} {x : ℚ} {k e : ℤ} (hx : x = k * (2 : ℚ) ^ e)
    (hb : |x| < 2 ^ p * (2 : ℚ) ^ e) : IsFloat p x := by
  refine ⟨k, e, ?_, hx⟩
  have hp : (0 : ℚ) < 2 ^ e := zpow_pos (by norm_num) e
  rw [hx, abs_mul, abs_of_pos hp] at hb
  have := lt_of_mul_lt_mul_right hb hp.le
  exact_mod_cast this

theorem abs_lt_of_repr {p : ℕ} {x : ℚ} {m e : ℤ} (hm : |m| < 2 ^ p) (hx : x = m * (2 : ℚ) ^ e) :
    |x| < 2 ^ p * (2 : ℚ) ^ e := by
  have hp : (0 : ℚ) < 2 ^ e := zpow_pos (by norm_num) e
  rw [hx, abs_mul, abs_of_pos hp]
  apply mul_lt_mul_of_pos_right _ hp
  exact_mod_cast hm

/-- A number with exponent `e` is a multiple of `2^e'` for every smaller `e'`. -/
theorem repr_lower {m e e' : ℤ} (h : e' ≤ e) : ∃ k : ℤ, (m : ℚ) * (2 : ℚ) ^ e = k * (2 : ℚ) ^ e' := by
  obtain ⟨n, hn⟩ := Int.eq_ofNat_of_zero_le (show 0 ≤ e - e' by omega)
  refine ⟨m * 2 ^ n, ?_⟩
  have : e = e' + n := by omega
  rw [this, zpow_add₀ (by norm_num), zpow_natCast]
  push_cast
  ring

/-- Sterbenz: the difference of two positive floating-point numbers within a factor two is one. -/
theorem sterbenz {p : ℕ} {x y : ℚ} (hx : IsFloat p x) (hy : IsFloat p y) (h0 : 0 ≤ x) (h0' : 0 ≤ y)
    (h1 : y ≤ 2 * x) (h2 : x ≤ 2 * y) : IsFloat p (x - y) := by
  obtain ⟨mx, ex, hmx, ex'⟩ := hx
  obtain ⟨my, ey, hmy, ey'⟩ := hy
  have bx : |x - y| ≤ |x| := by
    rw [abs_of_nonneg h0, abs_le]; constructor <;> linarith
  have byy : |x - y| ≤ |y| := by
    rw [abs_of_nonneg h0', abs_le]; constructor <;> linarith
  rcases le_total ex ey with h | h
  · obtain ⟨k, hk⟩ := repr_lower (m := my) h
    refine isFloat_of_multiple (k := mx - k) (e := ex) ?_ (lt_of_le_of_lt bx (abs_lt_of_repr hmx ex'))
    rw [ex', ey', hk]; push_cast; ring
  · obtain ⟨k, hk⟩ := repr_lower (m := mx) h
    refine isFloat_of_multiple (k := k - my) (e := ey) ?_ (lt_of_le_of_lt byy (abs_lt_of_repr hmy ey'))
    rw [ex', ey', hk]; push_cast; ring

theorem sterbenz' {p : ℕ} {x y : ℚ} (hx : IsFloat p x) (hy : IsFloat p y) (h0 : x ≤ 0) (h0' : y ≤ 0)
    (h1 : 2 * x ≤ y) (h2 : 2 * y ≤ x) : IsFloat p (x - y) := by
  have := isFloat_neg (sterbenz (isFloat_neg hx) (isFloat_neg hy) (by linarith) (by linarith) (by linarith)
    (by linarith))
  have e : x - y = -(-x - -y) := by ring
  rw [e]; exact this

variable {p : ℕ} {fl : ℚ → ℚ}

theorem RoundNearest.exact (h : RoundNearest p fl) {x : ℚ} (hx : IsFloat p x) : fl x = x := by
  have := h.nearest x x hx
  simp only [sub_self, abs_zero] at this
  have := abs_nonpos_iff.mp this
  linarith

theorem RoundNearest.ge (h : RoundNearest p fl) {x c : ℚ} (hc : IsFloat p c) (hx : c ≤ x) : c ≤ fl x := by
  have h1 := h.nearest x c hc
  rw [abs_of_nonpos (show c - x ≤ 0 by linarith)] at h1
  have := neg_abs_le (fl x - x)
  linarith

theorem RoundNearest.le (h : RoundNearest p fl) {x c : ℚ} (hc : IsFloat p c) (hx : x ≤ c) : fl x ≤ c := by
  have h1 := h.nearest x c hc
  rw [abs_of_nonneg (show 0 ≤ c - x by linarith)] at h1
  have := le_abs_self (fl x - x)
  linarith

/-- `fl (a + b) - a` is a floating-point number when `|b| ≤ |a|`. -/
theorem sub_isFloat (h : RoundNearest p fl) {a b : ℚ} (ha : IsFloat p a) (hb : IsFloat p b)
    (hab : |b| ≤ |a|) : IsFloat p (fl (a + b) - a) := by
  have hs := h.isFloat (a + b)
  rcases le_total 0 a with h0 | h0
  · rw [abs_of_nonneg h0] at hab
    have hb1 := (abs_le.mp hab).1
    have hb2 := (abs_le.mp hab).2
    by_cases hc : a / 2 ≤ a + b
    · -- `a/2 ≤ s ≤ 2a`
      have s1 := h.ge (isFloat_half ha) hc
      have s2 := h.le (isFloat_two_mul ha) (show a + b ≤ 2 * a by linarith)
      exact sterbenz hs ha (by linarith) h0 (by linarith) s2
    · -- `a + b` is exact
      push Not at hc
      have : IsFloat p (a - -b) := sterbenz ha (isFloat_neg hb) h0 (by linarith) (by linarith) (by linarith)
      rw [sub_neg_eq_add] at this
      rw [h.exact this]
      have e : a + b - a = b := by ring
      rw [e]; exact hb
  · rw [abs_of_nonpos h0] at hab
    have hb1 := (abs_le.mp hab).1
    have hb2 := (abs_le.mp hab).2
    by_cases hc : a + b ≤ a / 2
    · have s1 := h.le (isFloat_half ha) hc
      have s2 := h.ge (isFloat_two_mul ha) (show 2 * a ≤ a + b by linarith)
      exact sterbenz' hs ha (by linarith) h0 (by linarith) (by linarith)
    · push Not at hc
      have : IsFloat p (a - -b) := sterbenz' ha (isFloat_neg hb) h0 (by linarith) (by linarith) (by linarith)
      rw [sub_neg_eq_add] at this
      rw [h.exact this]
      have e : a + b - a = b := by ring
      rw [e]; exact hb

/-- A rounded multiple of `2^e` is a multiple of `2^e`. -/
theorem round_multiple (h : RoundNearest p fl) {x : ℚ} {k e : ℤ} (hx : x = k * (2 : ℚ) ^ e) :
    ∃ k' : ℤ, fl x = k' * (2 : ℚ) ^ e := by
  have hp : (0 : ℚ) < 2 ^ e := zpow_pos (by norm_num) e
  by_cases hb : |x| < 2 ^ p * (2 : ℚ) ^ e
  · rw [h.exact (isFloat_of_multiple hx hb)]; exact ⟨k, hx⟩
  · push Not at hb
    -- `2^(p+e)` is a floating-point number not above `|x|`
    rcases Nat.eq_zero_or_pos p with rfl | hp0
    · obtain ⟨m, e', hm, hf⟩ := h.isFloat x
      have : m = 0 := by
        have hm1 : |m| < 1 := by simpa using hm
        exact Int.abs_lt_one_iff.mp hm1
      exact ⟨0, by rw [hf, this]; simp⟩
    · have hc : IsFloat p (2 ^ p * (2 : ℚ) ^ e) := by
        refine ⟨1, p + e, ?_, ?_⟩
        · rw [abs_one]; exact one_lt_pow₀ (by norm_num) (by omega)
        · rw [zpow_add₀ (by norm_num), zpow_natCast]; push_cast; ring
      have hge : 2 ^ p * (2 : ℚ) ^ e ≤ |fl x| := by
        rcases le_total 0 x with h0 | h0
        · rw [abs_of_nonneg h0] at hb
          exact le_trans (h.ge hc hb) (le_abs_self _)
        · rw [abs_of_nonpos h0] at hb
          have := h.le (isFloat_neg hc) (show x ≤ -(2 ^ p * (2 : ℚ) ^ e) by linarith)
          have h2 := neg_abs_le (fl x)
          linarith
      obtain ⟨m, e', hm, hf⟩ := h.isFloat x
      have hlt := abs_lt_of_repr hm hf
      have : (2 : ℚ) ^ e < (2 : ℚ) ^ e' := by
        have h2 : (0 : ℚ) < 2 ^ p := by positivity
        exact lt_of_mul_lt_mul_left (lt_of_le_of_lt hge hlt) h2.le
      have hee : e < e' := (zpow_lt_zpow_iff_right₀ (by norm_num)).mp this
      rw [hf]
      obtain ⟨k', hk'⟩ := repr_lower (m := m) hee.le
      exact ⟨k', hk'⟩

/-- The error of a rounded addition is a floating-point number. -/
theorem loss_isFloat (h : RoundNearest p fl) {a b : ℚ} (ha : IsFloat p a) (hb : IsFloat p b) :
    IsFloat p (a + b - fl (a + b)) := by
  have e1 : |a + b - fl (a + b)| ≤ |b| := by
    have := h.nearest (a + b) a ha
    rw [abs_sub_comm] at this
    refine this.trans (le_of_eq ?_)
    rw [abs_sub_comm]; congr 1; ring
  have e2 : |a + b - fl (a + b)| ≤ |a| := by
    have := h.nearest (a + b) b hb
    rw [abs_sub_comm] at this
    refine this.trans (le_of_eq ?_)
    rw [abs_sub_comm]; congr 1; ring
  obtain ⟨ma, ea, hma, hae⟩ := ha
  obtain ⟨mb, eb, hmb, hbe⟩ := hb
  rcases le_total ea eb with hle | hle
  · obtain ⟨k, hk⟩ := repr_lower (m := mb) hle
    have hx : a + b = ((ma + k : ℤ) : ℚ) * (2 : ℚ) ^ ea := by rw [hae, hbe, hk]; push_cast; ring
    obtain ⟨k', hk'⟩ := round_multiple h hx
    refine isFloat_of_multiple (k := ma + k - k') (e := ea) ?_ (lt_of_le_of_lt e2 (abs_lt_of_repr hma hae))
    rw [hk', hx]; push_cast; ring
  · obtain ⟨k, hk⟩ := repr_lower (m := ma) hle
    have hx : a + b = ((k + mb : ℤ) : ℚ) * (2 : ℚ) ^ eb := by rw [hae, hbe, hk]; push_cast; ring
    obtain ⟨k', hk'⟩ := round_multiple h hx
    refine isFloat_of_multiple (k := k + mb - k') (e := eb) ?_ (lt_of_le_of_lt e1 (abs_lt_of_repr hmb hbe))
    rw [hk', hx]; push_cast; ring

/-- One `+=`: the new sum is the rounded sum, and the compensation receives exactly what was lost. -/
theorem add_spec (h : RoundNearest p fl) {k : K} {v : ℚ} (hs : IsFloat p k.sum) (hv : IsFloat p v) :
    K.add fl k v = ⟨fl (k.sum + v), fl (k.err + (k.sum + v - fl (k.sum + v)))⟩ := by
  unfold K.add
  simp only
  split_ifs with hc
  · have h1 : IsFloat p (k.sum - fl (k.sum + v)) := by
      have := isFloat_neg (sub_isFloat h hs hv hc)
      rwa [neg_sub] at this
    rw [h.exact h1]
    have e : k.sum - fl (k.sum + v) + v = k.sum + v - fl (k.sum + v) := by ring
    rw [e, h.exact (loss_isFloat h hs hv)]
  · have h1 : IsFloat p (v - fl (k.sum + v)) := by
      have := isFloat_neg (sub_isFloat h hv hs (le_of_lt (not_le.mp hc)))
      rwa [neg_sub, add_comm] at this
    rw [h.exact h1]
    have e : v - fl (k.sum + v) + k.sum = k.sum + v - fl (k.sum + v) := by ring
    rw [e, h.exact (loss_isFloat h hs hv)]

theorem addAll_cons (fl : ℚ → ℚ) (k : K) (v : ℚ) (vs : List ℚ) :
    K.addAll fl k (v :: vs) = K.addAll fl (K.add fl k v) vs := rfl

end Verif.Kahan
