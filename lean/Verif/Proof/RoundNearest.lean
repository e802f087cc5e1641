import Verif.Proof.Rounding
/-
A rounding to nearest over the reals.
-/
namespace Verif.Rounding

/-- Numbers `m * 2^e` with `|m| < 2^p`. -/
def IsFloatR (p : ℕ) (x : ℝ) : Prop := ∃ m e : ℤ, |m| < 2 ^ p ∧ x = m * (2 : ℝ) ^ e

theorem repr_lower {m e e' : ℤ} (h : e' ≤ e) : ∃ k : ℤ, (m : ℝ) * (2 : ℝ) ^ e = k * (2 : ℝ) ^ e' := by
  obtain ⟨n, hn⟩ := Int.eq_ofNat_of_zero_le (show 0 ≤ e - e' by omega)
  refine ⟨m * 2 ^ n, ?_⟩
  have : e = e' + n := by omega
  rw [this, zpow_add₀ (by norm_num), zpow_natCast]
  push_cast
  ring

theorem abs_lt_of_repr {p : ℕ} {x : ℝ} {m e : ℤ} (hm : |m| < 2 ^ p) (hx : x = m * (2 : ℝ) ^ e) :
    |x| < 2 ^ p * (2 : ℝ) ^ e := by
  have hp : (0 : ℝ) < 2 ^ e := zpow_pos (by norm_num) e
  rw [hx, abs_mul, abs_of_pos hp]
  apply mul_lt_mul_of_pos_right _ hp
  exact_mod_cast hm

/-- Rounding to nearest with `p` bits, by rounding the scaled significand to the nearest integer. -/
noncomputable def rn (p : ℕ) (x : ℝ) : ℝ :=
  round (x / (2 : ℝ) ^ (Int.log 2 |x| - p + 1)) * (2 : ℝ) ^ (Int.log 2 |x| - p + 1)

/-- `rn p` rounds to nearest, for every precision. -/
theorem rn_nearest {p : ℕ} (hp : 1 ≤ p) : (∀ x, IsFloatR p (rn p x)) ∧ ∀ x y, IsFloatR p y → |rn p x - x| ≤ |y - x| := by
  have main : ∀ x, x ≠ 0 → IsFloatR p (rn p x) ∧ ∀ y, IsFloatR p y → |rn p x - x| ≤ |y - x| := by
    intro x hx
    have hax : 0 < |x| := abs_pos.mpr hx
    let q := Int.log 2 |x|
    let e := q - p + 1
    have hpe : (0 : ℝ) < 2 ^ e := zpow_pos (by norm_num) e
    have hq1 : (2 : ℝ) ^ q ≤ |x| := Int.zpow_log_le_self (by norm_num) hax
    have hq2 : |x| < (2 : ℝ) ^ (q + 1) := Int.lt_zpow_succ_log_self (by norm_num) _
    have hqe : (2 : ℝ) ^ (q + 1) = 2 ^ p * (2 : ℝ) ^ e := by
      rw [← zpow_natCast, ← zpow_add₀ (by norm_num)]; congr 1; omega
    let u := x / (2 : ℝ) ^ e
    have hxu : x = u * (2 : ℝ) ^ e := by simp only [u]; field_simp
    have hru : rn p x = round u * (2 : ℝ) ^ e := rfl
    -- as near as any multiple of `2^e`
    have near : ∀ k : ℤ, |rn p x - x| ≤ |(k : ℝ) * (2 : ℝ) ^ e - x| := by
      intro k
      have h1 := round_le u k
      have e1 : rn p x - x = (round u - u) * (2 : ℝ) ^ e := by rw [hru]; linear_combination -hxu
      have e2 : (k : ℝ) * (2 : ℝ) ^ e - x = (k - u) * (2 : ℝ) ^ e := by linear_combination -hxu
      rw [e1, e2, abs_mul, abs_mul]
      apply mul_le_mul_of_nonneg_right _ (abs_nonneg _)
      rw [abs_sub_comm, abs_sub_comm (k : ℝ)]
      exact h1
    have hub : |u| < 2 ^ p := by
      have : |x| = |u| * (2 : ℝ) ^ e := by rw [hxu, abs_mul, abs_of_pos hpe]
      rw [this, hqe] at hq2
      exact lt_of_mul_lt_mul_right hq2 hpe.le
    have hrb : |round u| ≤ 2 ^ p := by
      have h1 := abs_lt.mp hub
      rw [abs_le]
      constructor
      · have : -(2 : ℤ) ^ p ≤ round u := by
          have h2 : ((-(2 : ℤ) ^ p : ℤ) : ℝ) ≤ u := by push_cast; linarith
          calc -(2 : ℤ) ^ p = round ((-(2 : ℤ) ^ p : ℤ) : ℝ) := (round_intCast _).symm
            _ ≤ round u := by
              rw [round_eq, round_eq]; exact Int.floor_le_floor (by linarith)
        exact this
      · have h2 : u ≤ (((2 : ℤ) ^ p : ℤ) : ℝ) := by push_cast; linarith
        calc round u ≤ round (((2 : ℤ) ^ p : ℤ) : ℝ) := by
              rw [round_eq, round_eq]; exact Int.floor_le_floor (by linarith)
          _ = 2 ^ p := round_intCast _
    constructor
    · rcases lt_or_eq_of_le hrb with hlt | heq
      · exact ⟨round u, e, hlt, hru⟩
      · have hcases : round u = 2 ^ p ∨ round u = -2 ^ p := by
          rcases abs_cases (round u) with ⟨h, _⟩ | ⟨h, _⟩ <;> omega
        have h2 : (1 : ℤ) < 2 ^ p := one_lt_pow₀ (by norm_num) (by omega)
        have hz : (2 : ℝ) ^ (p + e) = 2 ^ p * (2 : ℝ) ^ e := by
          rw [zpow_add₀ (by norm_num), zpow_natCast]
        rcases hcases with hr | hr
        · exact ⟨1, p + e, by simpa using h2, by rw [hru, hr, hz]; push_cast; ring⟩
        · exact ⟨-1, p + e, by simpa using h2, by rw [hru, hr, hz]; push_cast; ring⟩
    · rintro y ⟨m, ey, hm, rfl⟩
      rcases le_or_gt e ey with hle | hlt
      · obtain ⟨k, hk⟩ := repr_lower (m := m) hle
        rw [hk]; exact near k
      · -- `|y| < 2^q ≤ |x|`
        have hy := abs_lt_of_repr (p := p) (e := ey) hm rfl
        have hyq : |(m : ℝ) * (2 : ℝ) ^ ey| < (2 : ℝ) ^ q := by
          refine lt_of_lt_of_le hy ?_
          rw [← zpow_natCast, ← zpow_add₀ (by norm_num)]
          exact zpow_le_zpow_right₀ (by norm_num) (by omega)
        have hqm : ∃ k : ℤ, (2 : ℝ) ^ q = k * (2 : ℝ) ^ e := by
          have := repr_lower (m := 1) (e := q) (e' := e) (by omega)
          simpa using this
        obtain ⟨k, hk⟩ := hqm
        have hy1 := abs_lt.mp hyq
        rcases le_total 0 x with h0 | h0
        · rw [abs_of_nonneg h0] at hq1
          refine (near k).trans ?_
          rw [← hk, abs_of_nonpos (by linarith), abs_of_nonpos (by linarith)]
          linarith
        · rw [abs_of_nonpos h0] at hq1
          refine (near (-k)).trans ?_
          have : ((-k : ℤ) : ℝ) * (2 : ℝ) ^ e = -(2 : ℝ) ^ q := by rw [hk]; push_cast; ring
          rw [this, abs_of_nonneg (by linarith), abs_of_nonneg (by linarith)]
          linarith
  have h0 : rn p 0 = 0 := by simp [rn]
  constructor
  · intro x
    by_cases hx : x = 0
    · rw [hx, h0]; exact ⟨0, 0, by positivity, by simp⟩
    · exact (main x hx).1
  · intro x y hy
    by_cases hx : x = 0
    · rw [hx, h0]; simp
    · exact (main x hx).2 y hy

/-- Rounding to nearest in double precision exists. -/
theorem rn_rounds : Rounds (rn 53) :=
  ⟨(rn_nearest (p := 53) (by norm_num)).1, (rn_nearest (p := 53) (by norm_num)).2⟩

/-- Rounding to nearest, products being fused at the places where `s` is true. -/
noncomputable def rnArith (s : ℕ → Bool) : Rounded.Arith := ⟨rn 53, fun k x => if s k then x else rn 53 x⟩

theorem rn_faithful (s : ℕ → Bool) : Faithful (rnArith s) :=
  ⟨rn_rounds, fun k x => by
    show (if s k then x else rn 53 x) = rn 53 x ∨ _ = x
    cases h : s k
    · exact Or.inl (by simp)
    · exact Or.inr (by simp [rnArith, h])⟩

end Verif.Rounding
