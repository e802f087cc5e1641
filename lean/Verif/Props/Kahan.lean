import Verif.Proof.Kahan
import Mathlib.Data.Int.Log
import Mathlib.Algebra.Order.Round
import Mathlib.Data.Rat.Floor
import Mathlib.Tactic.FieldSimp
import Mathlib.Tactic.LinearCombination
/-
C63: compensated summation.
-/
namespace Verif.Kahan

/-- C63: in exact arithmetic the accumulator is the plain sum. -/
theorem kahan_exact (start : ℚ) (vs : List ℚ) :
    (K.addAll id (K.init start) vs).toDouble id = start + vs.sum := by
  have key : ∀ (vs : List ℚ) (k : K), (K.addAll id k vs).sum + (K.addAll id k vs).err =
      k.sum + k.err + vs.sum := by
    intro vs
    induction vs with
    | nil => intro k; simp [K.addAll]
    | cons v vs ih =>
      intro k
      rw [addAll_cons, ih, List.sum_cons]
      unfold K.add
      split_ifs <;> simp <;> ring
  have := key vs (K.init start)
  simpa [K.init, K.toDouble] using this

/-- C63: under rounding to nearest, with inputs that are floating-point numbers: the main accumulator is
the plain rounded sum, the compensation is the (rounded) sum of what each addition lost, and these losses
make up exactly for the difference to the exact sum. So the only error of the result is that of summing
the losses, and of the final rounding. -/
theorem kahan_tracks {p : ℕ} {fl : ℚ → ℚ} (h : RoundNearest p fl) {start : ℚ} (hs : IsFloat p start)
    (vs : List ℚ) (hv : ∀ v ∈ vs, IsFloat p v) :
    let k := K.addAll fl (K.init start) vs
    k.sum = roundedSum fl start vs ∧ k.err = roundedSum fl 0 (losses fl start vs) ∧
      roundedSum fl start vs + (losses fl start vs).sum = start + vs.sum ∧
      k.toDouble fl = fl (roundedSum fl start vs + roundedSum fl 0 (losses fl start vs)) := by
  have key : ∀ (vs : List ℚ) (k : K), IsFloat p k.sum → (∀ v ∈ vs, IsFloat p v) →
      (K.addAll fl k vs).sum = roundedSum fl k.sum vs ∧
      (K.addAll fl k vs).err = roundedSum fl k.err (losses fl k.sum vs) ∧
      roundedSum fl k.sum vs + (losses fl k.sum vs).sum = k.sum + vs.sum := by
    intro vs
    induction vs with
    | nil => intro k _ _; simp [K.addAll, roundedSum, losses]
    | cons v vs ih =>
      intro k hk hv
      rw [addAll_cons, add_spec h hk (hv v (by simp))]
      obtain ⟨h1, h2, h3⟩ := ih ⟨fl (k.sum + v), fl (k.err + (k.sum + v - fl (k.sum + v)))⟩
        (h.isFloat _) (fun v hv' => hv v (by simp [hv']))
      refine ⟨h1, h2, ?_⟩
      simp only [losses, List.sum_cons]
      simp only at h3
      have e : roundedSum fl k.sum (v :: vs) = roundedSum fl (fl (k.sum + v)) vs := rfl
      rw [e]
      linarith
  intro k
  obtain ⟨h1, h2, h3⟩ := key vs (K.init start) hs hv
  refine ⟨h1, h2, h3, ?_⟩
  show fl (k.sum + k.err) = _
  have h1' : k.sum = _ := h1
  have h2' : k.err = _ := h2
  rw [h1', h2']
  rfl

/-- C63: if summing the losses is itself exact, the result is the exact sum, rounded once. -/
theorem kahan_correctly_rounded {p : ℕ} {fl : ℚ → ℚ} (h : RoundNearest p fl) {start : ℚ}
    (hs : IsFloat p start) (vs : List ℚ) (hv : ∀ v ∈ vs, IsFloat p v)
    (hl : roundedSum fl 0 (losses fl start vs) = (losses fl start vs).sum) :
    (K.addAll fl (K.init start) vs).toDouble fl = fl (start + vs.sum) := by
  obtain ⟨_, _, h3, h4⟩ := kahan_tracks h hs vs hv
  rw [h4, hl, h3]

/-- A case with a loss that exact summation of the losses recovers: with two bits, 4 + 1 rounds to 4
(tie), but the compensated sum of 4, 1, 1 is 6. The hypotheses are those of `add_spec` on this run. -/
example : ∀ fl : ℚ → ℚ, fl 5 = 4 → fl 4 = 4 → fl 0 = 0 → fl 1 = 1 → fl 2 = 2 → fl 6 = 6 →
    (K.addAll fl (K.init 4) [1, 1]).toDouble fl = 6 ∧ roundedSum fl 4 [1, 1] = 4 := by
  intro fl h5 h4 h0 h1 h2 h6
  constructor
  · simp only [K.addAll, K.init, K.toDouble, List.foldl, K.add]
    norm_num [h5, h4, h0, h1, h2, h6]
  · simp only [roundedSum, List.foldl]
    norm_num [h5, h4]

/-- Rounding to nearest with `p` bits, by rounding the scaled significand to the nearest integer. -/
noncomputable def rn (p : ℕ) (x : ℚ) : ℚ :=
  round (x / (2 : ℚ) ^ (Int.log 2 |x| - p + 1)) * (2 : ℚ) ^ (Int.log 2 |x| - p + 1)

/-- The hypothesis of `kahan_tracks` is met: `rn p` rounds to nearest, for every precision. -/
theorem rn_nearest {p : ℕ} (hp : 1 ≤ p) : RoundNearest p (rn p) := by
  have main : ∀ x, x ≠ 0 → IsFloat p (rn p x) ∧ ∀ y, IsFloat p y → |rn p x - x| ≤ |y - x| := by
    intro x hx
    have hax : 0 < |x| := abs_pos.mpr hx
    let q := Int.log 2 |x|
    let e := q - p + 1
    have hpe : (0 : ℚ) < 2 ^ e := zpow_pos (by norm_num) e
    have hq1 : (2 : ℚ) ^ q ≤ |x| := Int.zpow_log_le_self (by norm_num) hax
    have hq2 : |x| < (2 : ℚ) ^ (q + 1) := Int.lt_zpow_succ_log_self (by norm_num) _
    have hqe : (2 : ℚ) ^ (q + 1) = 2 ^ p * (2 : ℚ) ^ e := by
      rw [← zpow_natCast, ← zpow_add₀ (by norm_num)]; congr 1; omega
    let u := x / (2 : ℚ) ^ e
    have hxu : x = u * (2 : ℚ) ^ e := by simp only [u]; field_simp
    have hru : rn p x = round u * (2 : ℚ) ^ e := rfl
    -- as near as any multiple of `2^e`
    have near : ∀ k : ℤ, |rn p x - x| ≤ |(k : ℚ) * (2 : ℚ) ^ e - x| := by
      intro k
      have h1 := round_le u k
      have e1 : rn p x - x = (round u - u) * (2 : ℚ) ^ e := by rw [hru]; linear_combination -hxu
      have e2 : (k : ℚ) * (2 : ℚ) ^ e - x = (k - u) * (2 : ℚ) ^ e := by linear_combination -hxu
      rw [e1, e2, abs_mul, abs_mul]
      apply mul_le_mul_of_nonneg_right _ (abs_nonneg _)
      rw [abs_sub_comm, abs_sub_comm (k : ℚ)]
      exact h1
    have hub : |u| < 2 ^ p := by
      have : |x| = |u| * (2 : ℚ) ^ e := by rw [hxu, abs_mul, abs_of_pos hpe]
      rw [this, hqe] at hq2
      exact lt_of_mul_lt_mul_right hq2 hpe.le
    have hrb : |round u| ≤ 2 ^ p := by
      have h1 := abs_lt.mp hub
      rw [abs_le]
      constructor
      · have : -(2 : ℤ) ^ p ≤ round u := by
          have h2 : ((-(2 : ℤ) ^ p : ℤ) : ℚ) ≤ u := by push_cast; linarith
          calc -(2 : ℤ) ^ p = round ((-(2 : ℤ) ^ p : ℤ) : ℚ) := (round_intCast _).symm
            _ ≤ round u := by
              rw [round_eq, round_eq]; exact Int.floor_le_floor (by linarith)
        exact this
      · have h2 : u ≤ (((2 : ℤ) ^ p : ℤ) : ℚ) := by push_cast; linarith
        calc round u ≤ round (((2 : ℤ) ^ p : ℤ) : ℚ) := by
              rw [round_eq, round_eq]; exact Int.floor_le_floor (by linarith)
          _ = 2 ^ p := round_intCast _
    constructor
    · rcases lt_or_eq_of_le hrb with hlt | heq
      · exact ⟨round u, e, hlt, hru⟩
      · have hcases : round u = 2 ^ p ∨ round u = -2 ^ p := by
          rcases abs_cases (round u) with ⟨h, _⟩ | ⟨h, _⟩ <;> omega
        have h2 : (1 : ℤ) < 2 ^ p := one_lt_pow₀ (by norm_num) (by omega)
        have hz : (2 : ℚ) ^ (p + e) = 2 ^ p * (2 : ℚ) ^ e := by
          rw [zpow_add₀ (by norm_num), zpow_natCast]
        rcases hcases with hr | hr
        · exact ⟨1, p + e, by simpa using h2, by rw [hru, hr, hz]; push_cast; ring⟩
        · exact ⟨-1, p + e, by simpa using h2, by rw [hru, hr, hz]; push_cast; ring⟩
    · rintro y ⟨m, ey, hm, rfl⟩
      rcases le_or_gt e ey with hle | hlt
      · obtain ⟨k, hk⟩ := repr_lower (m := m) hle
        rw [hk]; exact near k
      · -- `|y| < 2^q ≤ |x|`
        have hy := abs_lt_of_repr (p := p) (e := ey) hm rfl
        have hyq : |(m : ℚ) * (2 : ℚ) ^ ey| < (2 : ℚ) ^ q := by
          refine lt_of_lt_of_le hy ?_
          rw [← zpow_natCast, ← zpow_add₀ (by norm_num)]
          exact zpow_le_zpow_right₀ (by norm_num) (by omega)
        have hqm : ∃ k : ℤ, (2 : ℚ) ^ q = k * (2 : ℚ) ^ e := by
          have := repr_lower (m := 1) (e := q) (e' := e) (by omega)
          simpa using this
        obtain ⟨k, hk⟩ := hqm
        have hy1 := abs_lt.mp hyq
        rcases le_total 0 x with h0 | h0
        · rw [abs_of_nonneg h0] at hq1
          refine (near k).trans ?_
          rw [← hk, abs_of_nonpos (by linarith), abs_of_nonpos (by linarith)]
          linarith
        · rw [abs_of_nonpos h0] at hq1
          refine (near (-k)).trans ?_
          have : ((-k : ℤ) : ℚ) * (2 : ℚ) ^ e = -(2 : ℚ) ^ q := by rw [hk]; push_cast; ring
          rw [this, abs_of_nonneg (by linarith), abs_of_nonneg (by linarith)]
          linarith
  have h0 : rn p 0 = 0 := by simp [rn]
  constructor
  · intro x
    by_cases hx : x = 0
    · rw [hx, h0]; exact isFloat_zero p
    · exact (main x hx).1
  · intro x y hy
    by_cases hx : x = 0
    · rw [hx, h0]; simp
    · exact (main x hx).2 y hy

/-- The hypotheses of `kahan_tracks` on IEEE double precision (53 bits) and three inputs. -/
example : RoundNearest 53 (rn 53) ∧ ∀ v ∈ [(1 : ℚ), 1 / 2, -3], IsFloat 53 v := by
  refine ⟨rn_nearest (by norm_num), ?_⟩
  intro v hv
  simp only [List.mem_cons, List.not_mem_nil, or_false] at hv
  rcases hv with rfl | rfl | rfl
  · exact ⟨1, 0, by norm_num, by norm_num⟩
  · exact ⟨1, -1, by norm_num, by norm_num⟩
  · exact ⟨-3, 0, by norm_num, by norm_num⟩

/-! ### Accuracy -/

/-- Rounding to nearest has a relative error of at most half a unit. -/
theorem round_rel {p : ℕ} (hp : 1 ≤ p) {fl : ℚ → ℚ} (h : RoundNearest p fl) (x : ℚ) : |fl x - x| ≤ 1 / 2 ^ p * |x| := by
  by_cases hx : x = 0
  · subst hx
    rw [h.exact (isFloat_zero p)]; simp
  refine (h.nearest x (rn p x) ((rn_nearest hp).isFloat x)).trans ?_
  have hax : 0 < |x| := abs_pos.mpr hx
  have hq1 : (2 : ℚ) ^ (Int.log 2 |x|) ≤ |x| := Int.zpow_log_le_self (by norm_num) hax
  unfold rn
  set e := Int.log 2 |x| - p + 1 with he
  have hpe : (0 : ℚ) < 2 ^ e := zpow_pos (by norm_num) e
  have h1 := abs_sub_round (x / (2 : ℚ) ^ e)
  have e1 : (round (x / (2 : ℚ) ^ e) : ℚ) * 2 ^ e - x = -((x / 2 ^ e - round (x / 2 ^ e)) * 2 ^ e) := by field_simp; ring
  rw [e1, abs_neg, abs_mul, abs_of_pos hpe]
  have h2 := mul_le_mul_of_nonneg_right h1 hpe.le
  refine h2.trans ?_
  have e2 : (1 / 2 : ℚ) * 2 ^ e = 1 / 2 ^ p * 2 ^ (Int.log 2 |x|) := by
    rw [he, zpow_add₀ (by norm_num), zpow_sub₀ (by norm_num)]
    simp only [zpow_one, zpow_natCast]
    field_simp
  rw [e2]
  exact mul_le_mul_of_nonneg_left hq1 (by positivity)

theorem sum_add_losses (fl : ℚ → ℚ) (s : ℚ) (vs : List ℚ) : roundedSum fl s vs + (losses fl s vs).sum = s + vs.sum := by
  induction vs generalizing s with
  | nil => simp [roundedSum, losses]
  | cons v vs ih =>
    have := ih (fl (s + v))
    have e : roundedSum fl s (v :: vs) = roundedSum fl (fl (s + v)) vs := rfl
    rw [e, losses, List.sum_cons, List.sum_cons]
    linarith

theorem abs_sum_le (vs : List ℚ) : |vs.sum| ≤ (vs.map (|·|)).sum := by
  induction vs with
  | nil => simp
  | cons v vs ih =>
    rw [List.sum_cons, List.map_cons, List.sum_cons]
    exact (abs_add_le _ _).trans (by linarith)

theorem sum_abs_nonneg (vs : List ℚ) : 0 ≤ (vs.map (|·|)).sum := (abs_nonneg _).trans (abs_sum_le vs)

/-- The losses of the plain rounded sum. -/
theorem losses_le {fl : ℚ → ℚ} {ε : ℚ} (hε : 0 ≤ ε) (hr : ∀ x, |fl x - x| ≤ ε * |x|) (s : ℚ) (vs : List ℚ) :
    ((losses fl s vs).map (|·|)).sum ≤ ((1 + ε) ^ vs.length - 1) * (|s| + (vs.map (|·|)).sum) := by
  induction vs generalizing s with
  | nil => simp [losses]
  | cons v vs ih =>
    have h1 := ih (fl (s + v))
    have h2 := hr (s + v)
    have h3 := abs_add_le s v
    have h4 : |fl (s + v)| ≤ (1 + ε) * (|s| + |v|) := by
      have := abs_sub_abs_le_abs_sub (fl (s + v)) (s + v)
      nlinarith
    have hp : (1 : ℚ) ≤ (1 + ε) ^ vs.length := one_le_pow₀ (by linarith)
    have hB := sum_abs_nonneg vs
    simp only [losses, List.map_cons, List.sum_cons, List.length_cons, pow_succ]
    rw [abs_sub_comm]
    generalize (1 + ε) ^ vs.length = P at *
    generalize (vs.map (|·|)).sum = B at *
    have hA : 0 ≤ |s| + |v| := by positivity
    have h5 : |fl (s + v) - (s + v)| ≤ ε * (|s| + |v|) := h2.trans (mul_le_mul_of_nonneg_left h3 hε)
    have h6 : (P - 1) * (|fl (s + v)| + B) ≤ (P - 1) * ((1 + ε) * (|s| + |v|) + B) := mul_le_mul_of_nonneg_left (by linarith) (by linarith)
    have h7 : 0 ≤ P * ε * B := by positivity
    nlinarith

theorem roundedSum_error {fl : ℚ → ℚ} {ε : ℚ} (hε : 0 ≤ ε) (hr : ∀ x, |fl x - x| ≤ ε * |x|) (s : ℚ) (vs : List ℚ) :
    |roundedSum fl s vs - (s + vs.sum)| ≤ ((1 + ε) ^ vs.length - 1) * (|s| + (vs.map (|·|)).sum) := by
  have h := sum_add_losses fl s vs
  rw [show roundedSum fl s vs - (s + vs.sum) = -(losses fl s vs).sum by linarith, abs_neg]
  exact (abs_sum_le _).trans (losses_le hε hr s vs)

theorem losses_length (fl : ℚ → ℚ) (s : ℚ) (vs : List ℚ) : (losses fl s vs).length = vs.length := by
  induction vs generalizing s with
  | nil => rfl
  | cons v vs ih => simp [losses, ih]

/-- C63: the compensated sum of `n` numbers is the exact sum, up to one rounding and an error of the second order: with half a unit in the last place
`ε = 2⁻ᵖ`, at most `ε |sum| + 1.01 (n ε)² (|start| + |v₁| + ... + |vₙ|)`, as long as `n ε` is at most a thousandth. -/
theorem kahan_accurate {p : ℕ} (hp : 1 ≤ p) {fl : ℚ → ℚ} (h : RoundNearest p fl) {start : ℚ} (hs : IsFloat p start)
    (vs : List ℚ) (hv : ∀ v ∈ vs, IsFloat p v) (hn : vs.length * (1 / 2 ^ p : ℚ) ≤ 1 / 1000) :
    |(K.addAll fl (K.init start) vs).toDouble fl - (start + vs.sum)| ≤
      1 / 2 ^ p * |start + vs.sum| + 1.01 * (vs.length * (1 / 2 ^ p)) ^ 2 * (|start| + (vs.map (|·|)).sum) := by
  obtain ⟨-, -, h3, h4⟩ := kahan_tracks h hs vs hv
  have hr := round_rel hp h
  have hε : (0 : ℚ) ≤ 1 / 2 ^ p := by positivity
  have hε1 : (1 / 2 ^ p : ℚ) ≤ 1 / 2 := by
    have : (2 : ℚ) ^ 1 ≤ 2 ^ p := pow_le_pow_right₀ (by norm_num) hp
    rw [div_le_div_iff₀ (by positivity) (by norm_num)]; linarith
  rw [h4]
  have e1 := roundedSum_error hε hr 0 (losses fl start vs)
  have e2 := losses_le hε hr start vs
  rw [losses_length] at e1
  simp only [abs_zero, zero_add] at e1
  rcases Nat.eq_zero_or_pos vs.length with h0 | hpos
  · obtain rfl := List.length_eq_zero_iff.mp h0
    have := hr start
    simpa [roundedSum, losses] using this
  have hεn : (1 / 2 ^ p : ℚ) ≤ 1 / 1000 := by
    have h1 : (1 : ℚ) ≤ vs.length := by exact_mod_cast hpos
    have := mul_le_mul_of_nonneg_right h1 hε
    linarith
  have hp1 : (1 : ℚ) ≤ (1 + 1 / 2 ^ p) ^ vs.length := one_le_pow₀ (by linarith)
  have hg : (1 + 1 / 2 ^ p : ℚ) ^ vs.length - 1 ≤ 1.002 * (vs.length * (1 / 2 ^ p)) := by
    have hb := one_add_mul_le_pow (a := -(1 / 2 ^ p : ℚ)) (by linarith) vs.length
    have hb' : (1 + 1 / 2 ^ p : ℚ) ^ vs.length * (1 + -(1 / 2 ^ p : ℚ)) ^ vs.length ≤ 1 := by
      rw [← mul_pow]
      exact pow_le_one₀ (by nlinarith) (by nlinarith)
    have e : 1 + (vs.length : ℚ) * -(1 / 2 ^ p) = 1 - vs.length * (1 / 2 ^ p) := by ring
    rw [e] at hb
    have hx0 : (0 : ℚ) ≤ vs.length * (1 / 2 ^ p) := by positivity
    generalize (vs.length : ℚ) * (1 / 2 ^ p) = x at *
    generalize (1 + 1 / 2 ^ p : ℚ) ^ vs.length = P at *
    have := mul_le_mul_of_nonneg_left hb (by linarith : (0 : ℚ) ≤ P)
    have hPx : P * (1 - x) ≤ 1 := this.trans hb'
    have hP : P ≤ 1.002 := by nlinarith
    nlinarith
  have g0 : 0 ≤ (1 + 1 / 2 ^ p : ℚ) ^ vs.length - 1 := by linarith
  have hA : 0 ≤ |start| + (vs.map (|·|)).sum := add_nonneg (abs_nonneg _) (sum_abs_nonneg vs)
  have hx0 : (0 : ℚ) ≤ vs.length * (1 / 2 ^ p) := by positivity
  generalize (vs.length : ℚ) * (1 / 2 ^ p) = x at *
  generalize (1 + 1 / 2 ^ p : ℚ) ^ vs.length - 1 = g at *
  generalize |start| + (vs.map (|·|)).sum = A at *
  generalize start + vs.sum = T at *
  generalize roundedSum fl start vs = S at *
  generalize roundedSum fl 0 (losses fl start vs) = E at *
  generalize ((losses fl start vs).map (|·|)).sum = LA at *
  generalize (losses fl start vs).sum = L at *
  have e3 : |E - L| ≤ g * (g * A) := e1.trans (mul_le_mul_of_nonneg_left e2 g0)
  have e4 : |E - L| ≤ 1.0041 * (x ^ 2 * A) := by
    have : g * g ≤ 1.0041 * x ^ 2 := by nlinarith
    have := mul_le_mul_of_nonneg_right this hA
    nlinarith
  have e5 := hr (S + E)
  have e6 : S + E - T = E - L := by linarith
  have e7 : |S + E| ≤ |T| + |E - L| := by
    have := abs_add_le (S + E - T) T
    rw [sub_add_cancel, e6] at this
    linarith
  have e8 : fl (S + E) - T = (fl (S + E) - (S + E)) + (E - L) := by rw [← e6]; ring
  rw [e8]
  refine (abs_add_le _ _).trans ?_
  have e9 : (1 / 2 ^ p : ℚ) * |S + E| ≤ 1 / 2 ^ p * |T| + 1 / 2 ^ p * |E - L| := by
    rw [← mul_add]; exact mul_le_mul_of_nonneg_left e7 hε
  have e10 : (1 / 2 ^ p : ℚ) * |E - L| ≤ 1 / 1000 * |E - L| := mul_le_mul_of_nonneg_right hεn (abs_nonneg _)
  nlinarith [mul_nonneg (sq_nonneg x) hA]

/-- Three numbers in double precision. -/
example : |(K.addAll (rn 53) (K.init 1) [2 ^ 60, 1 / 2, -2 ^ 60]).toDouble (rn 53) - 3 / 2| ≤ 1 / 1000000000000 := by
  have h := kahan_accurate (p := 53) (by norm_num) (rn_nearest (by norm_num)) (start := 1) ⟨1, 0, by norm_num, by norm_num⟩ [2 ^ 60, 1 / 2, -2 ^ 60] (by
    intro v hv
    simp only [List.mem_cons, List.not_mem_nil, or_false] at hv
    rcases hv with rfl | rfl | rfl
    · exact ⟨1, 60, by norm_num, by norm_num⟩
    · exact ⟨1, -1, by norm_num, by norm_num⟩
    · exact ⟨-1, 60, by norm_num, by norm_num⟩) (by norm_num)
  have e : (1 : ℚ) + [(2 : ℚ) ^ 60, 1 / 2, -2 ^ 60].sum = 3 / 2 := by norm_num
  rw [e] at h
  refine h.trans ?_
  norm_num

end Verif.Kahan
