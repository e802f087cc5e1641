import Verif.Spec.Clock
import Mathlib.Algebra.Order.Field.Rat
import Mathlib.Data.Rat.Cast.Order
import Mathlib.Tactic.Linarith
import Mathlib.Tactic.Ring
import Mathlib.Tactic.NormNum
import Mathlib.Tactic.FieldSimp
/-
C64: stop watch.
-/
namespace Verif.Clock
open Verif

/-- C64: after any history the total is the sum of the measured intervals and the sample count is their
number. -/
theorem clock_totals (c : C) (evs : List Ev) :
    (evs.foldl step c).total = c.total + (intervals c.start evs).sum ∧
    (evs.foldl step c).samples = c.samples + (intervals c.start evs).length := by
  induction evs generalizing c with
  | nil => simp [intervals]
  | cons ev evs ih =>
    cases ev with
    | start t =>
      obtain ⟨h1, h2⟩ := ih (c.doStart t)
      exact ⟨h1, h2⟩
    | stop t =>
      obtain ⟨h1, h2⟩ := ih (c.doStop t)
      simp only [List.foldl, step, intervals, List.sum_cons, List.length_cons]
      rw [h1, h2]
      simp only [C.doStop]
      push_cast
      omega

/-- C64 (partial): with at least one sample and non-negative measured time, the reported average is the
true average (in microseconds) rounded down to an integer. Missing: the fraction is lost
(`clock_average_fails`), and with no sample the call is undefined (`clock_no_sample_fails`). -/
theorem clock_average_partial (name : List Nat) (hn : name.length < 24) (evs : List Ev)
    (hne : intervals 0 evs ≠ []) (h0 : 0 ≤ (intervals 0 evs).sum) :
    ∃ c a, C.new name = .ok c ∧ (evs.foldl step c).average = .ok a ∧
      (a : ℚ) ≤ ((intervals 0 evs).sum : ℚ) / 1000 / (intervals 0 evs).length ∧
      ((intervals 0 evs).sum : ℚ) / 1000 / (intervals 0 evs).length < a + 1 := by
  obtain ⟨h1, h2⟩ := clock_totals ⟨0, 0, 0, name⟩ evs
  simp only [zero_add] at h1 h2
  have hlen : 0 < (intervals 0 evs).length := List.length_pos_iff.mpr hne
  refine ⟨⟨0, 0, 0, name⟩, ((evs.foldl step ⟨0, 0, 0, name⟩).total.tdiv 1000).tdiv (evs.foldl step ⟨0, 0, 0, name⟩).samples,
    by unfold C.new; rw [if_pos (by omega)], ?_, ?_⟩
  · unfold C.average
    rw [if_neg (by rw [h2]; omega)]
    rfl
  · rw [h1, h2]
    generalize (intervals 0 evs).sum = S at *
    generalize (intervals 0 evs).length = n at *
    obtain ⟨S, rfl⟩ := Int.eq_ofNat_of_zero_le h0
    rw [Int.tdiv_eq_ediv_of_nonneg (a := (S : Int)) (by omega), Int.tdiv_eq_ediv_of_nonneg (by positivity)]
    have e : (S : Int) / 1000 / (n : Int) = ((S / (1000 * n) : Nat) : Int) := by
      rw [Int.ediv_ediv_of_nonneg (by norm_num)]
      push_cast
      rfl
    rw [e]
    have hpos : 0 < 1000 * n := by omega
    have a1 := Nat.div_mul_le_self S (1000 * n)
    have a2 := Nat.lt_div_mul_add (a := S) hpos
    have hn' : (0 : ℚ) < n := by exact_mod_cast hlen
    have e2 : ((S : Int) : ℚ) / 1000 / (n : ℚ) = (S : ℚ) / (1000 * n) := by
      push_cast; field_simp
    rw [e2]
    constructor
    · rw [le_div_iff₀ (by positivity)]
      exact_mod_cast a1
    · rw [div_lt_iff₀ (by positivity)]
      have : S < (S / (1000 * n) + 1) * (1000 * n) := by rw [Nat.add_mul, Nat.one_mul]; exact a2
      exact_mod_cast this

/-- Two intervals, of 1000 and 2000. -/
example : ∃ c a, C.new [65, 66] = .ok c ∧ ([Ev.start 0, .stop 1000, .start 5000, .stop 7000].foldl step c).average = .ok a ∧ (a : ℚ) ≤ 3 / 2 ∧ (3 / 2 : ℚ) < a + 1 := by
  obtain ⟨c, a, h1, h2, h3, h4⟩ := clock_average_partial [65, 66] (by decide) [Ev.start 0, .stop 1000, .start 5000, .stop 7000] (by decide) (by decide)
  have e : (intervals 0 [Ev.start 0, .stop 1000, .start 5000, .stop 7000]) = [1000, 2000] := by decide
  rw [e] at h3 h4
  norm_num at h3 h4
  exact ⟨c, a, h1, h2, h3, h4⟩

/-- C64 fails: two samples of 1 and 2 microseconds average to 1.5, the clock reports 1. -/
theorem clock_average_fails : ∃ c, C.new [] = .ok c ∧
    ([Ev.start 0, .stop 1000, .start 5000, .stop 7000].foldl step c).average = .ok 1 ∧
    intervals 0 [Ev.start 0, .stop 1000, .start 5000, .stop 7000] = [1000, 2000] :=
  ⟨_, rfl, by decide, rfl⟩

/-- C64 fails: asking a clock without samples for its average divides by zero. -/
theorem clock_no_sample_fails : ∃ c, C.new [67] = .ok c ∧ c.average = .ub := ⟨_, rfl, rfl⟩

/-- C64: a copy is the clock it was made from, and further events on either do not touch the other. -/
theorem clock_copy (c : C) (evs : List Ev) :
    (c.copy).average = c.average ∧ (c.copy).totalMicro = c.totalMicro ∧ (c.copy).name = c.name ∧
    evs.foldl step c.copy = evs.foldl step c := ⟨rfl, rfl, rfl, rfl⟩

/-- Averages of two clocks with samples. -/
theorem averages {a b : C} (ha : 0 < a.samples) (hb : 0 < b.samples) (ta : 0 ≤ a.total) (tb : 0 ≤ b.total) :
    a.average = .ok (a.total / (1000 * a.samples)) ∧ b.average = .ok (b.total / (1000 * b.samples)) := by
  have key : ∀ c : C, 0 < c.samples → 0 ≤ c.total → c.average = .ok (c.total / (1000 * c.samples)) := by
    intro c h t
    unfold C.average C.totalMicro
    rw [if_neg (by omega), Int.tdiv_eq_ediv_of_nonneg t, Int.tdiv_eq_ediv_of_nonneg (by positivity),
      Int.ediv_ediv_of_nonneg (by norm_num)]
  exact ⟨key a ha ta, key b hb tb⟩

/-- C64 (partial): if `is_faster` answers yes, the mean of the samples is really smaller. Missing: the converse, which
fails for means in the same microsecond (`clock_faster_fails`). -/
theorem clock_faster_partial {a b : C} (ha : 0 < a.samples) (hb : 0 < b.samples) (ta : 0 ≤ a.total) (tb : 0 ≤ b.total) :
    ∃ r, a.isFaster b = .ok r ∧
      (r = true → (a.total : ℚ) / a.samples < (b.total : ℚ) / b.samples) ∧
      ((a.total : ℚ) / a.samples + 1000 ≤ (b.total : ℚ) / b.samples → r = true) := by
  obtain ⟨h1, h2⟩ := averages ha hb ta tb
  unfold C.isFaster
  rw [h1, h2]
  refine ⟨_, rfl, ?_, ?_⟩
  all_goals
    have pa : (0 : ℚ) < a.samples := by exact_mod_cast ha
    have pb : (0 : ℚ) < b.samples := by exact_mod_cast hb
    have ea := Int.mul_ediv_add_emod a.total (1000 * a.samples)
    have eb := Int.mul_ediv_add_emod b.total (1000 * b.samples)
    have ra := Int.emod_nonneg a.total (show 1000 * a.samples ≠ 0 by omega)
    have ra2 := Int.emod_lt_of_pos a.total (show 0 < 1000 * a.samples by omega)
    have rb := Int.emod_nonneg b.total (show 1000 * b.samples ≠ 0 by omega)
    have rb2 := Int.emod_lt_of_pos b.total (show 0 < 1000 * b.samples by omega)
    generalize a.total / (1000 * a.samples) = x at *
    generalize b.total / (1000 * b.samples) = y at *
    generalize a.total % (1000 * a.samples) = u at *
    generalize b.total % (1000 * b.samples) = w at *
    have eA : (a.total : ℚ) / a.samples = 1000 * x + u / a.samples := by
      rw [← ea]; push_cast; field_simp
    have eB : (b.total : ℚ) / b.samples = 1000 * y + w / b.samples := by
      rw [← eb]; push_cast; field_simp
    have uA : (u : ℚ) / a.samples < 1000 := by
      rw [div_lt_iff₀ pa]; exact_mod_cast ra2
    have uA0 : 0 ≤ (u : ℚ) / a.samples := by
      exact div_nonneg (by exact_mod_cast ra) pa.le
    have uB : (w : ℚ) / b.samples < 1000 := by
      rw [div_lt_iff₀ pb]; exact_mod_cast rb2
    have uB0 : 0 ≤ (w : ℚ) / b.samples := by
      exact div_nonneg (by exact_mod_cast rb) pb.le
    rw [eA, eB]
  · intro h
    have h : x < y := by simpa using h
    have : (x : ℚ) + 1 ≤ y := by exact_mod_cast h
    linarith
  · intro h
    have : (x : ℚ) < y := by linarith
    have : x < y := by exact_mod_cast this
    simpa using this

example : (⟨0, 2000, 2, []⟩ : C).isFaster ⟨0, 6000, 2, []⟩ = .ok true := by
  obtain ⟨r, e, _, h⟩ := clock_faster_partial (a := ⟨0, 2000, 2, []⟩) (b := ⟨0, 6000, 2, []⟩) (by decide) (by decide) (by decide) (by decide)
  rw [e, h (by norm_num)]

/-- C64 fails: samples of 1.2 and 1.8 microseconds; neither clock is faster than the other. -/
theorem clock_faster_fails : ∃ a b : C, a.samples = 1 ∧ b.samples = 1 ∧ a.total < b.total ∧
    a.isFaster b = .ok false ∧ b.isFaster a = .ok false :=
  ⟨⟨0, 1200, 1, []⟩, ⟨0, 1800, 1, []⟩, rfl, rfl, by decide, by decide, by decide⟩

/-- C64 (partial): `compare` prints the relative difference of the two means, if they are whole microseconds and the
reference is not zero. Missing: other means (`clock_compare_fails`). -/
theorem clock_compare_partial {a b : C} (ha : 0 < a.samples) (hb : 0 < b.samples) {x y : Int} (hx : 0 ≤ x) (hy : 0 < y)
    (ta : a.total = 1000 * x * a.samples) (tb : b.total = 1000 * y * b.samples) :
    a.compare b = .ok (some (100 * ((a.total : ℚ) / a.samples - (b.total : ℚ) / b.samples) /
      ((b.total : ℚ) / b.samples))) := by
  obtain ⟨h1, h2⟩ := averages ha hb (by rw [ta]; positivity) (by rw [tb]; positivity)
  have q : ∀ z s : Int, 0 < s → 1000 * z * s / (1000 * s) = z := by
    intro z s hs
    rw [show 1000 * z * s = z * (1000 * s) by ring, Int.mul_ediv_cancel _ (by omega)]
  unfold C.compare
  rw [h1, h2, ta, tb, q _ _ ha, q _ _ hb]
  show Res.ok _ = _
  rw [if_neg (by omega)]
  have pa : (a.samples : ℚ) ≠ 0 := by
    have : a.samples ≠ 0 := by omega
    exact_mod_cast this
  have pb : (b.samples : ℚ) ≠ 0 := by
    have : b.samples ≠ 0 := by omega
    exact_mod_cast this
  have py : (y : ℚ) ≠ 0 := by
    have : y ≠ 0 := by omega
    exact_mod_cast this
  congr 2
  push_cast
  field_simp

/-- C64 fails: with a reference mean below one microsecond `compare` divides by zero. -/
theorem clock_compare_fails : ∃ a b : C, a.samples = 1 ∧ b.samples = 1 ∧ a.total = 1800 ∧ b.total = 900 ∧
    a.compare b = .ok none := ⟨⟨0, 1800, 1, []⟩, ⟨0, 900, 1, []⟩, rfl, rfl, rfl, rfl, rfl⟩

example : (⟨0, 6000, 2, []⟩ : C).compare ⟨0, 4000, 2, []⟩ = .ok (some 50) := by
  rw [clock_compare_partial (x := 3) (y := 2) (by decide) (by decide) (by decide) (by decide) (by decide) (by decide)]
  norm_num

example : intervals 0 [Ev.start 0, .stop 1000, .start 5000, .stop 7000] ≠ [] ∧
    0 ≤ (intervals 0 [Ev.start 0, .stop 1000, .start 5000, .stop 7000]).sum := by decide

end Verif.Clock
