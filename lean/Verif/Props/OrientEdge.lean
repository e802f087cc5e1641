import Verif.Props.OrientCheck
/-
C99: what the window of records of tcheck_eops does to the degree of the interpolation.
-/
namespace Verif.Orient
open Verif Verif.Eop Verif.EopTides Polynomial

/-- A record of a day on which the correction of the CIP is the square of the days since the first. -/
def squareRec (i : ℕ) : Rec ℚ := ⟨58000 + i, 0, 0, 0, 0, (i : ℚ) ^ 2, 0, 37, 0, 0⟩

def squareRecs : List (Rec ℚ) := (List.range 6).map squareRec

theorem squareRecs_eq : squareRecs = [squareRec 0, squareRec 1, squareRec 2, squareRec 3, squareRec 4, squareRec 5] := rfl

/-- There is an Earth orientation at every epoch between the records. -/
theorem oriented_exists {recs : List (Rec ℚ)} (hs : Sorted recs) (t : ℚ) (h1 : ∃ r ∈ recs, r.t ≤ t) (h2 : ∃ r ∈ recs, t < r.t) :
    ∃ e, OrientedAt recs t e := by
  set tt : Iau.Epoch := ⟨⌊(t : ℝ)⌋, Int.fract (t : ℝ), Int.fract_nonneg _, Int.fract_lt_one _⟩
  have ht : mjd tt = t := Int.floor_add_fract (t : ℝ)
  have hh : Holding recs ⟨recs.map reg, 0, some (recs.map reg).length⟩ := ⟨rfl, ⟨_, rfl, le_rfl⟩⟩
  obtain ⟨r1, m1, l1⟩ := h1
  obtain ⟨r2, m2, l2⟩ := h2
  obtain ⟨s', e, -, -, h⟩ := oriented_at (fun _ => 37) hs hh tt (reg r1) ⟨r1, m1, by rw [ht]; exact_mod_cast l1⟩ ⟨r2, m2, by rw [ht]; exact_mod_cast l2⟩
  rw [ht] at h
  exact ⟨_, h⟩

theorem square_sorted : Sorted squareRecs := by
  rw [squareRecs_eq]
  unfold Sorted squareRec
  decide +kernel

/-- C99: the degree asked of the interpolation is five, but tcheck_eops reads the records of four days only. With daily records the
interpolation degrades to a straight line for epochs more than a day after the first, without a message, although the file holds the records
for degree five: here a correction of the CIP that grows with the square of time comes out as 6.5 arcseconds in place of 6.25. -/
theorem check_eops_linear_fails : ∃ (rs : List (Rec ℚ)) (first t : ℚ), Sorted rs ∧ first ≤ t ∧ t < first + 2 ∧
    (∃ l r, Nearest rs t l r ∧ l.length = 3) ∧
    ∃ e e', OrientedAt (rs.filter fun r => first - 2 ≤ r.t ∧ r.t < first + 2) t e ∧ OrientedAt rs t e' ∧ e.dX = 6.5 ∧ e'.dX = 6.25 := by
  have hw : (squareRecs.filter fun r => (58001.2 : ℚ) - 2 ≤ r.t ∧ r.t < 58001.2 + 2) = [squareRec 0, squareRec 1, squareRec 2, squareRec 3] := by
    decide +kernel
  have hsw : Sorted [squareRec 0, squareRec 1, squareRec 2, squareRec 3] := by
    unfold Sorted squareRec
    decide +kernel
  have n1 : Nearest [squareRec 0, squareRec 1, squareRec 2, squareRec 3] ((58002.5 : ℚ) : ℝ) [squareRec 2] [squareRec 3] := by
    refine ⟨⟨[squareRec 0, squareRec 1], [], rfl, by simp⟩, ?_, ?_, rfl, by simp, by simp⟩
    · intro x hx
      simp only [List.mem_singleton] at hx
      subst hx
      simp only [squareRec]; norm_num
    · intro x hx
      simp only [List.mem_singleton] at hx
      subst hx
      simp only [squareRec]; norm_num
  have n2 : Nearest squareRecs ((58002.5 : ℚ) : ℝ) [squareRec 0, squareRec 1, squareRec 2] [squareRec 3, squareRec 4, squareRec 5] := by
    refine ⟨⟨[], [], rfl, by simp⟩, ?_, ?_, rfl, by simp, by simp⟩
    · intro x hx
      simp only [List.mem_cons, List.not_mem_nil, or_false] at hx
      rcases hx with rfl | rfl | rfl <;> simp only [squareRec] <;> norm_num
    · intro x hx
      simp only [List.mem_cons, List.not_mem_nil, or_false] at hx
      rcases hx with rfl | rfl | rfl <;> simp only [squareRec] <;> norm_num
  obtain ⟨e, he⟩ := oriented_exists hsw 58002.5 ⟨squareRec 0, by simp, by simp only [squareRec]; norm_num⟩ ⟨squareRec 3, by simp, by simp only [squareRec]; norm_num⟩
  obtain ⟨e', he'⟩ := oriented_exists square_sorted 58002.5 ⟨squareRec 0, by simp [squareRecs_eq], by simp only [squareRec]; norm_num⟩
    ⟨squareRec 3, by simp [squareRecs_eq], by simp only [squareRec]; norm_num⟩
  refine ⟨squareRecs, 58001.2, 58002.5, square_sorted, by norm_num, by norm_num, ⟨_, _, n2, rfl⟩, e, e', by rw [hw]; exact he, he', ?_, ?_⟩
  · obtain ⟨l, r, a, b, hn, -, -, -, hE⟩ := he
    obtain ⟨rfl, rfl⟩ := nearest_unique hsw hn n1
    refine through_unique (by unfold Sorted squareRec; decide +kernel) hE.dX ⟨C 5 * X + C (-290006), ?_, ?_, ?_⟩
    · refine lt_of_le_of_lt (degree_linear_le) ?_
      norm_num
    · intro r hr
      simp only [List.cons_append, List.nil_append, List.mem_cons, List.not_mem_nil, or_false] at hr
      rcases hr with rfl | rfl <;> simp only [squareRec, eval_add, eval_mul, eval_C, eval_X] <;> norm_num
    · simp only [eval_add, eval_mul, eval_C, eval_X]
      norm_num
  · obtain ⟨l, r, a, b, hn, -, -, -, hE⟩ := he'
    obtain ⟨rfl, rfl⟩ := nearest_unique square_sorted hn n2
    refine through_unique (by unfold Sorted squareRec; decide +kernel) hE.dX ⟨(X - C 58000) ^ 2, ?_, ?_, ?_⟩
    · rw [degree_pow, degree_X_sub_C]
      norm_num
    · intro r hr
      simp only [List.cons_append, List.nil_append, List.mem_cons, List.not_mem_nil, or_false] at hr
      rcases hr with rfl | rfl | rfl | rfl | rfl | rfl <;> simp only [squareRec, eval_pow, eval_sub, eval_C, eval_X] <;> norm_num
    · simp only [eval_pow, eval_sub, eval_C, eval_X]
      norm_num

end Verif.Orient
