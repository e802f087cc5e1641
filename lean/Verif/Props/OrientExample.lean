import Verif.Model.OrientExample
import Verif.Props.OrientCheck
/-
C99: the example program that interpolates a file of Earth orientation.
-/
namespace Verif.Orient
open Verif Verif.Eop
open Verif.Costg (Recorded)

/-- The numbers of a line, with UT1-TAI in place of UT1-UTC and the zonal tides added. -/
noncomputable def shown (dat : ℝ → ℝ) (t : ℝ) (e : Rec ℝ) : Eops :=
  ⟨e.xp, e.yp, e.dut - dat t + zonalUT1 (centuries t), e.lod + zonalLod (centuries t), e.dX, e.dY⟩

theorem example_turns (dat : ℝ → ℝ) {recs : List (Rec ℚ)} (hs : Sorted recs) (tt : Iau.Epoch) (h1 : ∃ r ∈ recs, (r.t : ℝ) ≤ mjd tt)
    (h2 : ∃ r ∈ recs, mjd tt < (r.t : ℝ)) : ∀ (n : Nat) {s : Series ℝ} (old : Rec ℝ) (ls : List (Rec ℝ)), Holding recs s →
    (∀ l ∈ ls, OrientedAt recs (mjd tt) (shown dat (mjd tt) l)) →
    ∃ s' e ls', Example.turns dat n (.running s tt old ls) = .ok (.running s' tt e ls') ∧ ls'.length = ls.length + n ∧
      ∀ l ∈ ls', OrientedAt recs (mjd tt) (shown dat (mjd tt) l)
  | 0, s, old, ls, _, hl => ⟨s, old, ls, rfl, rfl, hl⟩
  | n + 1, s, old, ls, hh, hl => by
    obtain ⟨s', e, q1, q2, q3⟩ := interpolated_at dat hs hh tt old h1 h2
    obtain ⟨s'', e', ls', p1, p2, p3⟩ := example_turns dat hs tt h1 h2 n (s := s') e (e :: ls) q2 (by
      intro l hm
      rcases List.mem_cons.mp hm with rfl | hm
      · exact q3
      · exact hl l hm)
    refine ⟨s'', e', ls', ?_, by rw [p2, List.length_cons]; omega, p3⟩
    obtain ⟨r, hr, hlt⟩ := h2
    obtain ⟨pre, z, rfl⟩ := (List.eq_nil_or_concat recs).resolve_left (by rintro rfl; simp at hr)
    have hz : mjd tt < (z.t : ℝ) := by
      simp only [List.concat_eq_append, List.mem_append, List.mem_cons, List.not_mem_nil, or_false] at hr
      rcases hr with hr | rfl
      · rw [List.concat_eq_append] at hs
        have := (List.pairwise_append.mp hs).2.2 r hr z (by simp)
        exact hlt.trans ((Rat.cast_lt (K := ℝ)).mpr this)
      · exact hlt
    have hlast : s.vec.getLast? = some (reg z) := by rw [hh.vec]; simp
    rw [Example.turns, Example.step, hlast]
    simp only
    rw [if_pos (show (tt.mjd : ℝ) + tt.f < (reg z).t from hz), q1]
    simp only [Res.bind, if_true]
    exact p1

theorem mjd_epochOfMjd (t : ℝ) : mjd (epochOfMjd t) = t := Int.floor_add_fract t

/-- C99: the example of the interpolation does not end: `add_seconds` leaves its epoch unchanged. After any number of turns of its loop the program is still
running and has printed as many lines, all of them for the first record. -/
theorem eop_example_fails (tt dat : ℚ → ℚ) (datTT : ℝ → ℝ) {junkE : List ℚ} (hj : 8 ≤ junkE.length) (old : Rec ℝ) {eop : List (List Char)}
    {rs : List (Rec ℚ)} (he : Recorded tt dat eop rs) {r : Rec ℚ} {rest : List (Rec ℚ)}
    (hr : (rs.filter fun r => 57750 ≤ r.t ∧ r.t < 57759) = r :: rest) (h9 : rest.length = 8) (n : Nat) :
    ∃ s e ls, eopExample tt dat datTT junkE old (some eop) n = .ok (.running s (epochOfMjd r.t) e ls) ∧ ls.length = n ∧
      ∀ l ∈ ls, OrientedAt (r :: rest) r.t (shown datTT r.t l) := by
  obtain ⟨ser, e1, e2, e3⟩ := series_of tt dat hj he (a := 57750) (b := 57759) (by norm_num)
  rw [hr] at e2 e3
  obtain ⟨r2, rest', rfl⟩ := List.exists_cons_of_ne_nil (l := rest) (by rintro rfl; simp at h9)
  have hm := mjd_epochOfMjd r.t
  obtain ⟨s, e, ls, p1, p2, p3⟩ := example_turns datTT e3 (epochOfMjd r.t) ⟨r, by simp, by rw [hm]⟩
    ⟨r2, by simp, by rw [hm]; exact (Rat.cast_lt (K := ℝ)).mpr ((List.pairwise_cons.mp e3).1 r2 (by simp))⟩ n old [] e2 (by simp)
  rw [hm] at p3
  refine ⟨s, e, ls, ?_, by simpa using p2, p3⟩
  unfold eopExample
  rw [e1]
  simp only [Res.bind]
  have hv : ser.vec = reg r :: (r2 :: rest').map reg := e2.vec
  rw [if_pos (by rw [hv, List.length_cons, List.length_map, h9]), hv]
  exact p1

/-- C99: with any other number of records from 28 December 2016 to 5 January 2017 the example stops at its assertion. -/
theorem eop_example_count (tt dat : ℚ → ℚ) (datTT : ℝ → ℝ) {junkE : List ℚ} (hj : 8 ≤ junkE.length) (old : Rec ℝ) {eop : List (List Char)}
    {rs : List (Rec ℚ)} (he : Recorded tt dat eop rs) (h9 : (rs.filter fun r => 57750 ≤ r.t ∧ r.t < 57759).length ≠ 9) (n : Nat) :
    eopExample tt dat datTT junkE old (some eop) n = .abort := by
  obtain ⟨ser, e1, e2, e3⟩ := series_of tt dat hj he (a := 57750) (b := 57759) (by norm_num)
  unfold eopExample
  rw [e1]
  simp only [Res.bind]
  rw [if_neg (by rw [e2.vec, List.length_map]; exact h9)]

/-- The file of the example of C94 begins in 2018. -/
example (old : Rec ℝ) (n : Nat) :
    eopExample Costg.exTT (fun _ => 37) (fun _ => 37) (List.replicate 8 2) old (some Costg.exC04) n = .abort :=
  eop_example_count Costg.exTT (fun _ => 37) (fun _ => 37) (by simp) old Costg.exRecorded (by decide +kernel) n

open Verif.Chars in
/-- Nine days of Earth orientation in the format C04/14. -/
def nineDays : List String := ["57750", "57751", "57752", "57753", "57754", "57755", "57756", "57757", "57758"]
def dayLine (m : String) : List Char := "2016  12  28".toList ++ ("  ".toList ++ (m.toList ++ Costg.joined (Costg.dC04 "2166")))
def nineLines : List (List Char) := [' ' :: h1c0414, ' ' :: h2c0414, ' ' :: h3c0414] ++ nineDays.map dayLine
def nineRecs : List (Rec ℚ) := [57750, 57751, 57752, 57753, 57754, 57755, 57756, 57757, 57758].map fun k : Int => ⟨Costg.exTT k, 0.059, 0.247, 0.2166, 0.0005, 0, 0, 37, 0, 0⟩

open Verif.Chars in
theorem day_line {m : String} (k : Int) (h1 : m.toList ≠ []) (h2 : ∀ c ∈ m.toList, isDig c) (h3 : (⟨false, m.toList⟩ : IntText).value = k)
    (h4 : -2147483648 ≤ k) (h5 : k ≤ 2147483647) :
    Is14 Costg.exTT (fun _ => 37) (dayLine m) ⟨Costg.exTT k, 0.059, 0.247, 0.2166, 0.0005, 0, 0, 37, 0, 0⟩ := by
  refine ⟨k, _, _, ⟨"2016  12  28".toList, rfl, rfl, by rw [← isComment_iff]; decide⟩,
    ⟨2, ⟨false, m.toList⟩, ⟨h1, h2⟩, h3, rfl, by decide +kernel, h4, h5⟩, ?_, rfl, rfl, rfl, rfl⟩
  have : LineIs (Costg.joined (Costg.dC04 "2166")) ((Costg.dC04 "2166").map Dec.value) := by
    refine Costg.joined_is _ fun d hd => ?_
    simp only [Costg.dC04, List.mem_cons, List.not_mem_nil, or_false] at hd
    rcases hd with rfl | rfl | rfl | rfl | rfl | rfl <;> exact Dec.ok_of (by decide)
  rwa [show (Costg.dC04 "2166").map Dec.value = [0.059, 0.247, 0.2166, 0.0005, 0, 0] from by decide +kernel] at this

open Verif.Chars in
theorem nine_recorded : Recorded Costg.exTT (fun _ => 37) nineLines nineRecs where
  holds := by
    refine ⟨false, by decide +kernel, ?_⟩
    refine .comment (by decide) (.inr ⟨_, .inl rfl⟩) (.comment (by decide) (.inr ⟨_, .inl rfl⟩) (.comment (by decide) (.inr ⟨_, .inl rfl⟩) ?_))
    show Holds (Is14 Costg.exTT fun _ => 37) (nineDays.map dayLine) nineRecs
    exact .data (by decide +kernel) (day_line 57750 (by decide) (by decide) (by decide) (by decide) (by decide)) (.data (by decide +kernel) (day_line 57751 (by decide) (by decide) (by decide) (by decide) (by decide)) (.data (by decide +kernel) (day_line 57752 (by decide) (by decide) (by decide) (by decide) (by decide)) (.data (by decide +kernel) (day_line 57753 (by decide) (by decide) (by decide) (by decide) (by decide)) (.data (by decide +kernel) (day_line 57754 (by decide) (by decide) (by decide) (by decide) (by decide)) (.data (by decide +kernel) (day_line 57755 (by decide) (by decide) (by decide) (by decide) (by decide)) (.data (by decide +kernel) (day_line 57756 (by decide) (by decide) (by decide) (by decide) (by decide)) (.data (by decide +kernel) (day_line 57757 (by decide) (by decide) (by decide) (by decide) (by decide)) (.data (by decide +kernel) (day_line 57758 (by decide) (by decide) (by decide) (by decide) (by decide)) .nil))))))))
  sorted := by unfold Sorted; decide +kernel

/-- A million turns of the loop. -/
example (old : Rec ℝ) : ∃ s e ls r, eopExample Costg.exTT (fun _ => 37) (fun _ => 37) (List.replicate 8 2) old (some nineLines) 1000000 =
    .ok (.running s (epochOfMjd r) e ls) ∧ ls.length = 1000000 := by
  have hf : (nineRecs.filter fun r => 57750 ≤ r.t ∧ r.t < 57759) = nineRecs := List.filter_eq_self.mpr (by decide +kernel)
  obtain ⟨s, e, ls, h1, h2, -⟩ := eop_example_fails Costg.exTT (fun _ => 37) (fun _ => 37) (junkE := List.replicate 8 2) (by simp) old nine_recorded
    (r := nineRecs.head (by decide)) (rest := nineRecs.tail) (by rw [hf]; exact (List.cons_head_tail _).symm) (by decide) 1000000
  exact ⟨s, e, ls, _, h1, h2⟩

end Verif.Orient
