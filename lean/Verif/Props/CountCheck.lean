import Verif.Model.CountCheck
import Verif.Props.EdgesCheck
/-
C133: the check of the number of records read from a C04 file.
-/
namespace Verif.CountCheck
open Verif Verif.Eop Verif.Chars
open Verif.EdgesCheck (Ahead)

/-- C133: for a well formed file of either format, in time order, the program succeeds exactly if there are two records with epochs in the two
days (TT). -/
theorem count_check {tt dat : ℚ → ℚ} {junk : List ℚ} (hj : 8 ≤ junk.length) {lines : List (List Char)} {rs : List (Rec ℚ)} (c20 : Bool)
    (hh : chooseSeries (some lines) = some c20) (h : Holds (if c20 then Is20 tt dat else Is14 tt dat) lines rs) (hs : Sorted rs) :
    program tt dat junk 2 (some lines) = if (rs.filter fun r => 57753 ≤ r.t ∧ r.t < 57755).length = 2 then .ok 0 else .abort := by
  obtain ⟨s, h1, h2, -, -⟩ := parseC04_complete tt dat junk hj 57753 57755 (by norm_num) c20 hh h hs Series.new
  unfold program
  rw [if_neg (by simp), h1]
  simp only [Res.bind]
  rw [if_neg (by simp), h2]
  rfl

theorem days {v : List (Rec ℚ)} (hv : Sorted v) {a b : ℚ} (hab : a < b) (h : ∀ r ∈ v, r.t = a ∨ r.t = b) :
    v.length = 2 ↔ (∃ r ∈ v, r.t = a) ∧ ∃ r ∈ v, r.t = b := by
  match v, hv, h with
  | [], _, _ => simp
  | [x], _, _ =>
    simp only [List.length_singleton, List.mem_singleton, exists_eq_left]
    constructor
    · intro h; omega
    · rintro ⟨h1, h2⟩; linarith
  | [x, y], hv, h =>
    have hxy : x.t < y.t := by simpa [Sorted] using hv
    have hx := h x (by simp)
    have hy := h y (by simp)
    refine ⟨fun _ => ⟨⟨x, by simp, ?_⟩, ⟨y, by simp, ?_⟩⟩, fun _ => rfl⟩
    · rcases hx with hx | hx <;> rcases hy with hy | hy <;> linarith
    · rcases hx with hx | hx <;> rcases hy with hy | hy <;> linarith
  | x :: y :: z :: w, hv, h =>
    exfalso
    unfold Sorted at hv
    simp only [List.pairwise_cons] at hv
    have h1 := hv.1 y (by simp)
    have h2 := hv.2.1 z (by simp)
    have hx := h x (by simp)
    have hy := h y (by simp)
    have hz := h z (by simp)
    rcases hx with hx | hx <;> rcases hy with hy | hy <;> rcases hz with hz | hz <;> linarith

/-- C133: for a well formed file in the format of 2014, in time order, the program succeeds exactly if the file has the days 57753 and 57754, the
last of 2016 and the first of 2017. -/
theorem count_check_days {tt dat : ℚ → ℚ} (htt : Ahead tt) {junk : List ℚ} (hj : 8 ≤ junk.length) {lines : List (List Char)} {rs : List (Rec ℚ)}
    (hh : chooseSeries (some lines) = some false) (h : Holds (Is14 tt dat) lines rs) (hs : Sorted rs) :
    program tt dat junk 2 (some lines) = .ok 0 ↔ (∃ r ∈ rs, r.t = tt 57753) ∧ ∃ r ∈ rs, r.t = tt 57754 := by
  rw [count_check hj false hh h hs]
  have a1 := htt.1 57753
  have a2 := htt.2 57753 (by norm_num)
  have b1 := htt.1 57754
  have b2 := htt.2 57754 (by norm_num)
  have whole : ∀ r ∈ rs, ∃ n : ℤ, r.t = tt n := by
    have hm : ∀ {ls : List (List Char)} {rs : List (Rec ℚ)}, Eop.Holds (Is14 tt dat) ls rs → ∀ r ∈ rs, ∃ n : ℤ, r.t = tt n := by
      intro ls rs h
      induction h with
      | nil => simp
      | comment _ _ _ ih => exact ih
      | data _ hl _ ih =>
        intro r hr
        rcases List.mem_cons.mp hr with rfl | hr
        · obtain ⟨mjd, -, -, -, -, -, ht, -⟩ := hl
          exact ⟨mjd, ht⟩
        · exact ih r hr
    exact hm h
  have two : ∀ r ∈ rs.filter fun r => 57753 ≤ r.t ∧ r.t < 57755, r.t = tt 57753 ∨ r.t = tt 57754 := by
    intro r hr
    obtain ⟨hr, hb⟩ := List.mem_filter.mp hr
    simp only [decide_eq_true_eq] at hb
    obtain ⟨n, hn⟩ := whole r hr
    rw [hn] at hb
    have g1 := htt.1 n
    have lo : (57752 : ℤ) < n := by
      have : (57752 : ℚ) < n := by linarith [hb.1]
      exact_mod_cast this
    have lo' : (57204 : ℚ) ≤ n := by exact_mod_cast (show (57204 : ℤ) ≤ n by omega)
    have g2 := htt.2 n lo'
    have hi : n < (57755 : ℤ) := by
      have : (n : ℚ) < 57755 := by linarith [hb.2]
      exact_mod_cast this
    rw [hn]
    rcases (show n = 57753 ∨ n = 57754 by omega) with rfl | rfl
    · exact Or.inl (by norm_num)
    · exact Or.inr (by norm_num)
  have hd := days (hs.filter _) (a := tt 57753) (b := tt 57754) (by linarith) two
  have inn : ∀ c : ℚ, 57753 ≤ c → c < 57755 → ((∃ r ∈ rs.filter fun r => 57753 ≤ r.t ∧ r.t < 57755, r.t = c) ↔ ∃ r ∈ rs, r.t = c) := by
    intro c h1 h2
    constructor
    · rintro ⟨r, hr, e⟩
      exact ⟨r, (List.mem_filter.mp hr).1, e⟩
    · rintro ⟨r, hr, e⟩
      refine ⟨r, List.mem_filter.mpr ⟨hr, ?_⟩, e⟩
      rw [e]
      simp [h1, h2]
  rw [inn _ (by linarith) (by linarith), inn _ (by linarith) (by linarith)] at hd
  rw [← hd]
  by_cases hl : (rs.filter fun r => 57753 ≤ r.t ∧ r.t < 57755).length = 2
  · simp [hl]
  · simp [hl]

/-- C133: without a file of either format the program reports an error. -/
theorem count_check_no_file (tt dat : ℚ → ℚ) (junk : List ℚ) :
    program tt dat junk 2 none = .ok 1 ∧ ∀ argc file, argc ≠ 2 → program tt dat junk argc file = .ok 1 :=
  ⟨rfl, fun argc file h => by unfold program; rw [if_pos h]⟩

/-- The nine days of `EdgesCheck.file` contain both; without the line of 57754 the check fails. -/
example : program EdgesCheck.toTT EdgesCheck.leaps (List.replicate 8 0) 2 (some EdgesCheck.file) = .ok 0 := by
  have hc : chooseSeries (some EdgesCheck.file) = some false := by decide +kernel
  rw [count_check_days EdgesCheck.toTT_ahead (by simp) hc EdgesCheck.file_holds EdgesCheck.rec_sorted]
  exact ⟨⟨EdgesCheck.rec 3, List.mem_map.mpr ⟨3, by decide, rfl⟩, by decide +kernel⟩, ⟨EdgesCheck.rec 4, List.mem_map.mpr ⟨4, by decide, rfl⟩, by decide +kernel⟩⟩

end Verif.CountCheck
