import Verif.Proof.Chars
/-
Writing lines of numbers, for examples.
-/
namespace Verif.Chars

/-- The numbers, each with a blank in front. -/
def lineOf (ds : List Dec) : List Char := ds.flatMap fun d => ' ' :: d.text

theorem lineOf_ends (ds : List Dec) : Ends (lineOf ds) := by
  cases ds with
  | nil => intro c hc; simp [lineOf] at hc
  | cons d ds =>
    intro c hc
    simp [lineOf] at hc
    subst hc
    decide

theorem lineOf_is (ds : List Dec) (h : ds.all Dec.okb = true) : LineIs (lineOf ds) (ds.map Dec.value) := by
  induction ds with
  | nil => exact lineOf_ends []
  | cons d ds ih =>
    simp only [List.all_cons, Bool.and_eq_true] at h
    exact ⟨1, d, lineOf ds, Dec.ok_of h.1, rfl, by simp [lineOf], lineOf_ends ds, ih h.2⟩

/-- The same, with the values to be checked. -/
theorem lineOf_vals {ds : List Dec} {l : List Char} {vs : List ℚ} (h : ds.all Dec.okb = true) (hl : l = lineOf ds) (hv : ds.map Dec.value = vs) : LineIs l vs := by
  rw [hl, ← hv]
  exact lineOf_is ds h

end Verif.Chars
