import Verif.Spec.EopFile
/-
Series of daily records, and the step from UTC to TT around 2017.
-/
namespace Verif.EdgesCheck
open Verif.Eop

/-- Nine records, one a day from MJD 57750 on, the i-th of them `δ i` days after midnight. -/
def Daily (v : List (Rec ℚ)) (δ : ℕ → ℚ) : Prop := v.length = 9 ∧ ∀ i (h : i < v.length), v[i].t = 57750 + i + δ i ∧ 0 < δ i ∧ δ i < 1

/-- TT is ahead of UTC by less than an hour, and since 2015 by 68 seconds or more (ΔAT is 36 s or more, TT - TAI is 32.184 s). -/
def Ahead (tt : ℚ → ℚ) : Prop := (∀ x, tt x < x + 1 / 24) ∧ ∀ x, 57204 ≤ x → x + 68 / 86400 ≤ tt x

end Verif.EdgesCheck
