import Verif.Spec.Rounding
import Verif.Model.Eop
/-
Differences of epochs as doubles, and the size of an interpolation.
-/
namespace Verif.RoundedEop
open Verif Verif.Eop Verif.Rounding

/-- The difference of two epochs in days, formed from whole days and seconds of the day: a few rounding errors in numbers of the size of the
difference or of a day. -/
def DayDifference (dd : ℝ → ℝ → ℝ) : Prop := ∀ a b, |dd a b - (a - b)| ≤ 4 * u * (|a - b| + 1)

/-- Records at least a day apart, in order. -/
def Daily (v : List (Rec ℝ)) : Prop := v.Pairwise fun a b => a.t + 1 ≤ b.t

/-- The sum of the terms of the interpolation formula, without signs, with a day added to the distances from the tabulated epochs:
`Σ_j |q_j| Π_{k≠j} (|t - t_k| + 1) / |t_j - t_k|`. -/
noncomputable def spread (w : List (Rec ℝ)) (t : ℝ) (q : Rec ℝ → ℝ) : ℝ :=
  ∑ j : Fin w.length, |q w[j]| * ∏ k : Fin w.length, if j = k then 1 else (|t - w[k].t| + 1) / |w[j].t - w[k].t|

end Verif.RoundedEop
