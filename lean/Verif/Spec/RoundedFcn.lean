import Verif.Spec.Fcn
import Verif.Spec.Rounding
/-
Accuracy of the free core nutation.
-/
namespace Verif.RoundedFcn
open Verif Verif.Fcn Verif.Rounding

/-- The library's difference of two epochs in days is right up to four half units in the last place of the difference, or of 1 if it is small. -/
def DayDifference (dd : ℝ → ℝ → ℝ) : Prop := ∀ a b, |dd a b - (a - b)| ≤ 4 * u * (|a - b| + 1)

/-- The epochs of the table increase by a day or more. -/
def Spaced (l : List (Coef ℝ)) : Prop := l.Pairwise fun a b => a.t + 1 ≤ b.t

/-- The real and imaginary parts are at most `M`. -/
def Bounded (M : ℝ) (l : List (Coef ℝ)) : Prop := ∀ c ∈ l, |c.re| ≤ M ∧ |c.im| ≤ M

/-- The uncertainties are at most `S`. -/
def Sure (S : ℝ) (l : List (Coef ℝ)) : Prop := ∀ c ∈ l, |c.sg| ≤ S

/-- The epoch is at most `D` days away from the time the table covers. -/
def Covers (D t : ℝ) (l : List (Coef ℝ)) : Prop := (∃ c ∈ l, c.t ≤ t + D) ∧ ∃ c ∈ l, t ≤ c.t + D

end Verif.RoundedFcn
