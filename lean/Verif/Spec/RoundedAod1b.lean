import Verif.Spec.Aod1bHistory
import Verif.Spec.Rounding
/-
Accuracy of coefficients interpolated between data sets.
-/
namespace Verif.RoundedAod1b
open Verif Verif.Aod1b Verif.Rounding

variable {T : Type}

/-- The library's difference of two epochs in days is right up to four half units in the last place of the difference, or of 1 if it is small. -/
def DayDifference (day : T → ℝ) (dd : T → T → ℝ) : Prop := ∀ a b, |dd a b - (day a - day b)| ≤ 4 * u * (|day a - day b| + 1)

/-- How far the rounded value at `t` may be from the line through `(e1, v1)` and `(e2, v2)`: with the weights of `v1` and `v2`, each increased by 1; between
the two epochs the weights are at most 1. -/
noncomputable def slack (day : T → ℝ) (t e1 e2 : T) (v1 v2 : ℝ) : ℝ :=
  (14 + 8 / (day e2 - day e1)) * u *
    ((1 + |(day e2 - day t) / (day e2 - day e1)|) * |v1| + (1 + |(day t - day e1) / (day e2 - day e1)|) * |v2|)

/-- `cs'` has the size of `cs` and, if the data sets are an hour or more apart, holds the values at `t` of the lines through their values, up to rounding. Elements
outside the triangle of `cs` are as they were. -/
def NearLine (day : T → ℝ) (n : Int) (t : T) (s1 s2 : DataSet T) (cs cs' : Coeffs ℝ) : Prop :=
  (cs'.deg = cs.deg ∧ cs'.ord = cs.ord ∧ cs'.rows = cs.rows ∧ cs'.gm = cs.gm ∧ cs'.re = cs.re ∧ cs'.normalized = cs.normalized) ∧
  (∀ l m : Nat, ¬(m ≤ l ∧ (l : Int) ≤ cs.deg ∧ (m : Int) ≤ cs.ord) → cs'.C l m = cs.C l m ∧ cs'.S l m = cs.S l m) ∧
  (day s1.epoch + 1 / 24 ≤ day s2.epoch → ∀ l m : Nat, m ≤ l → (l : Int) ≤ cs.deg → (m : Int) ≤ cs.ord →
    (let v1 := lastValue n n Row.C s1.rows l m
     let v2 := lastValue n n Row.C s2.rows l m
     |cs'.C l m - lineAt day t s1.epoch s2.epoch v1 v2| ≤ slack day t s1.epoch s2.epoch v1 v2) ∧
    (let v1 := lastValue n n Row.S s1.rows l m
     let v2 := lastValue n n Row.S s2.rows l m
     |cs'.S l m - lineAt day t s1.epoch s2.epoch v1 v2| ≤ slack day t s1.epoch s2.epoch v1 v2))

/-- A status and a set of coefficients are the answer, as `Answered`, up to rounding. -/
def Answered [LinearOrder T] (day : T → ℝ) (n : Int) (q : T × Coeffs ℝ) (r : Int × Coeffs ℝ) : Option (DataSet T × DataSet T) → Prop
  | some (s1, s2) => r.1 = 0 ∧ s1.epoch ≤ q.1 ∧ s1.epoch < s2.epoch ∧ NearLine day n q.1 s1 s2 q.2 r.2
  | none => r.1 = 1 ∧ r.2 = q.2

end Verif.RoundedAod1b
