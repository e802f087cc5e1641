import Verif.Spec.CostgTide
import Verif.Spec.Aod1bFiles
/-
The acceleration by the dealiasing products at an epoch of the benchmark: data sets interpolated in TT.
-/
namespace Verif.Costg
open Verif Verif.Aod1b Verif.Icgem

variable {T : Type}

/-- The value of a coefficient at `x`, linear between two data sets of degree `n`; `day` are the epochs of data sets in days. -/
noncomputable def between (day : T → ℝ) (n : Int) (s1 s2 : DataSet T) (val : Row → ℚ) (x : ℝ) (l m : Nat) : ℝ :=
  ((day s2.epoch - x) * lastValue n n val s1.rows l m + (x - day s1.epoch) * lastValue n n val s2.rows l m) / (day s2.epoch - day s1.epoch)

/-- The potential at `x` from degree 2 to 180. -/
noncomputable def aodAt (gm re : ℚ) (day : T → ℝ) (n : Int) (s1 s2 : DataSet T) (x : ℝ) (r : V3) : ℝ :=
  let V := fun N => Harmonic.potential gm re (between day n s1 s2 Row.C x) (between day n s1 s2 Row.S x) N N r
  V 180 - V 1

/-- The accelerations at the rows of an orbit by data sets, each by the two that follow one another around its epoch in TT. -/
def AodAccels (gm re : ℚ) (day : T → ℝ) (n : Int) (sets : List (DataSet T)) : List (ℚ × List ℚ) → List V3 → Prop :=
  List.Forall₂ fun o g => ∃ s1 s2, Adjacent sets s1 s2 ∧ day s1.epoch ≤ (mjdTT o.1 : ℚ) ∧ ((mjdTT o.1 : ℚ) : ℝ) < day s2.epoch ∧
    Harmonic.IsGradient (aodAt gm re day n s1 s2 (mjdTT o.1 : ℚ)) (three o.2 0) g

end Verif.Costg
