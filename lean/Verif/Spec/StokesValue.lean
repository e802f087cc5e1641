import Verif.Spec.Stokes
import Verif.Model.Coeffs
/-
Sets of Stokes coefficients as values: what the objects of a program hold, and what each operation does to these
values. `Verif.Coeffs` is the value of one set.
-/
namespace Verif.Stokes
open Verif Storage

variable {α : Type}

/-- A matrix of `rows` rows holds the elements `f`; it has room for degree `d`. -/
def MatVal (m : St × List α) (d rows : Nat) (f : Nat → Nat → α) : Prop :=
  MatOk m d ∧ m.1.rows = rows ∧ ∀ i j : Nat, j ≤ i → i < rows → m.2[(m.1.index i j).toNat]? = some (f i j)

/-- Object `k` holds the value `c`. -/
def Sees (s : S α) (k : Nat) (c : Coeffs α) : Prop :=
  ∃ d o : Nat, s.obj k = some (d, o) ∧ c.deg = d ∧ c.ord = o ∧ o ≤ d ∧
    MatVal (s.env (2 * k)) d c.rows c.C ∧ MatVal (s.env (2 * k + 1)) d c.rows c.S

/-- The objects of a program and their values. -/
def Values (α : Type) := Nat → Option (Coeffs α)

/-- Object `k` gets the value `c`. -/
def Values.set (v : Values α) (k : Nat) (c : Coeffs α) : Values α := fun i => if i = k then some c else v i

/-- The state holds these values. -/
def Holds (s : S α) (v : Values α) : Prop :=
  ∀ k, (v k = none → s.obj k = none) ∧ ∀ c, v k = some c → Sees s k c

/-- What an operation does to the values. The contents of new storage (`J`) and the constants of a new set are not
determined. -/
def ValueStep [Add α] [Mul α] [Zero α] (v : Values α) : Op α → Values α → Prop
  | .construct k n m _, v' => ∃ c : Coeffs α, c.deg = n ∧ c.ord = (if 0 < m then m else n) ∧ c.rows = n + 1 ∧
      v' = v.set k c
  | .resize k d o _, v' => ∃ c J c', v k = some c ∧ c.resize J d o = .ok c' ∧ v' = v.set k c'
  | .cresize k d o _, v' => ∃ c J c', v k = some c ∧ c.cresize J d o = .ok c' ∧ v' = v.set k c'
  | .shrink k d o, v' => ∃ c, v k = some c ∧ v' = v.set k (c.shrink d o)
  | .clear k, v' => ∃ c, v k = some c ∧ v' = v.set k c.clear
  | .scale k f, v' => ∃ c, v k = some c ∧ v' = v.set k (c.scale f)
  | .set k b n m x, v' => ∃ c c', v k = some c ∧ (if b = 0 then c.setC n m x else c.setS n m x) = .ok c' ∧
      v' = v.set k c'
  | .add k j, v' => ∃ c d c', v k = some c ∧ v j = some d ∧ c.addAssign d = .ok c' ∧ v' = v.set k c'
  | .copy k j, v' => ∃ d, v j = some d ∧ v' = v.set k d

/-- The operations that throw. -/
def ValueThrows [Add α] (v : Values α) : Op α → Prop
  | .add k j => ∃ c d, v k = some c ∧ v j = some d ∧ c.addAssign d = .throw
  | _ => False

/-- A program run on states: every operation is legal and succeeds. -/
inductive Runs [Add α] [Mul α] [Zero α] : S α → List (Op α) → S α → Prop where
  | nil (s : S α) : Runs s [] s
  | cons {s s1 s' : S α} {op : Op α} {ops : List (Op α)} :
      Pre s op → step s op = .ok s1 → Runs s1 ops s' → Runs s (op :: ops) s'

/-- The same program run on values. -/
inductive ValueRuns [Add α] [Mul α] [Zero α] : Values α → List (Op α) → Values α → Prop where
  | nil (v : Values α) : ValueRuns v [] v
  | cons {v v1 v' : Values α} {op : Op α} {ops : List (Op α)} :
      ValueStep v op v1 → ValueRuns v1 ops v' → ValueRuns v (op :: ops) v'

end Verif.Stokes
