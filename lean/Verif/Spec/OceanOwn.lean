import Verif.Model.OceanOwn
/-
Specification for ownership: objects as plain values. An object either has an admittance model (a value) or none; there are
no pointers.
-/
namespace Verif.OceanOwn

variable {α : Type}

/-- The objects that exist, with the admittance model each of them has, and the models read so far. -/
structure Vals (α : Type) where
  objs : Nat → Option (Option α)
  out : List (Option α)

def Vals.put (v : Vals α) (k : Nat) (x : Option (Option α)) : Vals α :=
  { v with objs := fun i => if i = k then x else v.objs i }

/-- No objects. -/
def Vals.init : Vals α := ⟨fun _ => none, []⟩

/-- What each statement means to a user of the class; `none` for a statement that uses an object that does not exist or constructs
one that does. Moving leaves the source without a model, also when an object is moved to itself. -/
def vstep (v : Vals α) : Op α → Option (Vals α)
  | .create k => if v.objs k = none then some (v.put k (some none)) else none
  | .createWith k g => if v.objs k = none then some (v.put k (some (some g))) else none
  | .copyCreate k j => if v.objs k = none ∧ v.objs j ≠ none then some (v.put k (v.objs j)) else none
  | .moveCreate k j => if v.objs k = none ∧ v.objs j ≠ none then some ((v.put k (v.objs j)).put j (some none)) else none
  | .copyAssign k j => if v.objs k ≠ none ∧ v.objs j ≠ none then some (v.put k (v.objs j)) else none
  | .moveAssign k j => if v.objs k ≠ none ∧ v.objs j ≠ none then some ((v.put k (v.objs j)).put j (some none)) else none
  | .set k g => if v.objs k ≠ none then some (v.put k (some (some g))) else none
  | .eval k => match v.objs k with
    | none => none
    | some x => some { v with out := v.out ++ [x] }
  | .destroy k => if v.objs k ≠ none then some (v.put k none) else none

def vrun (v : Vals α) : List (Op α) → Option (Vals α)
  | [] => some v
  | o :: os => (vstep v o).bind fun v' => vrun v' os

/-- If the statement is a move assignment, its source has a model or its target has none. -/
def MoveOk (v : Vals α) : Op α → Prop
  | .moveAssign k j => v.objs j = some none → v.objs k = some none
  | _ => True

/-- Every move assignment of the program is such. -/
def MovesOk (v : Vals α) : List (Op α) → Prop
  | [] => True
  | o :: os => MoveOk v o ∧ ∀ v', vstep v o = some v' → MovesOk v' os

/-- Exclusive ownership: every object's pointer is null or a live block, no two objects share a block, and every live block has an
owner. -/
structure Exclusive (s : State α) : Prop where
  alive : ∀ k p, s.objs k = some (some p) → s.heap p ≠ none
  single : ∀ k j p, s.objs k = some (some p) → s.objs j = some (some p) → k = j
  owned : ∀ p, s.heap p ≠ none → ∃ k, s.objs k = some (some p)

end Verif.OceanOwn
