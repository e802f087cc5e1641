import Verif.Model.EopThreads
import Verif.Spec.Eop
/-
What a call on an Earth orientation series returns when nobody else uses the series, and what C++ calls a data race.
-/
namespace Verif.EopThreads
open Verif Eop

variable {K β : Type}

/-- The epoch of a call. -/
def Call.epoch : Call K → K
  | .interpolate t _ _ => t
  | .approx t => t

/-- The degree, if any, is one that is allowed. -/
def Call.Allowed : Call K → Prop
  | .interpolate _ _ d => d ≤ 9
  | .approx _ => True

/-- What the call returns on the series when no other call was made or is being made (Model/Eop). -/
def answer [Field K] [LinearOrder K] (dat : K → K) (vec : List (Rec K)) : Call K → Res (Answer K)
  | .interpolate t old d => (Series.interpolate dat ⟨vec, vec.length, some vec.length⟩ t old d).bind fun p => .ok (.inl (p.1, p.2.1))
  | .approx t => (Series.approxDut1 dat ⟨vec, vec.length, some vec.length⟩ t).bind fun p => .ok (.inr (p.1, p.2.1))

/-- A memory location of the series. -/
inductive Place where
  | last
  | work (j : Nat)
deriving DecidableEq

/-- The location a computation accesses next, and whether it writes there. -/
def next : Act K β → Option (Place × Bool)
  | .done _ => none
  | .rdLast _ => some (.last, false)
  | .wrLast _ _ => some (.last, true)
  | .rdWork j _ => some (.work j, false)
  | .wrWork j _ _ => some (.work j, true)

/-- Two threads are about to access the same location and one of them writes: with neither a lock nor an atomic type, a data race, whose behaviour
C++ leaves undefined. -/
def Race (c : Shared K β) : Prop :=
  ∃ i j p a b, i ≠ j ∧ next (c.thread i) = some (p, a) ∧ next (c.thread j) = some (p, b) ∧ (a = true ∨ b = true)

/-- The series has the records, and its cached iterator is valid. -/
def Valid (vec : List (Rec K)) (m : Mem K) : Prop := m.last ≤ vec.length

end Verif.EopThreads
