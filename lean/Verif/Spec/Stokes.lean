import Verif.Model.Stokes
import Verif.Spec.MatrixExpr
/-
Specification vocabulary for Stokes coefficient sets.
-/
namespace Verif.Stokes
open Verif Storage MatrixExpr

variable {α : Type}

/-- Coefficient `C(n, m)` (b = 0) or `S(n, m)` (b = 1) of object `k`, if it has storage. -/
def coeff (s : S α) (k b : Nat) (n m : Int) : Option α := entry s.env (2 * k + b) n m

/-- `(n, m)` with `0 <= m <= n` inside degree `d` and order `o`. -/
def Within (d o : Nat) (n m : Int) : Prop := 0 ≤ m ∧ m ≤ n ∧ n ≤ d ∧ m ≤ o

/-- A lower triangular matrix with its buffer, of at least `d + 1` rows. -/
def MatOk (m : St × List α) (d : Nat) : Prop :=
  m.1.layout = .lwTriangularColWise ∧ m.1.rows = m.1.cols ∧ d < m.1.rows ∧
    m.1.numElements ≤ m.2.length

/-- Object `k` has room for every coefficient inside its degree. -/
def ObjOk (s : S α) (k : Nat) : Prop :=
  ∃ d o, s.obj k = some (d, o) ∧ MatOk (s.env (2 * k)) d ∧ MatOk (s.env (2 * k + 1)) d

/-- All objects have room, and order does not exceed degree. -/
def Consistent (s : S α) : Prop :=
  ∀ k d o, s.obj k = some (d, o) → o ≤ d ∧ ObjOk s k

/-- Legal arguments: orders not above degrees, live objects, coefficients the object has. -/
def Pre (s : S α) : Op α → Prop
  | .construct k n m _ => s.obj k = none ∧ m ≤ n
  | .resize k d o _ | .cresize k d o _ => (∃ p, s.obj k = some p) ∧ o ≤ d
  | .shrink k _ _ | .clear k | .scale k _ => ∃ p, s.obj k = some p
  | .set k b n m _ => b < 2 ∧ ∃ d o, s.obj k = some (d, o) ∧ Within d d n m
  | .add k j | .copy k j => (∃ p, s.obj k = some p) ∧ ∃ p, s.obj j = some p

/-- States of legal programs. -/
inductive Reach [Add α] [Mul α] [Zero α] : S α → Prop where
  | init (env : Env α) : Reach ⟨fun _ => none, env⟩
  | step (s s' : S α) (op : Op α) : Reach s → Pre s op → Stokes.step s op = .ok s' → Reach s'

end Verif.Stokes
