import Verif.Model.MatrixExpr
import Verif.Spec.Storage
/-
What a matrix expression means, element by element.
-/
namespace Verif.MatrixExpr
open Verif Storage

variable {α : Type}

/-- Element `(i, j)` of matrix `x`. -/
def entry (env : Env α) (x : Nat) (i j : Int) : Option α :=
  (env x).2[((env x).1.index i j).toNat]?

/-- Mathematical value of an expression at `(i, j)`. -/
def value [Add α] [Mul α] (env : Env α) : E α → Int → Int → Option α
  | .mat x, i, j => entry env x i j
  | .view e _ _, i, j => value env e i j
  | .scale e f, i, j => (value env e i j).map (· * f)
  | .sum a b, i, j => do
    let u ← value env a i j
    let v ← value env b i j
    some (u + v)

/-- All matrices have layout `l`, satisfy their constructor's assert, and own enough memory. -/
def EnvOk (l : Layout) (env : Env α) : Prop :=
  ∀ x, (env x).1.layout = l ∧ (env x).1.WF ∧ (env x).1.numElements ≤ (env x).2.length

/-- Matrices an expression refers to. -/
def E.vars : E α → List Nat
  | .mat x => [x]
  | .view e _ _ | .scale e _ => e.vars
  | .sum a b => a.vars ++ b.vars

end Verif.MatrixExpr
