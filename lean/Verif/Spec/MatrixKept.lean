import Verif.Model.MatrixKept
import Verif.Spec.MatrixExpr
/-
What the names of kept expressions stand for.
-/
namespace Verif.MatrixKept
open Verif Storage MatrixExpr

variable {α : Type}

/-- An expression of which parts may be gone. -/
inductive K (α : Type) where
  | gone
  | mat (x : Nat)
  | view (e : K α) (r c : Nat)
  | scale (e : K α) (f : α)
  | sum (a b : K α)

/-- The expression, if nothing of it is gone. -/
def K.whole : K α → Option (E α)
  | .gone => none
  | .mat x => some (.mat x)
  | .view e r c => e.whole.map (.view · r c)
  | .scale e f => e.whole.map (.scale · f)
  | .sum a b => do some (.sum (← a.whole) (← b.whole))

/-- Number of rows and columns, as long as the part that knows them is there: a view knows them itself. -/
def K.shape (env : Env α) : K α → Option (Nat × Nat)
  | .gone => none
  | .mat x => some ((env x).1.nrows, (env x).1.ncols)
  | .view _ r c => some (r, c)
  | .scale e _ => e.shape env
  | .sum a _ => a.shape env

/-- What every name stands for. -/
abbrev Names (α : Type) := Nat → Option (K α)

/-- An expression within its own statement: names replaced by what they stand for. -/
def Src.tree (ns : Names α) : Src α → Option (K α)
  | .mat x => some (.mat x)
  | .name p => ns p
  | .view e r c => (e.tree ns).map (.view · r c)
  | .scale e f => (e.tree ns).map (.scale · f)
  | .sum a b => do some (.sum (← a.tree ns) (← b.tree ns))

/-- An operand of a kept operation after the statement: matrices and named expressions are there, an operation without a name is gone. -/
def Src.afterwards (ns : Names α) : Src α → Option (K α)
  | .mat x => some (.mat x)
  | .name p => ns p
  | _ => some .gone

/-- What a name stands for after its statement. -/
def Top.kept (ns : Names α) : Top α → Option (K α)
  | .view e r c => (e.afterwards ns).map (.view · r c)
  | .scale e f => (e.afterwards ns).map (.scale · f)
  | .sum a b => do some (.sum (← a.afterwards ns) (← b.afterwards ns))

/-- The names after a program. -/
def namesAfter : List (Stmt α) → Names α → Names α
  | [], ns => ns
  | .keep p e :: sts, ns => namesAfter sts fun q => if q = p then e.kept ns else ns q
  | _ :: sts, ns => namesAfter sts ns

end Verif.MatrixKept
