import Verif.Model.Storage
/-
Model of the expression templates of `/repo/include/coeff_matrix_2d.hpp` (`_SumProxy`,
`_ScaledProxy`, `_ReducedViewProxy`) and of the code that evaluates them.

A proxy holds references: the leaves of an expression are matrix variables, looked up in an
environment at evaluation time, so aliasing between the target and the operands (`A += 2. * A`) is
part of the model. Ownership and allocation are in `Model/Matrix.lean`; here a matrix is its storage
object and the content of its buffer. All matrices of an expression have the same layout (in the code
they are the same template instantiation, except inside reduced views).
-/
namespace Verif.MatrixExpr
open Verif Storage

variable {α : Type}

/-- Expressions: a matrix, `_ReducedViewProxy` (coeff_matrix_2d.hpp:106-152), `_ScaledProxy`
(158-176), `_SumProxy` (178-209). -/
inductive E (α : Type) where
  | mat (x : Nat)
  | view (e : E α) (r c : Nat)
  | scale (e : E α) (f : α)
  | sum (a b : E α)

/-- Storage object and buffer content of every matrix variable. -/
abbrev Env (α : Type) := Nat → St × List α

/-- Replace one variable. -/
def Env.set (env : Env α) (x : Nat) (v : St × List α) : Env α := fun y => if y = x then v else env y

/-- Read `m_data[k]`. -/
def rd (d : List α) (k : Int) : Res α :=
  if 0 ≤ k then match d[k.toNat]? with
    | some v => .ok v
    | none => .ub
  else .ub

/-- `rows()` of an expression, coeff_matrix_2d.hpp:112, 163, 183 and 232 (of a matrix). -/
def rows (env : Env α) : E α → Nat
  | .mat x => (env x).1.nrows
  | .view _ r _ => r
  | .scale e _ => rows env e
  | .sum a _ => rows env a

/-- `cols()` of an expression, coeff_matrix_2d.hpp:113, 164, 184 and 235. -/
def cols (env : Env α) : E α → Nat
  | .mat x => (env x).1.ncols
  | .view _ _ c => c
  | .scale e _ => cols env e
  | .sum a _ => cols env a

/-- The asserts in the proxy constructors hold, coeff_matrix_2d.hpp:118 and 191. -/
def built (env : Env α) : E α → Bool
  | .mat _ => true
  | .view e r c => built env e && decide (r ≤ rows env e) && decide (c ≤ cols env e)
  | .scale e _ => built env e
  | .sum a b => built env a && built env b && decide (rows env a = rows env b) &&
      decide (cols env a = cols env b)

/-- `hasContiguousMem`, coeff_matrix_2d.hpp:41, 110, 161, 181. -/
def contig : E α → Bool
  | .mat _ => true
  | .view _ _ _ => false
  | .scale e _ => contig e
  | .sum a b => contig a && contig b

variable [Add α] [Mul α]

/-- `operator()(i, j)`, coeff_matrix_2d.hpp:120, 169, 185-188 (sum: `rhs + lhs`), 253-260. -/
def elemAt (env : Env α) : E α → Int → Int → Res α
  | .mat x, i, j => rd (env x).2 ((env x).1.index i j)
  | .view e _ _, i, j => elemAt env e i j
  | .scale e f, i, j => do
    let v ← elemAt env e i j
    .ok (v * f)
  | .sum a b, i, j => do
    let v ← elemAt env b i j
    let w ← elemAt env a i j
    .ok (v + w)

/-- `data(i)`, coeff_matrix_2d.hpp:170, 189 (sum: `lhs + rhs`), 44. A view has no such member:
the code using it does not compile, which is `ub` here and never reached (see `contig`). -/
def dataAt (env : Env α) : E α → Int → Res α
  | .mat x, k => rd (env x).2 k
  | .view _ _ _, _ => .ub
  | .scale e f, k => do
    let v ← dataAt env e k
    .ok (v * f)
  | .sum a b, k => do
    let v ← dataAt env a k
    let w ← dataAt env b k
    .ok (v + w)

omit [Add α] [Mul α] in
/-- `op<Op>(m_data[k], v)`: update one cell of variable `x`, coeff_matrix_2d.hpp:9-27. -/
def cell (op : α → α → α) (x : Nat) (k : Int) (v : α) (env : Env α) : Res (Env α) := do
  let old ← rd (env x).2 k
  .ok (env.set x ((env x).1, (env x).2.set k.toNat (op old v)))

/-- `reduce_copy<Op>(rhs)` on variable `x`, coeff_matrix_2d.hpp:72-99. -/
def reduceCopy (op : α → α → α) (x : Nat) (e : E α) (env : Env α) : Res (Env α) :=
  let cprows := rows env e
  let cpcols := cols env e
  let st := (env x).1
  if st.nrows ≥ cprows ∧ st.ncols ≥ cpcols then
    if St.isRowMajor st.layout then
      forEach (List.range cprows) (fun i env =>
        forEach (List.range (min (cpcols : Int) (st.sliceLen i)).toNat) (fun j env => do
          let v ← elemAt env e i j
          cell op x (st.slice i + j) v env) env) env
    else
      forEach (List.range cpcols) (fun i env =>
        let k := (St.firstRowOfCol st.layout i).toNat
        forEach (List.range' k (cprows - k)) (fun j env => do
          let v ← elemAt env e j i
          cell op x (st.slice i + (j - k)) v env) env) env
  else .abort

/-- `operator+=(rhs)` on variable `x`, coeff_matrix_2d.hpp:535-545. The proxies are built first. -/
def addAssign (x : Nat) (e : E α) (env : Env α) : Res (Env α) :=
  if built env e then
    if contig e then
      if (env x).1.nrows = rows env e ∧ (env x).1.ncols = cols env e then
        forEach (List.range (env x).1.numElements) (fun (k : Nat) env => do
          let v ← dataAt env e k
          cell (· + ·) x k v env) env
      else .abort
    else reduceCopy (· + ·) x e env
  else .abort

/-- Construction of variable `x` from a sum or a scaled expression, coeff_matrix_2d.hpp:377-399;
`junk` is the content of the fresh buffer. -/
def construct (l : Layout) (x : Nat) (e : E α) (junk : Nat → α) (env : Env α) : Res (Env α) :=
  if built env e then do
    let st ← St.make l (rows env e) (cols env e)
    let env1 := env.set x (st, (List.range st.numElements).map junk)
    if contig e then
      forEach (List.range st.numElements) (fun (k : Nat) env => do
        let v ← dataAt env e k
        cell (fun _ v => v) x k v env) env1
    else reduceCopy (fun _ v => v) x e env1
  else .abort

end Verif.MatrixExpr
