import Verif.Model.MatrixExpr
/-
Lifetimes in the expression templates of include/coeff_matrix_2d.hpp. A proxy holds references to its operands (lines 107, 159, 179-180): a
matrix, or another proxy object. An operand that is itself an expression is a temporary: it is destroyed at the end of the statement that makes
it. A proxy can be kept (`auto e = a + b;`, the object of the outermost operation) and used in later statements, its operands being read then.
Matrices live throughout.
-/
namespace Verif.MatrixKept
open Verif Storage MatrixExpr

variable {α : Type}

/-- What a reference member refers to: a matrix or a proxy object at an address (coeff_matrix_2d.hpp:107, 159, 179, 180). -/
inductive Ref where
  | mat (x : Nat)
  | obj (a : Nat)

/-- A proxy object: `_ReducedViewProxy` (coeff_matrix_2d.hpp:106-119), `_ScaledProxy` (158-168), `_SumProxy` (178-192). `c` is
`hasContiguousMem` of its type (110, 161, 181). -/
inductive Obj (α : Type) where
  | view (t : Ref) (r c : Nat)
  | scale (t : Ref) (f : α) (c : Bool)
  | sum (t u : Ref) (c : Bool)

/-- The proxies that live, the first address never used, and the named proxies with their address. -/
structure Store (α : Type) where
  obj : Nat → Option (Obj α)
  next : Nat
  vars : Nat → Option Nat

/-- Source text of an operand: a matrix, a named proxy, or an operation on operands (coeff_matrix_2d.hpp:122-151, 171-175, 193-208, 227, 516-533,
555-575). -/
inductive Src (α : Type) where
  | mat (x : Nat)
  | name (p : Nat)
  | view (e : Src α) (r c : Nat)
  | scale (e : Src α) (f : α)
  | sum (a b : Src α)

/-- Source text of an operation. -/
inductive Top (α : Type) where
  | view (e : Src α) (r c : Nat)
  | scale (e : Src α) (f : α)
  | sum (a b : Src α)

/-- An operation as an operand. -/
def Top.src : Top α → Src α
  | .view e r c => .view e r c
  | .scale e f => .scale e f
  | .sum a b => .sum a b

/-- `rows()` (coeff_matrix_2d.hpp:112, 163, 183, 232); a destroyed object is undefined behaviour. Objects refer to older ones: `n` bounds the address. -/
def rowsAt (s : Store α) (env : Env α) : Nat → Ref → Res Nat
  | _, .mat x => .ok (env x).1.nrows
  | 0, .obj _ => .ub
  | n + 1, .obj a => match s.obj a with
    | none => .ub
    | some (.view _ r _) => .ok r
    | some (.scale t _ _) => rowsAt s env n t
    | some (.sum t _ _) => rowsAt s env n t

/-- `cols()` (coeff_matrix_2d.hpp:113, 164, 184, 235). -/
def colsAt (s : Store α) (env : Env α) : Nat → Ref → Res Nat
  | _, .mat x => .ok (env x).1.ncols
  | 0, .obj _ => .ub
  | n + 1, .obj a => match s.obj a with
    | none => .ub
    | some (.view _ _ c) => .ok c
    | some (.scale t _ _) => colsAt s env n t
    | some (.sum t _ _) => colsAt s env n t

/-- `hasContiguousMem` of the type of an operand (coeff_matrix_2d.hpp:41, 110, 161, 181): the named proxies' types are those of their objects. -/
def contigOf (s : Store α) : Src α → Bool
  | .mat _ => true
  | .name p => match s.vars p with
    | none => false
    | some a => match s.obj a with
      | some (.scale _ _ c) => c
      | some (.sum _ _ c) => c
      | _ => false
  | .view _ _ _ => false
  | .scale e _ => contigOf s e
  | .sum a b => contigOf s a && contigOf s b

/-- Make an object. -/
def Store.alloc (s : Store α) (o : Obj α) : Ref × Store α :=
  (.obj s.next, { s with obj := fun a => if a = s.next then some o else s.obj a, next := s.next + 1 })

/-- Evaluate the operators of an expression: objects are made, the assertions of their constructors are checked
(coeff_matrix_2d.hpp:118, 191; `reduced_view` 226). A scaled proxy checks nothing (166-168). The names are those of the store `s0` of the statement. -/
def build (s0 : Store α) (env : Env α) : Src α → Store α → Res (Ref × Store α)
  | .mat x, s => .ok (.mat x, s)
  | .name p, s => match s0.vars p with
    | none => .ub
    | some a => .ok (.obj a, s)
  | .view e r c, s => (build s0 env e s).bind fun (t, s) =>
    (rowsAt s env s.next t).bind fun m => (colsAt s env s.next t).bind fun n =>
    if r ≤ m ∧ c ≤ n then .ok (s.alloc (.view t r c)) else .abort
  | .scale e f, s => (build s0 env e s).bind fun (t, s) => .ok (s.alloc (.scale t f (contigOf s0 e)))
  | .sum a b, s => (build s0 env a s).bind fun (t, s) => (build s0 env b s).bind fun (u, s) =>
    (rowsAt s env s.next t).bind fun m => (rowsAt s env s.next u).bind fun m' =>
    (colsAt s env s.next t).bind fun n => (colsAt s env s.next u).bind fun n' =>
    if m = m' ∧ n = n' then .ok (s.alloc (.sum t u (contigOf s0 a && contigOf s0 b))) else .abort

/-- The end of a statement: the objects made in it (from address `lo` on) are destroyed, but the one at `keep`. -/
def Store.sweep (s : Store α) (lo : Nat) (keep : Option Nat) : Store α :=
  { s with obj := fun a => if lo ≤ a ∧ keep ≠ some a then none else s.obj a }

variable [Add α] [Mul α]

/-- `operator()(i, j)` (coeff_matrix_2d.hpp:120, 169, 185-188, 253-260). -/
def elemOf (s : Store α) (env : Env α) : Nat → Ref → Int → Int → Res α
  | _, .mat x, i, j => rd (env x).2 ((env x).1.index i j)
  | 0, .obj _, _, _ => .ub
  | n + 1, .obj a, i, j => match s.obj a with
    | none => .ub
    | some (.view t _ _) => elemOf s env n t i j
    | some (.scale t f _) => (elemOf s env n t i j).bind fun v => .ok (v * f)
    | some (.sum t u _) => (elemOf s env n u i j).bind fun v => (elemOf s env n t i j).bind fun w => .ok (v + w)

/-- `data(i)` (coeff_matrix_2d.hpp:44, 170, 189). A view has none. -/
def dataOf (s : Store α) (env : Env α) : Nat → Ref → Int → Res α
  | _, .mat x, k => rd (env x).2 k
  | 0, .obj _, _ => .ub
  | n + 1, .obj a, k => match s.obj a with
    | none => .ub
    | some (.view _ _ _) => .ub
    | some (.scale t f _) => (dataOf s env n t k).bind fun v => .ok (v * f)
    | some (.sum t u _) => (dataOf s env n t k).bind fun v => (dataOf s env n u k).bind fun w => .ok (v + w)

/-- `x += rhs` (coeff_matrix_2d.hpp:535-545) and `reduce_copy` (72-99) for an operand given by its type and member functions. -/
def addWith (x : Nat) (contig : Bool) (rows cols : Res Nat) (elem : Env α → Int → Int → Res α) (data : Env α → Int → Res α) (env : Env α) :
    Res (Env α) :=
  rows.bind fun m => cols.bind fun n =>
  let st := (env x).1
  if contig then
    if st.nrows = m ∧ st.ncols = n then
      forEach (List.range st.numElements) (fun (k : Nat) env => (data env k).bind fun v => cell (· + ·) x k v env) env
    else .abort
  else if st.nrows ≥ m ∧ st.ncols ≥ n then
    if St.isRowMajor st.layout then
      forEach (List.range m) (fun i env =>
        forEach (List.range (min (n : Int) (st.sliceLen i)).toNat) (fun j env => (elem env i j).bind fun v =>
          cell (· + ·) x (st.slice i + j) v env) env) env
    else
      forEach (List.range n) (fun i env =>
        let k := (St.firstRowOfCol st.layout i).toNat
        forEach (List.range' k (m - k)) (fun j env => (elem env j i).bind fun v =>
          cell (· + ·) x (st.slice i + (j - k)) v env) env) env
  else .abort

/-- A statement: keep an expression under a name (`auto p = …;`), add one to a matrix, or change a matrix in any other way. -/
inductive Stmt (α : Type) where
  | keep (p : Nat) (e : Top α)
  | add (x : Nat) (e : Src α)
  | set (x : Nat) (v : St × List α)

/-- One statement. -/
def step (s : Store α) (env : Env α) : Stmt α → Res (Store α × Env α)
  | .keep p e => (build s env e.src s).bind fun (_, s') =>
    let a := s'.next - 1
    .ok ({ s'.sweep s.next (some a) with vars := fun q => if q = p then some a else s.vars q }, env)
  | .add x e => (build s env e s).bind fun (t, s') =>
    (addWith x (contigOf s e) (rowsAt s' env s'.next t) (colsAt s' env s'.next t) (fun env => elemOf s' env s'.next t)
      (fun env => dataOf s' env s'.next t) env).bind fun env' => .ok (s'.sweep s.next none, env')
  | .set x v => .ok (s, env.set x v)

/-- A program. -/
def run : List (Stmt α) → Store α × Env α → Res (Store α × Env α)
  | [], c => .ok c
  | st :: sts, c => (step c.1 c.2 st).bind (run sts)

/-- No proxies yet. -/
def Store.init : Store α := ⟨fun _ => none, 0, fun _ => none⟩

end Verif.MatrixKept
