import Verif.Model.Storage
/-
Model of `/repo/include/coeff_matrix_2d.hpp`, class `CoeffMatrix2D<S>`: objects, buffers, ownership.

* `double` is a type parameter `α`; a buffer is a `List α` living in a heap cell.
* `new double[n]` leaves memory uninitialised: its content is an arbitrary function `junk`
  (an argument of the operation), so theorems hold for every content.
* Program variables of type `CoeffMatrix2D<S>` are numbered; `State.var` maps the live ones to objects.
* `memcpy`/`fill` on a range outside a live buffer is `Res.ub`; so is using a dead variable.
  `memcpy(p, q, 0)` is accepted for any pointers (strictly the standard wants valid pointers there).
-/
namespace Verif.Matrix
open Verif Storage

variable {α : Type}

/-- Data members, coeff_matrix_2d.hpp:38-40 (`m_storage`, `m_data`, `_capacity`). -/
structure Obj where
  st : St
  ptr : Option Nat
  cap : Nat
  deriving Repr, DecidableEq

/-- Program state: heap of `new double[]` buffers, next fresh address, live variables. -/
structure State (α : Type) where
  heap : Nat → Option (List α)
  next : Nat
  var : Nat → Option Obj

/-- Start of the program: nothing allocated, no variable alive. -/
def State.init : State α := ⟨fun _ => none, 0, fun _ => none⟩

/-- Content of a fresh `new double[n]`. -/
def fresh (n : Nat) (junk : Nat → α) : List α := (List.range n).map junk

/-- `std::memcpy(dst + d, src + s, sizeof(double) * n)`. -/
def memcpy (dst : List α) (d : Int) (src : List α) (s n : Int) : Res (List α) :=
  if n = 0 then .ok dst
  else if 0 ≤ d ∧ 0 ≤ s ∧ 0 ≤ n ∧ d + n ≤ dst.length ∧ s + n ≤ src.length then
    .ok (dst.take d.toNat ++ (src.drop s.toNat).take n.toNat ++ dst.drop (d.toNat + n.toNat))
  else .ub

namespace State

/-- Set variable `x`. -/
def setVar (s : State α) (x : Nat) (o : Option Obj) : State α :=
  { s with var := fun y => if y = x then o else s.var y }

/-- Replace the content of buffer `b`. -/
def setBuf (s : State α) (b : Nat) (c : Option (List α)) : State α :=
  { s with heap := fun a => if a = b then c else s.heap a }

/-- `new double[n]`: the fresh address is `s.next`. -/
def alloc (s : State α) (n : Nat) (junk : Nat → α) : State α :=
  { s with heap := fun a => if a = s.next then some (fresh n junk) else s.heap a
           next := s.next + 1 }

/-- `if (p) delete[] p;` deleting a dead buffer is undefined behaviour. -/
def free (s : State α) (p : Option Nat) : Res (State α) :=
  match p with
  | none => .ok s
  | some b =>
    match s.heap b with
    | none => .ub
    | some _ => .ok (s.setBuf b none)

/-- Content behind a pointer; the null pointer has an empty content. -/
def load (s : State α) (p : Option Nat) : Res (List α) :=
  match p with
  | none => .ok []
  | some b =>
    match s.heap b with
    | none => .ub
    | some c => .ok c

/-- Overwrite the content behind a pointer (through a null pointer: only the empty content). -/
def store (s : State α) (p : Option Nat) (c : List α) : Res (State α) :=
  match p with
  | none => if c = [] then .ok s else .ub
  | some b =>
    match s.heap b with
    | none => .ub
    | some _ => .ok (s.setBuf b (some c))

/-- Use of a variable; a dead one is undefined behaviour. -/
def obj (s : State α) (x : Nat) : Res Obj :=
  match s.var x with
  | none => .ub
  | some o => .ok o

end State

/-- The copy loop of `cresize`, coeff_matrix_2d.hpp:498-505, for the first `n` slices. -/
def cresizeLoop (old new : St) (src : List α) : Nat → List α → Res (List α)
  | 0, dst => .ok dst
  | n + 1, dst => do
    let dst ← cresizeLoop old new src n dst
    memcpy dst (new.slice n) src (old.slice n) (min (old.sliceLen n) (new.sliceLen n))

/-- Operations on matrix variables. -/
inductive Op (α : Type) where
  | construct (x : Nat) (l : Layout) (r c : Nat) (junk : Nat → α)
  | copyCtor (x y : Nat) (junk : Nat → α)
  | moveCtor (x y : Nat)
  | destroy (x : Nat)
  | copyAssign (x y : Nat) (junk : Nat → α)
  | moveAssign (x y : Nat)
  | swap (x y : Nat)
  | resize (x : Nat) (r c : Nat) (junk : Nat → α)
  | cresize (x : Nat) (r c : Nat) (junk : Nat → α)
  | fill (x : Nat) (v : α)
  | multiply (x : Nat) (f : α)
  | write (x : Nat) (i j : Int) (v : α)

variable [Mul α]

/-- One operation of `CoeffMatrix2D`. Lines of coeff_matrix_2d.hpp per case below. -/
def step (s : State α) : Op α → Res (State α)
  -- 344-353: constructor; null pointer for an empty matrix
  | .construct x l r c junk => do
    if (s.var x).isSome then .ub else
    let st ← St.make l r c
    if 0 < st.numElements then
      .ok ((s.alloc st.numElements junk).setVar x (some ⟨st, some s.next, st.numElements⟩))
    else .ok (s.setVar x (some ⟨st, none, st.numElements⟩))
  -- 363-367: copy constructor; always `new double[num_elements()]`
  | .copyCtor x y junk => do
    if (s.var x).isSome then .ub else
    let o ← s.obj y
    let s1 := s.alloc o.st.numElements junk
    let src ← s1.load o.ptr
    let dst ← memcpy (fresh o.st.numElements junk) 0 src 0 o.st.numElements
    let s2 ← s1.store (some s.next) dst
    .ok (s2.setVar x (some ⟨o.st, some s.next, o.st.numElements⟩))
  -- 370-375: move constructor
  | .moveCtor x y => do
    if (s.var x).isSome then .ub else
    let o ← s.obj y
    let st0 ← o.st.setDimensions 0 0
    .ok ((s.setVar x (some o)).setVar y (some ⟨st0, none, 0⟩))
  -- 356-360: destructor
  | .destroy x => do
    let o ← s.obj x
    let s1 ← s.free o.ptr
    .ok (s1.setVar x none)
  -- 402-415: copy assignment; reallocates only if the *capacity* is smaller
  | .copyAssign x y junk => do
    let ox ← s.obj x
    let oy ← s.obj y
    if x = y then .ok s else
    let n := oy.st.numElements
    if ox.cap < oy.cap then
      let s1 ← s.free ox.ptr
      let s2 := s1.alloc n junk
      let src ← s2.load oy.ptr
      let dst ← memcpy (fresh n junk) 0 src 0 n
      let s3 ← s2.store (some s1.next) dst
      let st ← ox.st.setDimensions oy.st.nrows oy.st.ncols
      .ok (s3.setVar x (some ⟨st, some s1.next, n⟩))
    else
      let src ← s.load oy.ptr
      let d0 ← s.load ox.ptr
      let dst ← memcpy d0 0 src 0 n
      let s3 ← s.store ox.ptr dst
      let st ← ox.st.setDimensions oy.st.nrows oy.st.ncols
      .ok (s3.setVar x (some ⟨st, ox.ptr, ox.cap⟩))
  -- 418-426: move assignment; the old buffer is not freed, self-assignment is not tested
  | .moveAssign x y => do
    let ox ← s.obj x
    let oy ← s.obj y
    let st ← ox.st.setDimensions oy.st.nrows oy.st.ncols
    let st0 ← oy.st.setDimensions 0 0
    .ok ((s.setVar x (some ⟨st, oy.ptr, oy.cap⟩)).setVar y (some ⟨st0, none, 0⟩))
  -- 212-224: swap
  | .swap x y => do
    let ox ← s.obj x
    let oy ← s.obj y
    .ok ((s.setVar x (some oy)).setVar y (some ox))
  -- 439-450: resize; buffer kept if the capacity suffices
  | .resize x r c junk => do
    let o ← s.obj x
    let st ← St.make o.st.layout r c
    if o.cap < st.numElements then
      let s1 ← s.free o.ptr
      .ok ((s1.alloc st.numElements junk).setVar x (some ⟨st, some s1.next, st.numElements⟩))
    else .ok (s.setVar x (some ⟨st, o.ptr, o.cap⟩))
  -- 489-513: cresize
  | .cresize x r c junk => do
    let o ← s.obj x
    if r ≠ o.st.nrows ∨ c ≠ o.st.ncols then
      let st ← St.make o.st.layout r c
      let s1 := s.alloc st.numElements junk
      match o.ptr with
      | none => .ok (s1.setVar x (some ⟨st, some s.next, st.numElements⟩))
      | some _ =>
        let src ← s1.load o.ptr
        let dst ← cresizeLoop o.st st src (min st.numSlices o.st.numSlices)
          (fresh st.numElements junk)
        let s2 ← s1.store (some s.next) dst
        let s3 ← s2.free o.ptr
        .ok (s3.setVar x (some ⟨st, some s.next, st.numElements⟩))
    else .ok s
  -- 325-327: fill_with, over the whole capacity
  | .fill x v => do
    let o ← s.obj x
    let d ← s.load o.ptr
    if o.cap ≤ d.length then s.store o.ptr (List.replicate o.cap v ++ d.drop o.cap) else .ub
  -- 330-333: multiply, over num_elements()
  | .multiply x f => do
    let o ← s.obj x
    let d ← s.load o.ptr
    let n := o.st.numElements
    if n ≤ d.length then s.store o.ptr ((d.take n).map (· * f) ++ d.drop n) else .ub
  -- 243-250: assignment through operator()
  | .write x i j v => do
    let o ← s.obj x
    let d ← s.load o.ptr
    let k := o.st.index i j
    if 0 ≤ k ∧ k < d.length then s.store o.ptr (d.set k.toNat v) else .ub

/-- A sequence of operations. -/
def run (s : State α) : List (Op α) → Res (State α)
  | [] => .ok s
  | op :: ops => do
    let s1 ← step s op
    run s1 ops

omit [Mul α] in
/-- Reading through operator() const, coeff_matrix_2d.hpp:253-260. -/
def read (s : State α) (x : Nat) (i j : Int) : Res α := do
  let o ← s.obj x
  let d ← s.load o.ptr
  let k := o.st.index i j
  match (if 0 ≤ k then d[k.toNat]? else none) with
  | some v => .ok v
  | none => .ub

end Verif.Matrix
