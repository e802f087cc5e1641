import Verif.Model.Base
/-
Model of the ownership of the admittance model in `/repo/include/ocean_tide.hpp`: the pointer `gmodel`, the special member
functions and `set_groops_admittance`.

Simplification (all definitions): the atlas and the coefficients are values with their own storage and are left out; the
content of an admittance model is a value of an arbitrary type; `new` always succeeds and returns an address that was not used
before.
-/
namespace Verif.OceanOwn

/-- Memory and objects: which objects exist and their `gmodel` (`none` is `nullptr`); the live heap blocks; the next address;
the models read so far. -/
structure State (α : Type) where
  objs : Nat → Option (Option Nat)
  heap : Nat → Option α
  next : Nat
  out : List (Option α)

/-- The statements of a program that uses `OceanTide` objects, which are named by numbers. -/
inductive Op (α : Type) where
  | create (k : Nat)
  | createWith (k : Nat) (g : α)
  | copyCreate (k j : Nat)
  | moveCreate (k j : Nat)
  | copyAssign (k j : Nat)
  | moveAssign (k j : Nat)
  | set (k : Nat) (g : α)
  | eval (k : Nat)
  | destroy (k : Nat)

variable {α : Type}

/-- Before the first statement. -/
def init : State α := ⟨fun _ => none, fun _ => none, 0, []⟩

/-- Sets the pointer of object `k`. -/
def State.bindObj (s : State α) (k : Nat) (p : Option Nat) : State α :=
  { s with objs := fun i => if i = k then some p else s.objs i }

/-- `new GroopsTideModel(g)`. -/
def State.alloc (s : State α) (g : α) : Nat × State α :=
  (s.next, { s with heap := fun p => if p = s.next then some g else s.heap p, next := s.next + 1 })

/-- `if (gmodel) delete gmodel`, ocean_tide.hpp:166-167, 187-188, 198-199, 212-213. -/
def State.free (s : State α) : Option Nat → Res (State α)
  | none => .ok s
  | some p =>
    match s.heap p with
    | none => .ub
    | some _ => .ok { s with heap := fun q => if q = p then none else s.heap q }

/-- `(ot.gmodel) ? (new GroopsTideModel(*(ot.gmodel))) : nullptr`, ocean_tide.hpp:173 and 189. -/
def State.clone (s : State α) : Option Nat → Res (Option Nat × State α)
  | none => .ok (none, s)
  | some p =>
    match s.heap p with
    | none => .ub
    | some g => let r := s.alloc g; .ok (some r.1, r.2)

/-- One statement. Using an object that does not exist is undefined behaviour. Constructors: ocean_tide.hpp:132-140 (no model),
152-162 (copy of a model), 171-173 (copy), 176-180 (move); assignments: 183-192 (copy), 195-204 (move); `set_groops_admittance`:
211-216; destructor: 165-168; evaluation reads the model if there is one: 225-230. -/
def step (s : State α) : Op α → Res (State α)
  | .create k => match s.objs k with
    | some _ => .ub
    | none => .ok (s.bindObj k none)
  | .createWith k g => match s.objs k with
    | some _ => .ub
    | none => let r := s.alloc g; .ok (r.2.bindObj k (some r.1))
  | .copyCreate k j => match s.objs k, s.objs j with
    | none, some p => (s.clone p).bind fun r => .ok (r.2.bindObj k r.1)
    | _, _ => .ub
  | .moveCreate k j => match s.objs k, s.objs j with
    | none, some p => .ok ((s.bindObj k p).bindObj j none)
    | _, _ => .ub
  | .copyAssign k j => match s.objs k, s.objs j with
    | some q, some p =>
      if k = j then .ok s
      else (s.free q).bind fun s1 => (s1.clone p).bind fun r => .ok (r.2.bindObj k r.1)
    | _, _ => .ub
  | .moveAssign k j => match s.objs k, s.objs j with
    | some q, some p => (s.free q).bind fun s1 =>
      match p with
      | none => .ok s1
      | some p => .ok ((s1.bindObj k (some p)).bindObj j none)
    | _, _ => .ub
  | .set k g => match s.objs k with
    | none => .ub
    | some q => (s.free q).bind fun s1 => let r := s1.alloc g; .ok (r.2.bindObj k (some r.1))
  | .eval k => match s.objs k with
    | none => .ub
    | some none => .ok { s with out := s.out ++ [none] }
    | some (some p) => match s.heap p with
      | none => .ub
      | some g => .ok { s with out := s.out ++ [some g] }
  | .destroy k => match s.objs k with
    | none => .ub
    | some q => (s.free q).bind fun s1 => .ok { s1 with objs := fun i => if i = k then none else s1.objs i }

/-- A program. -/
def run (s : State α) : List (Op α) → Res (State α)
  | [] => .ok s
  | o :: os => (step s o).bind fun s' => run s' os

end Verif.OceanOwn
