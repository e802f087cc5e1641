import Verif.Model.Base
/-
Model of the special members of `Aod1bDataStream` (`/repo/include/aod1b_data_stream.hpp`): who owns the array `mcsvec`, where the
iterator `mit` points, and what becomes of the directory.

Simplification (all definitions): what an open file gives is a value of an arbitrary type `α`; the position in the file, the
buffered headers and the coefficients are in `Model/Aod1bStream.lean` and left out here; `operator new[]` always succeeds and
returns an address that was not used before.
-/
namespace Verif.Aod1b.Own

/-- An object: `mstream`, the object whose `mstream` `mit.maod` points to, `mcsvec` (`none` is `nullptr`), `mdir`. -/
structure Obj (α δ : Type) where
  stream : α
  it : Nat
  buf : Option Nat
  dir : Option δ

/-- Memory: the objects by name (or address), the live arrays, the next address; what the queries saw. -/
structure State (α δ : Type) where
  objs : Nat → Option (Obj α δ)
  heap : Nat → Bool
  next : Nat
  out : List (α × Option δ)

/-- The statements of a program that uses streams. -/
inductive Op (α δ : Type) where
  | create (k : Nat) (a : α) (dir : Option δ)
  | moveCreate (k j : Nat)
  | moveAssign (k j : Nat)
  | query (k : Nat)
  | feed (k : Nat) (a : α)
  | destroy (k : Nat)

variable {α δ : Type}

/-- Before the first statement. -/
def init : State α δ := ⟨fun _ => none, fun _ => false, 0, []⟩

/-- Sets object `k`. -/
def State.put (s : State α δ) (k : Nat) (o : Option (Obj α δ)) : State α δ :=
  { s with objs := fun i => if i = k then o else s.objs i }

/-- One statement; `husk` is what a moved-from `Aod1bIn` holds (`src/lib/aod1b/aod1b.cpp`:40-60, 88-110: the numbers stay, the
file name is taken). Using an object that does not exist is undefined behaviour.
* constructors: aod1b_data_stream.hpp:406-429 (the array is allocated, `mit` points to the own `mstream`);
* destructor: 432-436 (destroys the elements of the array, so a null pointer is dereferenced, then frees it);
* move constructor: 443-447 (`mit` keeps pointing where it pointed, `mdir` is not moved and stays empty);
* move assignment: 449-458 (the old array is not freed, `mdir` stays as it was);
* queries (`initialize`, `coefficients_at`, 257-404) read the file through `mit.maod` and the array;
* `feed_next_file`: 293-333 (`mstream` and `mit` are replaced). -/
def step (husk : α → α) (s : State α δ) : Op α δ → Res (State α δ)
  | .create k a dir => match s.objs k with
    | some _ => .ub
    | none => .ok ({ s with heap := fun p => if p = s.next then true else s.heap p, next := s.next + 1 }.put k (some ⟨a, k, some s.next, dir⟩))
  | .moveCreate k j => match s.objs k, s.objs j with
    | none, some o => .ok ((s.put k (some ⟨o.stream, o.it, o.buf, none⟩)).put j (some { o with stream := husk o.stream, buf := none }))
    | _, _ => .ub
  | .moveAssign k j => match s.objs k, s.objs j with
    | some q, some o =>
      if k = j then .ok s
      else .ok ((s.put k (some ⟨o.stream, o.it, o.buf, q.dir⟩)).put j (some { o with stream := husk o.stream, buf := none }))
    | _, _ => .ub
  | .query k => match s.objs k with
    | none => .ub
    | some o => match o.buf, s.objs o.it with
      | some p, some t => if s.heap p then .ok { s with out := s.out ++ [(t.stream, o.dir)] } else .ub
      | _, _ => .ub
  | .feed k a => match s.objs k with
    | none => .ub
    | some o => match o.buf with
      | some p => if s.heap p then .ok (s.put k (some { o with stream := a, it := k })) else .ub
      | none => .ub
  | .destroy k => match s.objs k with
    | none => .ub
    | some o => match o.buf with
      | none => .ub
      | some p => if s.heap p then .ok ({ s with heap := fun q => if q = p then false else s.heap q }.put k none) else .ub

/-- A program. -/
def run (husk : α → α) (s : State α δ) : List (Op α δ) → Res (State α δ)
  | [] => .ok s
  | o :: os => (step husk s o).bind fun s' => run husk s' os

end Verif.Aod1b.Own
