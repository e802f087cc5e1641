/-
Outcomes of modelled C++ code.
-/
namespace Verif

/-- Outcome of a modelled C++ call.
* `ok a`  : the call returned `a`;
* `ub`    : undefined behaviour was reached (out-of-bounds access, null or dangling pointer ...);
* `abort` : an `assert` that is live in the shipped build failed;
* `throw` : a C++ exception left the function.
This type models no particular line of `/repo`; it is the common result type of the model. -/
inductive Res (α : Type _) where
  | ok (a : α)
  | ub
  | abort
  | throw
  deriving Repr, DecidableEq

namespace Res

variable {α β : Type _}

/-- Sequencing of modelled calls: the first outcome other than `ok` is the outcome. -/
def bind : Res α → (α → Res β) → Res β
  | ok a, f => f a
  | ub, _ => ub
  | abort, _ => abort
  | throw, _ => throw

instance : Monad Res where
  pure := ok
  bind := Res.bind

@[simp] theorem pure_eq (a : α) : (pure a : Res α) = ok a := rfl
@[simp] theorem bind_ok (a : α) (f : α → Res β) : (ok a >>= f) = f a := rfl
@[simp] theorem bind_ub (f : α → Res β) : ((ub : Res α) >>= f) = ub := rfl
@[simp] theorem bind_abort (f : α → Res β) : ((abort : Res α) >>= f) = abort := rfl
@[simp] theorem bind_throw (f : α → Res β) : ((throw : Res α) >>= f) = throw := rfl

end Res

/-- A C++ `for` loop over the keys `ks`, body `f`, loop-carried state `s`. Models no particular line. -/
def forEach {κ σ : Type _} (ks : List κ) (f : κ → σ → Res σ) (s : σ) : Res σ :=
  match ks with
  | [] => .ok s
  | k :: ks => (f k s).bind (forEach ks f)

end Verif
