import Mathlib.Logic.Function.Basic
import Verif.Model.Aod1bOwn
/-
Streams as values: each one reads the file it was built on or fed with last, and knows its directory; a move hands both over.
-/
namespace Verif.Aod1b.Own
variable {α δ : Type}

/-- A move from one object to another one. -/
def Op.Moves : Op α δ → Prop
  | .moveCreate _ _ => True
  | .moveAssign k j => k ≠ j
  | _ => False

/-- The values of the streams that exist and what the queries should see. `none`: the program itself is at fault, because it uses
a stream that does not exist, creates one twice, or uses a stream it has moved from. -/
def want (v : Nat → Option (Option (α × Option δ))) : List (Op α δ) → Option ((Nat → Option (Option (α × Option δ))) × List (α × Option δ))
  | [] => some (v, [])
  | .create k a dir :: os => match v k with
    | none => want (Function.update v k (some (some (a, dir)))) os
    | some _ => none
  | .moveCreate k j :: os => match v k, v j with
    | none, some (some x) => want (Function.update (Function.update v k (some (some x))) j (some none)) os
    | _, _ => none
  | .moveAssign k j :: os => match v k, v j with
    | some _, some (some x) =>
      if k = j then want v os else want (Function.update (Function.update v k (some (some x))) j (some none)) os
    | _, _ => none
  | .query k :: os => match v k with
    | some (some x) => (want v os).map fun r => (r.1, x :: r.2)
    | _ => none
  | .feed k a :: os => match v k with
    | some (some x) => want (Function.update v k (some (some (a, x.2)))) os
    | _ => none
  | .destroy k :: os => match v k with
    | some _ => want (Function.update v k none) os
    | none => none

end Verif.Aod1b.Own
