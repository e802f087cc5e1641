import Verif.Spec.CostgTide
/-
What a test against the benchmark accepts.
-/
namespace Verif.Costg
open Verif

/-- Two accelerations agree within the tolerance in every component. -/
def Agrees (tol : ℝ) (r v : V3) : Prop := |r.x - v.x| < tol ∧ |r.y - v.y| < tol ∧ |r.z - v.z| < tol

/-- The rows of the benchmark agree with the accelerations `val` at the rows of the orbit, in order. -/
def AllAgree (tol : ℝ) (val : ℚ × List ℚ → V3) (os as : List (ℚ × List ℚ)) : Prop :=
  ∀ (i : Nat) o a, os[i]? = some o → as[i]? = some a → Agrees tol (three a.2 0) (val o)

/-- The accelerations in the terrestrial frame at the rows of an orbit: gradients of a potential that depends on the epoch and the Earth
orientation. -/
def Gradients (V : ℚ → List ℚ → V3 → ℝ) (os es : List (ℚ × List ℚ)) (gs : List V3) : Prop :=
  gs.length = os.length ∧
    ∀ (i : Nat) o e g, os[i]? = some o → es[i]? = some e → gs[i]? = some g → Harmonic.IsGradient (V o.1 e.2) (three o.2 0) g

end Verif.Costg
