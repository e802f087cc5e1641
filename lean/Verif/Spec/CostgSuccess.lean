import Verif.Model.CostgTide
/-
What exit status 0 of a check against the benchmark means.
-/
namespace Verif.Costg
open Verif

/-- Every component is within the tolerance of the benchmark. -/
def Near (tol : ℝ) (r v : V3) : Prop := |r.x - v.x| < tol ∧ |r.y - v.y| < tol ∧ |r.z - v.z| < tol

/-- In every row of the orbit the benchmark has a row for the same epoch, an acceleration was computed from the objects as the row before left them,
and the two agree. `f` gives the acceleration in the frame of the benchmark, `at_` the epoch of the other data of the row. -/
def Passed {σ ρ : Type} (f : σ → Orbit → ρ → Res (σ × V3)) (at_ : ρ → Epoch) (tol : ℝ) (s : σ) (os : List Orbit) (qs : List ρ) (as : List Acc) : Prop :=
  ∃ (ss : Nat → σ) (g : Nat → V3), ss 0 = s ∧ ∀ i o, os[i]? = some o → ∃ q r, qs[i]? = some q ∧ as[i]? = some r ∧
    at_ q = o.epoch ∧ r.epoch = o.epoch ∧ f (ss i) o q = .ok (ss (i + 1), g i) ∧ Near tol r.axyz (g i)

/-- A computation that may fail, followed by the rotation to the celestial frame. -/
noncomputable def turned {σ : Type} (f : σ → Orbit → Res (σ × Option V3)) (s : σ) (o : Orbit) (q : Epoch × M3) : Res (σ × V3) :=
  (f s o).bind fun
    | (s', some a) => .ok (s', q.2.transpose * a)
    | (_, none) => .throw

/-- A computation that may fail. -/
noncomputable def plain {σ ρ : Type} (f : σ → Orbit → Res (σ × Option V3)) (s : σ) (o : Orbit) (_ : ρ) : Res (σ × V3) :=
  (f s o).bind fun
    | (s', some a) => .ok (s', a)
    | (_, none) => .throw

/-- A computation that uses the rotation and may fail with a status. -/
noncomputable def rotated {σ : Type} (f : σ → Orbit → M3 → Res (σ × (Int ⊕ V3))) (s : σ) (o : Orbit) (q : Epoch × M3) : Res (σ × V3) :=
  (f s o q.2).bind fun
    | (s', .inr a) => .ok (s', a)
    | (_, .inl _) => .throw

end Verif.Costg
