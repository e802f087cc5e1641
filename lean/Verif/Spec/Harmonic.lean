import Verif.Spec.Legendre
import Verif.Model.Vec
import Mathlib.Analysis.SpecialFunctions.Complex.Arg
import Mathlib.Analysis.Calculus.Deriv.Basic
/-
The potential of a spherical harmonic expansion, as in textbooks, and what it is for a vector field to be its gradient.
-/
namespace Verif.Harmonic
open Verif

/-- Longitude: atan2(y, x). -/
noncomputable def longitude (v : V3) : ℝ := Complex.arg ⟨v.x, v.y⟩

/-- One term of the potential, degree n and order m, with coefficients C and S. -/
noncomputable def harmonic (GM Re : ℝ) (n m : ℕ) (C S : ℝ) (v : V3) : ℝ :=
  GM / v.norm * (Re / v.norm) ^ n * Legendre.Pbar n m (v.z / v.norm) * (C * Real.cos (m * longitude v) + S * Real.sin (m * longitude v))

/-- The potential, truncated at a degree and an order. -/
noncomputable def potential (GM Re : ℝ) (C S : ℕ → ℕ → ℝ) (degree order : ℕ) (v : V3) : ℝ :=
  ∑ n ∈ Finset.range (degree + 1), ∑ m ∈ Finset.range (min n order + 1), harmonic GM Re n m (C n m) (S n m) v

/-- A motion with a velocity at time t. -/
def Moves (p : ℝ → V3) (v : V3) (t : ℝ) : Prop :=
  HasDerivAt (fun τ => (p τ).x) v.x t ∧ HasDerivAt (fun τ => (p τ).y) v.y t ∧ HasDerivAt (fun τ => (p τ).z) v.z t

/-- `g` is the gradient of `U` at `q`: along every motion through `q`, `U` changes at the rate g · velocity. -/
def IsGradient (U : V3 → ℝ) (q g : V3) : Prop := ∀ (p : ℝ → V3) (v : V3) (t : ℝ), p t = q → Moves p v t → HasDerivAt (fun τ => U (p τ)) (g.dot v) t

end Verif.Harmonic
