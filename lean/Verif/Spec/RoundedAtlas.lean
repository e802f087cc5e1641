import Verif.Spec.Rounding
import Verif.Spec.Tide
/-
What the rounding errors of a tide model are measured by.
-/
namespace Verif.RoundedAtlas
open Verif Verif.Rounding Verif.Doodson Verif.Tide

/-- An inner product with the rounding errors of `n` products and `n` sums, in whatever order they are formed. -/
def InnerProduct (mv : (n : ℕ) → (Fin n → ℝ) → (Fin n → ℝ) → ℝ) : Prop :=
  ∀ (n : ℕ) (a b : Fin n → ℝ), n ≤ 1000000 → |mv n a b - ∑ i, a i * b i| ≤ (2 * n + 1) * u * ∑ i, |a i * b i|

/-- The sum over the constituents of the absolute values of their in-phase and quadrature coefficients. -/
noncomputable def strength (a : Atlas) (v : Coeffs ℝ → Nat → Nat → ℝ) (i j : Nat) : ℝ := (a.map fun w => |v w.cos i j| + |v w.sin i j|).sum

/-- The same with the admittance matrix: each major wave counts with the absolute values of its row. -/
noncomputable def admStrength (a : Atlas) (g : Admittance) (v : Coeffs ℝ → Nat → Nat → ℝ) (i j : Nat) : ℝ :=
  ∑ k : Fin a.length, (∑ f : Fin g.dood.length, |g.A k f|) * (|v a[k].cos i j| + |v a[k].sin i j|)

/-- No multiplier exceeds `w`. -/
def Multipliers (w : ℝ) (d : DC) : Prop :=
  |(d.i0 : ℝ)| ≤ w ∧ |(d.i1 : ℝ)| ≤ w ∧ |(d.i2 : ℝ)| ≤ w ∧ |(d.i3 : ℝ)| ≤ w ∧ |(d.i4 : ℝ)| ≤ w ∧ |(d.i5 : ℝ)| ≤ w

end Verif.RoundedAtlas
