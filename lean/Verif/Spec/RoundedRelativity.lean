import Verif.Spec.RoundedPoint
/-
Accuracy of dot products and cubes, and the size of the terms of the relativistic acceleration.
-/
namespace Verif.Rounding
open Verif

/-- A dot product with the rounding errors of three products and two sums, in whatever order it is formed. -/
def DotProduct (dot : V3 → V3 → ℝ) : Prop :=
  ∀ a b : V3, |dot a b - (a.x * b.x + a.y * b.y + a.z * b.z)| ≤ 4 * u * (|a.x * b.x| + |a.y * b.y| + |a.z * b.z|)

/-- The third power from the C library. -/
def Cube (cube : ℝ → ℝ) : Prop := ∀ x : ℝ, |cube x - x ^ 3| ≤ 2 * u * |x ^ 3|

/-- The sum of the sizes of the terms of (10.12), for distances `s` of the satellite and `R` of the Sun and speeds `v` and `V`: Schwarzschild
(two terms), Lense-Thirring and de Sitter. -/
noncomputable def termSize (s v R V GMe GMs J c beta gamma : ℝ) : ℝ :=
  |GMe| / (c ^ 2 * s ^ 3) * ((2 * (|beta| + |gamma|) * (|GMe| / s) + |gamma| * v ^ 2) * s + 2 * (1 + |gamma|) * (s * v) * v) +
  |GMe| / (c ^ 2 * s ^ 3) * (4 * (1 + |gamma|) * v * |J|) +
  2 * (1 + 2 * |gamma|) * (|GMs| / (c ^ 2 * R ^ 3)) * (V * R * v)

end Verif.Rounding
