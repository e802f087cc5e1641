import Verif.Spec.DesaiGrid
import Verif.Spec.Rounding
/-
Accuracy of lookups in grids.
-/
namespace Verif.RoundedGrid
open Verif Verif.Grid Verif.PoleTide Verif.Rounding

/-- A conversion of radians to degrees that is accurate to a few units in the last place, however it is coded. -/
def RadToDeg (r2d : ℝ → ℝ) : Prop := ∀ x, |r2d x - x * (180 / Real.pi)| ≤ 4 * u * |x * (180 / Real.pi)|

/-- Longitude of a site in degrees, shifted by 180. -/
noncomputable def degX (lon : ℝ) : ℝ := lon * (180 / Real.pi) + 180

/-- Latitude of a site in degrees. -/
noncomputable def degY (lat : ℝ) : ℝ := lat * (180 / Real.pi)

/-- An axis in degrees, as it occurs: between -360 and 720, with steps of a thousandth of a degree or more. -/
def Axis.Usual (start step : ℚ) (pts : Int) : Prop := -360 ≤ start ∧ start + pts * step ≤ 720 ∧ 1 / 1000 ≤ step

/-- Both axes. -/
def Usual (g : G) : Prop := Axis.Usual g.xstart g.xstep g.xpts ∧ Axis.Usual g.ystart g.ystep g.ypts

/-- The point lies in the cell whose lower left corner is node `(i, j)`, at least 1e-12 degrees from its sides. -/
def Inside (g : G) (i j : Int) (x y : ℝ) : Prop :=
  ((g.pos i j).1 : ℝ) + 1e-12 ≤ x ∧ x ≤ (g.pos (i + 1) j).1 - 1e-12 ∧ ((g.pos i j).2 : ℝ) + 1e-12 ≤ y ∧ y ≤ (g.pos i (j + 1)).2 - 1e-12

/-- `v` is the value at `(x, y)` of the function `a + b x + c y + d x y` that has the four given values at the corners of the rectangle
`[x1, x2] × [y1, y2]`. -/
def Interpolates (x1 x2 y1 y2 v11 v21 v12 v22 x y v : ℝ) : Prop :=
  ∃ a b c d : ℝ, let p := fun (x y : ℝ) => a + b * x + c * y + d * x * y
    p x1 y1 = v11 ∧ p x2 y1 = v21 ∧ p x1 y2 = v12 ∧ p x2 y2 = v22 ∧ v = p x y

/-- The six values, of the file and computed. -/
def Comp : List ((SiteCoeffs ℚ → ℚ) × (SiteCoeffs ℝ → ℝ)) :=
  [((·.rR), (·.rR)), ((·.rI), (·.rI)), ((·.nR), (·.nR)), ((·.nI), (·.nI)), ((·.eR), (·.eR)), ((·.eI), (·.eI))]

/-- The coefficients `c` are, each for itself, close to those interpolated at `(x, y)` in the cell `(i, j)`. -/
def At (g : G) (v : Int → Int → SiteCoeffs ℚ) (i j : Int) (x y : ℝ) (c : SiteCoeffs ℝ) : Prop :=
  ∀ f ∈ Comp, ∃ w, Interpolates (g.pos i j).1 (g.pos (i + 1) j).1 (g.pos i j).2 (g.pos i (j + 1)).2
      (f.1 (v i j)) (f.1 (v (i + 1) j)) (f.1 (v i (j + 1))) (f.1 (v (i + 1) (j + 1))) x y w ∧
    |f.2 c - w| ≤ 2e-12 * (1 / g.xstep + 1 / g.ystep) *
      (|(f.1 (v i j) : ℝ)| + |(f.1 (v (i + 1) j) : ℝ)| + |(f.1 (v i (j + 1)) : ℝ)| + |(f.1 (v (i + 1) (j + 1)) : ℝ)|)

end Verif.RoundedGrid
