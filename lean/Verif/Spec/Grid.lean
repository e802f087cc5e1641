import Verif.Model.Grid
/-
Grid geometry.
-/
namespace Verif.Grid

/-- A grid with points and positive steps. -/
def G.Ok (g : G) : Prop := 0 < g.xpts ∧ 0 < g.ypts ∧ 0 < g.xstep ∧ 0 < g.ystep

/-- Coordinates of node `(i, j)`. -/
def G.pos (g : G) (i j : Int) : ℚ × ℚ := (g.xstart + i * g.xstep, g.ystart + j * g.ystep)

/-- `(i, j)` is a node of the grid. -/
def G.IsNode (g : G) (i j : Int) : Prop := 0 ≤ i ∧ i < g.xpts ∧ 0 ≤ j ∧ j < g.ypts

/-- The point lies in the cell whose lower left corner is node `(i, j)`. -/
def G.InCell (g : G) (i j : Int) (x y : ℚ) : Prop :=
  (g.pos i j).1 ≤ x ∧ x < (g.pos (i + 1) j).1 ∧ (g.pos i j).2 ≤ y ∧ y < (g.pos i (j + 1)).2

/-- Line number of node `(i, j)` in a file that lists, for each value of the leading axis in turn, all
values of the other one: `X` lists all y for the first x, then all y for the second x, and so on. -/
def G.lineOf (a : Axis) (g : G) (i j : Int) : Int :=
  match a with
  | .X => i * g.ypts + j
  | .Y => j * g.xpts + i

end Verif.Grid
