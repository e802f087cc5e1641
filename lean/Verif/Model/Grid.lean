import Mathlib.Algebra.Order.Floor.Ring
import Mathlib.Algebra.Order.Field.Rat
import Mathlib.Data.Rat.Floor
/-
Two-dimensional grids (include/grid.hpp). Coordinates are rationals; `int`/`long` do not overflow.
-/
namespace Verif.Grid

/-- `GridAxis` (grid.hpp:8). -/
inductive Axis where
  | X
  | Y
deriving DecidableEq

/-- `TwoDimGrid` (grid.hpp:10-19, 62-65). -/
structure G where
  xpts : Int
  ypts : Int
  xstart : ℚ
  xstep : ℚ
  ystart : ℚ
  ystep : ℚ

/-- `xindex`, `yindex` (grid.hpp:21-27). -/
def G.xindex (g : G) (x : ℚ) : Int := ⌊(x - g.xstart) / g.xstep⌋
def G.yindex (g : G) (y : ℚ) : Int := ⌊(y - g.ystart) / g.ystep⌋

/-- `xyindex` (grid.hpp:29-37). -/
def G.xyindex (a : Axis) (g : G) (x y : ℚ) : Int :=
  match a with
  | .X => g.xindex x * g.ypts + g.yindex y
  | .Y => g.yindex y * g.xpts + g.xindex x

/-- `xstop`, `ystop` (grid.hpp:69-70). -/
def G.xstop (g : G) : ℚ := g.xstart + g.xpts * g.xstep
def G.ystop (g : G) : ℚ := g.ystart + g.ypts * g.ystep

/-- `out_of_range_x`, `out_of_range_y` (grid.hpp:39-44). -/
def G.outX (g : G) (x : ℚ) : Bool := !(x ≥ g.xstart && x < g.xstop)
def G.outY (g : G) (y : ℚ) : Bool := !(y ≥ g.ystart && y < g.ystop)

/-- `line` (grid.hpp:72-82). -/
def G.line (a : Axis) (g : G) (x y : ℚ) : Int :=
  if g.outX x || g.outY y then -1 else g.xyindex a x y

/-- `xyindex2node` (grid.hpp:84-94), for a grid with points. -/
def G.node (a : Axis) (g : G) (index : Int) : ℚ × ℚ :=
  match a with
  | .X =>
    let xi := index.tdiv g.ypts
    let yi := index - xi * g.xpts
    (xi * g.xstep + g.xstart, yi * g.ystep + g.ystart)
  | .Y =>
    let yi := index.tdiv g.xpts
    let xi := index - yi * g.xpts
    (xi * g.xstep + g.xstart, yi * g.ystep + g.ystart)

/-- The four line numbers returned by `surrounding_nodes`. -/
structure Corners where
  bl : Int
  br : Int
  tl : Int
  tr : Int
deriving DecidableEq

/-- `surrounding_nodes(idx_bl, ...)` (grid.hpp:46-57). -/
def G.neighbours (a : Axis) (g : G) (bl : Int) : Corners :=
  match a with
  | .X =>
    let br := bl + g.ypts
    let tl := bl + 1
    ⟨bl, br, tl, tl + 1⟩
  | .Y =>
    let br := bl + 1
    let tl := bl + g.xpts
    ⟨bl, br, tl, tl + 1⟩

/-- `surrounding_nodes(x, y, ...)` (grid.hpp:96-102): the -1 of a point outside is overwritten by the
second call. -/
def G.surrounding (a : Axis) (g : G) (x y : ℚ) : Corners :=
  let bl := g.line a x y
  let bl := if bl < 0 then -1 else bl
  g.neighbours a bl

end Verif.Grid
