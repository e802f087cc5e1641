import Verif.Model.DesaiGrid
import Verif.Spec.Grid
import Verif.Spec.Chars
/-
Bilinear interpolation in a file of gridded values.
-/
namespace Verif.DesaiGrid
open Verif Verif.Grid Verif.Chars Verif.PoleTide

/-- `v` is the value at `(x, y)` of the function `a + b x + c y + d x y` that has the four given values at the corners of the rectangle
`[x1, x2] × [y1, y2]`. -/
def Interpolates (x1 x2 y1 y2 v11 v21 v12 v22 x y v : ℚ) : Prop :=
  ∃ a b c d : ℚ, let p := fun (x y : ℚ) => a + b * x + c * y + d * x * y
    p x1 y1 = v11 ∧ p x2 y1 = v21 ∧ p x1 y2 = v12 ∧ p x2 y2 = v22 ∧ v = p x y

/-- The six values. -/
def Comp : List (SiteCoeffs ℚ → ℚ) := [(·.rR), (·.rI), (·.nR), (·.nI), (·.eR), (·.eI)]

/-- The line begins with the keyword; behind the first equal sign stands what is asked for. -/
def KeyLine (key : String) (value : List Char → Prop) (l : List Char) : Prop :=
  ∃ pad rest, l = key.toList ++ (pad ++ '=' :: rest) ∧ '=' ∉ pad ∧ value rest

/-- An integer (of 32 bits). -/
def IntVal (v : Int) (s : List Char) : Prop := ∃ rest, BeginsInt s v rest

/-- A number. -/
def NumVal (v : ℚ) (s : List Char) : Prop := ∃ rest, BeginsNum s v rest ∧ Ends rest

/-- The fourteen header lines describe the grid `g`. -/
def HeaderIs (g : G) (hs : List (List Char)) : Prop :=
  (∀ l ∈ hs, l.length < 256) ∧ ∃ c1 c2 c3 xn xf xl xs yn yf yl ys t1 t2 t3, hs = [c1, c2, c3, xn, xf, xl, xs, yn, yf, yl, ys, t1, t2, t3] ∧
    KeyLine "Number_longitude_Grid_Points" (IntVal g.xpts) xn ∧
    KeyLine "First_longitude_degrees" (NumVal g.xstart) xf ∧
    (∃ v, KeyLine "Last_longitude_degrees" (NumVal v) xl) ∧
    KeyLine "Longitude_step_degrees" (NumVal g.xstep) xs ∧
    KeyLine "Number_latitude_grid_points" (IntVal g.ypts) yn ∧
    KeyLine "First_latitude_degrees" (NumVal g.ystart) yf ∧
    (∃ v, KeyLine "Last_latitude_degrees" (NumVal v) yl) ∧
    KeyLine "Latitude_step_degrees" (NumVal g.ystep) ys ∧
    "Longitude   Latitude   u_r^R       u_r^I       u_n^R       u_n^I       u_e^R       u_e^I".toList <+: t1 ∧
    "(degrees)  (degrees)  (        )  (        )  (        )  (        )  (        )  (        )".toList <+: t2

/-- The data lines are, in the order of the grid (all longitudes of the first latitude, then of the second, ...), the nodes with their
coefficients. -/
def DataIs (g : G) (v : Int → Int → SiteCoeffs ℚ) (ls : List (List Char)) : Prop :=
  ∀ i j, g.IsNode i j → ∃ l, ls[(j * g.xpts + i).toNat]? = some l ∧ l.length < 256 ∧
    LineIs l [(g.pos i j).1, (g.pos i j).2, (v i j).rR, (v i j).rI, (v i j).nR, (v i j).nI, (v i j).eR, (v i j).eI]

/-- The coefficients `c` are, each for itself, interpolated at `(x, y)` in the cell `(i, j)`. -/
def At (g : G) (v : Int → Int → SiteCoeffs ℚ) (i j : Int) (x y : ℚ) (c : SiteCoeffs ℚ) : Prop :=
  ∀ f ∈ Comp, Interpolates (g.pos i j).1 (g.pos (i + 1) j).1 (g.pos i j).2 (g.pos i (j + 1)).2
    (f (v i j)) (f (v (i + 1) j)) (f (v i (j + 1))) (f (v (i + 1) (j + 1))) x y (f c)

end Verif.DesaiGrid
