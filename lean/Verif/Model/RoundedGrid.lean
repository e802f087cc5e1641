import Verif.Model.Rounded
import Verif.Model.DesaiGrid
/-
Grids (include/grid.hpp) and the coefficients of the ocean pole tide deformation for sites (src/lib/pole_tide/get_desai_ocp_deformation_coeffs.cpp) in
floating-point arithmetic: as in `Model/Grid` and `Model/DesaiGrid`, with the rounding `fl` after every operation, products fused with a sum excepted
(`Model/Arith`). The numbers of the file are rounded when they are read; the model rounds them where they are used. `r2d` is `rad2deg` of the library `geodesy`.
-/
namespace Verif.RoundedGrid
open Verif Verif.Rounded Verif.Grid Verif.DesaiGrid Verif.PoleTide

section
variable (fl : Arith)

/-- `xindex`, `yindex` (grid.hpp:21-27) for an axis with the given start and step. -/
noncomputable def index (start step : ℚ) (x : ℝ) : Int := ⌊fl (fl (x - fl start) / fl step)⌋

/-- `xstop`, `ystop` (grid.hpp:69-70). -/
noncomputable def stop (start step : ℚ) (pts : Int) : ℝ := fl (fl start + fl.pr 0 (pts * fl step))

/-- Not `out_of_range_x`, `out_of_range_y` (grid.hpp:39-44). -/
def InRange (start step : ℚ) (pts : Int) (x : ℝ) : Prop := fl start ≤ x ∧ x < stop fl start step pts

open Classical in
/-- `line` and `xyindex` (grid.hpp:29-37, 72-82). -/
noncomputable def line (a : Axis) (g : G) (x y : ℝ) : Int :=
  if InRange fl g.xstart g.xstep g.xpts x ∧ InRange fl g.ystart g.ystep g.ypts y then
    match a with
    | .X => index fl g.xstart g.xstep x * g.ypts + index fl g.ystart g.ystep y
    | .Y => index fl g.ystart g.ystep y * g.xpts + index fl g.xstart g.xstep x
  else -1

/-- `surrounding_nodes(x, y, ...)` (grid.hpp:96-102). -/
noncomputable def surrounding (a : Axis) (g : G) (x y : ℝ) : Corners :=
  let bl := line fl a g x y
  let bl := if bl < 0 then -1 else bl
  g.neighbours a bl

/-- One value (get_desai_ocp_deformation_coeffs.cpp:412-449). -/
noncomputable def bilinear (x1 x2 y1 y2 x y bl br tl tr : ℝ) : ℝ :=
  let f := fl (1 / fl (fl (x2 - x1) * fl (y2 - y1)))
  let f11 := fl (fl (x2 - x) * fl (y2 - y))
  let f21 := fl (fl (x - x1) * fl (y2 - y))
  let f12 := fl (fl (x2 - x) * fl (y - y1))
  let f22 := fl (fl (x - x1) * fl (y - y1))
  fl (f * fl (fl (fl (fl.pr 0 (bl * f11) + fl.pr 1 (br * f21)) + fl.pr 2 (tl * f12)) + fl.pr 3 (tr * f22)))

open Classical in
/-- One site (get_desai_ocp_deformation_coeffs.cpp:388-456) at `x`, `y` in degrees: `none` for an error. -/
noncomputable def site (recs : List Rec) (n : Corners) (x y : ℝ) : Res (Option (SiteCoeffs ℝ)) :=
  match lowerBound recs n.bl, lowerBound recs n.br, lowerBound recs n.tl, lowerBound recs n.tr with
  | some bl, some br, some tl, some tr =>
    if n.bl ≠ bl.index ∨ n.br ≠ br.index ∨ n.tl ≠ tl.index ∨ n.tr ≠ tr.index then .ok none
    else
      if ¬ (fl bl.lon = fl tl.lon ∧ fl br.lon = fl tr.lon ∧ fl bl.lat = fl br.lat ∧ fl tl.lat = fl tr.lat) then .abort
      else if ¬ (fl bl.lon ≤ x ∧ fl bl.lat ≤ y) then .abort
      else
        let v (f : SiteCoeffs ℚ → ℚ) :=
          bilinear fl (fl bl.lon) (fl br.lon) (fl bl.lat) (fl tl.lat) x y (fl (f bl.c)) (fl (f br.c)) (fl (f tl.c)) (fl (f tr.c))
        .ok (some ⟨v (·.rR), v (·.rI), v (·.nR), v (·.nI), v (·.eR), v (·.eI)⟩)
  | _, _, _, _ => .ub

variable (r2d : ℝ → ℝ)

/-- `rad2deg(s.lon() + DPI)`, `rad2deg(s.lat())` (get_desai_ocp_deformation_coeffs.cpp:353, 414, 417). -/
noncomputable def lonDeg (lon : ℝ) : ℝ := r2d (fl (lon + DPI fl))

/-- The loop over the sites, longitude and latitude in radians: status and coefficients so far. -/
noncomputable def sites (recs : List Rec) (g : G) : List (ℝ × ℝ) → Res (Nat × List (SiteCoeffs ℝ))
  | [] => .ok (0, [])
  | (lon, lat) :: ss =>
    (site fl recs (surrounding fl .Y g (lonDeg fl r2d lon) (r2d lat)) (lonDeg fl r2d lon) (r2d lat)).bind fun
    | none => .ok (1, [])
    | some c => (sites recs g ss).bind fun (st, cs) => .ok (st, c :: cs)

/-- `get_desai_ocp_deformation_coeffs` (get_desai_ocp_deformation_coeffs.cpp:313-459), as `DesaiGrid.coeffs`. -/
noncomputable def coeffs (file : Option (List (List Char))) (sta : List (ℝ × ℝ)) : Res (Nat × List (SiteCoeffs ℝ)) :=
  match file with
  | none => .ok (1, [])
  | some ls =>
    (header ls).bind fun
    | none => .ok (1, [])
    | some (g, ls) =>
      let (l, ls) := nextLine ls
      match readRecs (indexes (sta.map fun s => surrounding fl .Y g (lonDeg fl r2d s.1) (r2d s.2))) l 0 ls with
      | none => .ok (1, [])
      | some recs => sites fl r2d recs g sta

end

end Verif.RoundedGrid
