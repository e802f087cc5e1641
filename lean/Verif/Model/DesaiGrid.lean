import Verif.Model.Base
import Verif.Model.Grid
import Verif.Model.Chars
import Verif.Model.PoleTide
/-
Coefficients of the ocean pole tide deformation for sites, from a gridded file
(src/lib/pole_tide/get_desai_ocp_deformation_coeffs.cpp).

Angles are exact, in degrees: `dso::rad2deg(s.lon() + DPI)` is `lon + 180`. Asserts are active; those under `#ifdef DEBUG` are left out.
`std::from_chars` is given an end behind the end of the line for all numbers but the first (line 295); it stops at the terminating
zero, so the model reads to the end of the line.
-/
namespace Verif.DesaiGrid
open Verif Verif.Grid Verif.Chars Verif.PoleTide

/-- `fin.getline(line, 256)` on the list of the remaining lines: what the buffer holds, and the lines that can still be read. After a
line that is too long, or at the end, the buffer is empty from then on. -/
def nextLine : List (List Char) → List Char × List (List Char)
  | [] => ([], [])
  | l :: ls => if l.length ≥ 256 then (l.take 255, []) else (l, ls)

/-- `nf` (get_desai_ocp_deformation_coeffs.cpp:19-26): what follows the first `=` and blanks. Without `=` it walks over the end of the string. -/
def afterEq (line : List Char) : Res (List Char) :=
  match line.dropWhile (· ≠ '=') with
  | [] => .ub
  | _ :: r => .ok (skipWs r)

/-- One header line with a number (e.g. get_desai_ocp_deformation_coeffs.cpp:61-78): `none` is an error. -/
def headerNum {α : Type} (read : List Char → Option (α × List Char)) (key : String) (line : List Char) : Res (Option α) :=
  if !(key.toList.isPrefixOf line) then .ok none
  else (afterEq line).bind fun s => .ok ((read s).map (·.1))

/-- `parse_desai_header` (get_desai_ocp_deformation_coeffs.cpp:33-248): grid and remaining lines, `none` for an error. The `long` numbers of points are read as `int`. -/
def header (ls : List (List Char)) : Res (Option (G × List (List Char))) :=
  let (_, ls) := nextLine ls
  let (_, ls) := nextLine ls
  let (_, ls) := nextLine ls
  let (l, ls) := nextLine ls
  (headerNum fromCharsInt "Number_longitude_Grid_Points" l).bind fun
  | none => .ok none
  | some xpts =>
  let (l, ls) := nextLine ls
  (headerNum fromCharsDouble "First_longitude_degrees" l).bind fun
  | none => .ok none
  | some xstart =>
  let (l, ls) := nextLine ls
  (headerNum fromCharsDouble "Last_longitude_degrees" l).bind fun
  | none => .ok none
  | some (_ : ℚ) =>
  let (l, ls) := nextLine ls
  (headerNum fromCharsDouble "Longitude_step_degrees" l).bind fun
  | none => .ok none
  | some xstep =>
  let (l, ls) := nextLine ls
  (headerNum fromCharsInt "Number_latitude_grid_points" l).bind fun
  | none => .ok none
  | some ypts =>
  let (l, ls) := nextLine ls
  (headerNum fromCharsDouble "First_latitude_degrees" l).bind fun
  | none => .ok none
  | some ystart =>
  let (l, ls) := nextLine ls
  (headerNum fromCharsDouble "Last_latitude_degrees" l).bind fun
  | none => .ok none
  | some (_ : ℚ) =>
  let (l, ls) := nextLine ls
  (headerNum fromCharsDouble "Latitude_step_degrees" l).bind fun
  | none => .ok none
  | some ystep =>
  let (l, ls) := nextLine ls
  if !("Longitude   Latitude   u_r^R       u_r^I       u_n^R       u_n^I       u_e^R       u_e^I".toList.isPrefixOf l) then .ok none
  else
  let (l, ls) := nextLine ls
  if !("(degrees)  (degrees)  (        )  (        )  (        )  (        )  (        )  (        )".toList.isPrefixOf l) then .ok none
  else
  let (_, ls) := nextLine ls
  .ok (some (⟨xpts, ypts, xstart, xstep, ystart, ystep⟩, ls))

/-- `OptRecord` (get_desai_ocp_deformation_coeffs.cpp:277-280). -/
structure Rec where
  index : Int
  lon : ℚ
  lat : ℚ
  c : SiteCoeffs ℚ

/-- `parse_line` (get_desai_ocp_deformation_coeffs.cpp:290-309): `none` if a number is missing. -/
def parseLine (index : Int) (line : List Char) : Option Rec :=
  match readFields (List.replicate 8 0) line with
  | ([a, b, c, d, e, f, g, h], 0) => some ⟨index, a, b, ⟨c, d, e, f, g, h⟩⟩
  | _ => none

/-- `while (cidx < idx) { getline; ++cidx; }` (get_desai_ocp_deformation_coeffs.cpp:370-373): `k` more lines. -/
def advance : Nat → List Char → List (List Char) → List Char × List (List Char)
  | 0, l, ls => (l, ls)
  | k + 1, _, ls => advance k (nextLine ls).1 (nextLine ls).2

/-- The loop over the line numbers (get_desai_ocp_deformation_coeffs.cpp:369-384), from the current line `l` with number `cidx`: the records, `none` for an error. -/
def readRecs : List Int → List Char → Int → List (List Char) → Option (List Rec)
  | [], _, _, _ => some []
  | i :: is, l, cidx, ls =>
    let k := (i - cidx).toNat
    let l' := (advance k l ls).1
    let ls' := (advance k l ls).2
    match parseLine (cidx + k) l' with
    | none => none
    | some r => (readRecs is l' (cidx + k) ls').map (r :: ·)

/-- `nodes2indexes` (get_desai_ocp_deformation_coeffs.cpp:260-271). -/
def indexes (nodes : List Corners) : List Int :=
  (nodes.flatMap fun n => [n.bl, n.br, n.tl, n.tr]).mergeSort (fun a b => decide (a ≤ b))

/-- `std::lower_bound` on the records (get_desai_ocp_deformation_coeffs.cpp:390-401); the end is not an element. -/
def lowerBound (recs : List Rec) (i : Int) : Option Rec := recs.find? fun r => !decide (r.index < i)

/-- One value (get_desai_ocp_deformation_coeffs.cpp:412-449); the grid spacing in the file must not be zero (in `ℚ`, 1 / 0 = 0). -/
def bilinear (x1 x2 y1 y2 x y bl br tl tr : ℚ) : ℚ :=
  let f := 1 / ((x2 - x1) * (y2 - y1))
  let f11 := (x2 - x) * (y2 - y)
  let f21 := (x - x1) * (y2 - y)
  let f12 := (x2 - x) * (y - y1)
  let f22 := (x - x1) * (y - y1)
  f * (bl * f11 + br * f21 + tl * f12 + tr * f22)

/-- One site (get_desai_ocp_deformation_coeffs.cpp:388-456): `none` for an error. -/
def site (recs : List Rec) (n : Corners) (lon lat : ℚ) : Res (Option (SiteCoeffs ℚ)) :=
  match lowerBound recs n.bl, lowerBound recs n.br, lowerBound recs n.tl, lowerBound recs n.tr with
  | some bl, some br, some tl, some tr =>
    if n.bl ≠ bl.index ∨ n.br ≠ br.index ∨ n.tl ≠ tl.index ∨ n.tr ≠ tr.index then .ok none
    else
      let x := lon + 180
      let y := lat
      if ¬ (bl.lon = tl.lon ∧ br.lon = tr.lon ∧ bl.lat = br.lat ∧ tl.lat = tr.lat) then .abort
      else if ¬ (bl.lon ≤ x ∧ bl.lat ≤ y) then .abort
      else
        let v (f : SiteCoeffs ℚ → ℚ) := bilinear bl.lon br.lon bl.lat tl.lat x y (f bl.c) (f br.c) (f tl.c) (f tr.c)
        .ok (some ⟨v (·.rR), v (·.rI), v (·.nR), v (·.nI), v (·.eR), v (·.eI)⟩)
  | _, _, _, _ => .ub

/-- The loop over the sites: status and coefficients so far. -/
def sites (recs : List Rec) (g : G) : List (ℚ × ℚ) → Res (Nat × List (SiteCoeffs ℚ))
  | [] => .ok (0, [])
  | (lon, lat) :: ss =>
    (site recs (g.surrounding .Y (lon + 180) lat) lon lat).bind fun
    | none => .ok (1, [])
    | some c => (sites recs g ss).bind fun (st, cs) => .ok (st, c :: cs)

/-- `get_desai_ocp_deformation_coeffs` (get_desai_ocp_deformation_coeffs.cpp:313-459). The file is the list of its lines, or `none` if it cannot be opened. -/
def coeffs (file : Option (List (List Char))) (sta : List (ℚ × ℚ)) : Res (Nat × List (SiteCoeffs ℚ)) :=
  match file with
  | none => .ok (1, [])
  | some ls =>
    (header ls).bind fun
    | none => .ok (1, [])
    | some (g, ls) =>
      let (l, ls) := nextLine ls
      match readRecs (indexes (sta.map fun s => g.surrounding .Y (s.1 + 180) s.2)) l 0 ls with
      | none => .ok (1, [])
      | some recs => sites recs g sta

end Verif.DesaiGrid
