import Verif.Model.PoleTide
import Verif.Model.DesaiGrid
import Verif.Model.EopFile
/-
The example program examples/pole_tide_displacement.cpp.

Simplifications: numbers are exact; the number of arguments is right; messages are not modelled. `cartesian2spherical` (library `geodesy`) is a
parameter: longitude and latitude in degrees as rational numbers. `add_seconds` of the library `datetime` returns the later epoch and leaves its
own unchanged (see Model/OrientExample).
-/
namespace Verif.PoleExample
open Verif Verif.Eop Verif.PoleTide

/-- The six sites (pole_tide_displacement.cpp:14-41), in metres. -/
def sites : List (ℚ × ℚ × ℚ) := [
  (1201300.042, 251874.432, 6238000.308), (538110.515, -1389031.364, 6180994.514), (4595212.468, 2039473.691, 3912617.891),
  (3855260.440, -5049735.535, 563056.590), (1106046.627, -763739.010, -6214243.195), (-1940878.515, 1628473.041, -5833723.413)]

/-- A line printed (pole_tide_displacement.cpp:86-89); `name` counts the names of line 43. -/
structure Shown where
  name : Nat
  epoch : ℚ
  solid : V3
  ocean : V3

/-- Degrees to radians. -/
noncomputable def ofDeg (d : ℚ) : ℝ := d * Real.pi / 180

/-- The coefficients as reals. -/
noncomputable def realCoeffs (c : SiteCoeffs ℚ) : SiteCoeffs ℝ := ⟨c.rR, c.rI, c.nR, c.nI, c.eR, c.eI⟩

/-- The loop over the sites (pole_tide_displacement.cpp:75-92): neither the iterator over the coefficients nor that over the names is compared
with an end; there are six names. -/
noncomputable def siteLines (t : ℚ) (xp yp : ℚ) : Nat → List (ℚ × ℚ) → List (SiteCoeffs ℚ) → Res (List Shown)
  | _, [], _ => .ok []
  | _, _ :: _, [] => .ub
  | k, s :: ss, c :: cs =>
    if 6 ≤ k then .ub else
    let dt := ((t : ℝ) - 51544.5) / 365.25
    (siteLines t xp yp (k + 1) ss cs).bind fun ls => .ok (⟨k, t, deformation dt xp yp (ofDeg s.1) (ofDeg s.2),
      oceanDeformation dt xp yp (ofDeg s.1) (ofDeg s.2) (realCoeffs c) 6378136.6 3.986004418e14 7.2921151467064e-5 6.67428e-11 9.7803278⟩ :: ls)

/-- What the loop of the program holds: the series, the epoch, the lines printed, the latest turn first; or the program has ended with an exit
status. -/
inductive State where
  | running (s : Series ℚ) (t : ℚ) (lines : List (List Shown))
  | ended (status : Int) (lines : List (List Shown))

/-- One turn of the loop (pole_tide_displacement.cpp:67-96): the epoch returned by `add_seconds` is dropped. The end is MJD 60154. -/
noncomputable def State.step (dat : ℚ → ℚ) (sta : List (ℚ × ℚ)) (cs : List (SiteCoeffs ℚ)) (old : Rec ℚ) : State → Res State
  | .ended k ls => .ok (.ended k ls)
  | .running s t ls =>
    if t < 60154 then
      (s.interpolate dat t old 5).bind fun (st, e, s) =>
        if st = .prior ∨ st = .later then .ok (.ended 1 ls)
        else (siteLines t e.xp e.yp 0 sta cs).bind fun l => .ok (.running s t (l :: ls))
    else .ok (.ended 0 ls)

/-- The state after `n` turns. -/
noncomputable def State.turns (dat : ℚ → ℚ) (sta : List (ℚ × ℚ)) (cs : List (SiteCoeffs ℚ)) (old : Rec ℚ) : Nat → State → Res State
  | 0, x => .ok x
  | n + 1, x => (x.step dat sta cs old).bind fun x => State.turns dat sta cs old n x

/-- The program up to the `n`-th turn of its loop (pole_tide_displacement.cpp:7-97): it starts at MJD 60144, 19 July 2023. `old` is the uninitialised record. -/
noncomputable def run (tt dat : ℚ → ℚ) (deg : ℚ × ℚ × ℚ → ℚ × ℚ) (junk : List ℚ) (old : Rec ℚ) (grid eop : Option (List (List Char))) (n : Nat) :
    Res State :=
  (DesaiGrid.coeffs grid (sites.map deg)).bind fun (st, cs) =>
    if st ≠ 0 then .ok (.ended 1 [])
    else (parseC04 tt dat junk eop (60144 - 2) (60154 + 2) Series.new).bind fun (st, s) =>
      if st ≠ 0 then .ok (.ended 1 []) else State.turns dat (sites.map deg) cs old n (.running s 60144 [])

end Verif.PoleExample
