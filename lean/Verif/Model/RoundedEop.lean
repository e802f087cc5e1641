import Verif.Model.Eop
import Verif.Model.Arith
/-
Interpolation of Earth orientation parameters in floating-point arithmetic (src/lib/eop/lagrange_interpolation.cpp): as in `Model/Eop`, with the
rounding `fl` after every operation on doubles, products fused with a sum excepted (`Model/Arith`). Epochs are not doubles: they are compared exactly, and `dd a b` is the double
`a.diff<FractionalDays>(b).days()` (library `datetime`). ΔAT is a whole number of seconds.
-/
namespace Verif.RoundedEop
open Verif Verif.Eop Verif.Rounded

section
variable (fl : Arith) (dd : ℝ → ℝ → ℝ)

/-- Epoch of record `k` of a window. -/
noncomputable def epoch (w : List (Rec ℝ)) (k : Nat) : ℝ := (w[k]?.map Rec.t).getD 0

/-- `nom[j]` (lagrange_interpolation.cpp:93-105). -/
noncomputable def nom (w : List (Rec ℝ)) (t : ℝ) (j : Nat) : ℝ :=
  (List.range w.length).foldl (fun a k => if j ≠ k then fl (a * dd t (epoch w k)) else a) 1

/-- `dom[j]` (lagrange_interpolation.cpp:94-105). -/
noncomputable def dom (w : List (Rec ℝ)) (j : Nat) : ℝ :=
  (List.range w.length).foldl (fun a k => if j ≠ k then fl (a * dd (epoch w j) (epoch w k)) else a) 1

/-- One quantity of the interpolation loop (lagrange_interpolation.cpp:109-120). -/
noncomputable def lagSum (w : List (Rec ℝ)) (t : ℝ) (q : Rec ℝ → ℝ) : ℝ :=
  (List.range w.length).foldl (fun a j => fl (a + fl.pr j ((w[j]?.map q).getD 0 * fl (nom fl dd w t j / dom fl dd w j)))) 0

/-- Linear interpolation of one quantity (lagrange_interpolation.cpp:58-75). -/
noncomputable def lin (x0 x1 : Rec ℝ) (t : ℝ) (q : Rec ℝ → ℝ) : ℝ :=
  fl (fl.pr 0 (q x0 * fl (dd x1.t t / dd x1.t x0.t)) + fl.pr 1 (q x1 * fl (dd t x0.t / dd x1.t x0.t)))

/-- `(UT1-TAI)` of a record (lagrange_interpolation.cpp:71, 115). -/
noncomputable def ut1tai (r : Rec ℝ) : ℝ := fl (r.dut - r.dat)

/-- `interpolate` (lagrange_interpolation.cpp:5-128). -/
noncomputable def interpolate (dat : ℝ → ℝ) (s : Series ℝ) (t : ℝ) (old : Rec ℝ) (degree : Int) : Res (Status × Rec ℝ × Series ℝ) :=
  if degree > 9 then .abort else
  (s.hunt t).bind fun it =>
  let s := { s with last := some it }
  if it = 0 then
    match s.vec[0]? with
    | some r => .ok (.prior, { r with t := t }, s)
    | none => .ub
  else if it = s.vec.length then
    match s.vec[it - 1]? with
    | some r => .ok (.later, { r with t := t }, s)
    | none => .ub
  else if degree < 0 then .ub
  else
    let ndp := dataPoints it s.vec.length degree.toNat
    if ndp = 1 then
      match s.vec[it - 1]?, s.vec[it]? with
      | some x0, some x1 =>
        .ok (.linear,
          { t := t, xp := lin fl dd x0 x1 t Rec.xp, yp := lin fl dd x0 x1 t Rec.yp,
            dut := fl (lin fl dd x0 x1 t (ut1tai fl) + dat t),
            lod := lin fl dd x0 x1 t Rec.lod, dX := lin fl dd x0 x1 t Rec.dX, dY := lin fl dd x0 x1 t Rec.dY,
            dat := old.dat, xrt := 0, yrt := 0 }, s)
      | _, _ => .ub
    else if it < ndp ∨ it + ndp > s.vec.length then .ub
    else
      let w := (s.vec.drop (it - ndp)).take (2 * ndp)
      .ok (if ((ndp : Int) * 2 = degree + 1) then .requested else .decreased,
        { t := t, xp := lagSum fl dd w t Rec.xp, yp := lagSum fl dd w t Rec.yp,
          dut := fl (lagSum fl dd w t (ut1tai fl) + dat t),
          lod := lagSum fl dd w t Rec.lod, dX := lagSum fl dd w t Rec.dX, dY := lagSum fl dd w t Rec.dY,
          dat := old.dat, xrt := 0, yrt := 0 }, s)

end

end Verif.RoundedEop
