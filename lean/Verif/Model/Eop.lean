import Verif.Model.Base
import Mathlib.Algebra.Order.Field.Rat
import Mathlib.Data.List.Basic
/-
Earth orientation series (include/eop.hpp, src/lib/eop). Epochs (TT) are exact numbers of days; doubles
are exact numbers of an ordered field `K`: the rationals, or the reals when the zonal tides enter.
-/
namespace Verif.Eop

variable {K : Type} [Field K] [LinearOrder K]

/-- `EopRecord` (eop.hpp:121-180). -/
@[ext] structure Rec (K : Type) where
  t : K
  xp : K
  yp : K
  dut : K
  lod : K
  dX : K
  dY : K
  dat : K
  xrt : K
  yrt : K
deriving DecidableEq

/-- `EopInterpolationResult` (eop.hpp:233-239). -/
inductive Status where
  | prior
  | later
  | linear
  | decreased
  | requested
deriving DecidableEq, Repr

/-- `EopSeries` (eop.hpp:182-200): the vector, its capacity, and the cached iterator `last_it` as an index
into this object's vector; `none` if the iterator does not refer to it (invalidated by the vector, or copied
from another object). The work array has no observable contents. -/
structure Series (K : Type) where
  vec : List (Rec K)
  cap : Nat
  last : Option Nat

/-- Default construction (eop.hpp:188-194): `last_it{mvec.end()}`. -/
def Series.new : Series K := ⟨[], 0, some 0⟩

/-- `clear` (eop.hpp:250): invalidates iterators. -/
def Series.clear (s : Series K) : Series K := { s with vec := [], last := none }

/-- `reserve` (eop.hpp:264): reallocation invalidates iterators. -/
def Series.reserve (s : Series K) (c : Nat) : Series K :=
  if c ≤ s.cap then s else { s with cap := c, last := none }

/-- `push_back` (eop.hpp:293): the end iterator is invalidated, and all iterators if the vector grows. -/
def Series.pushBack (s : Series K) (r : Rec K) : Series K :=
  let keep := match s.last with
    | some i => if i < s.vec.length ∧ s.vec.length < s.cap then some i else none
    | none => none
  ⟨s.vec ++ [r], if s.vec.length < s.cap then s.cap else max (s.vec.length + 1) (2 * s.cap), keep⟩

/-- `reset_vec_iterator` (eop.hpp:295-297), with its default argument or an index; forming an iterator
beyond the end is undefined. -/
def Series.reset (s : Series K) (offset : Int) : Res (Series K) :=
  if offset < 0 then .ok { s with last := some s.vec.length }
  else if offset ≤ s.vec.length then .ok { s with last := some offset.toNat } else .ub

/-- The implicit copy constructor: `last_it` is copied, i.e. refers to the source's vector. -/
def Series.copy (s : Series K) : Series K := ⟨s.vec, s.vec.length, none⟩

/-- `upper_bound` (eop.hpp:377-392): index of the first record with `t < record.t` (what
`std::upper_bound` returns on an ordered vector). -/
def upperBound (t : K) (v : List (Rec K)) : Nat := v.findIdx (fun r => t < r.t)

/-- The search with the cached iterator (lagrange_interpolation.cpp:11-20, approx_dut1.cpp:7-16): index of
`it`. -/
def Series.hunt (s : Series K) (t : K) : Res Nat :=
  match s.last with
  | none => .ub
  | some l =>
    if l ≠ 0 ∧ l ≠ s.vec.length then
      match s.vec[l - 1]?, s.vec[l]? with
      | some a, some b => if !(decide (a.t ≥ t ∧ b.t < t)) then .ok (upperBound t s.vec) else .ok l
      | _, _ => .ub
    else .ok (upperBound t s.vec)

/-- `it - ndp < begin || it + (ndp - 1) >= end` (lagrange_interpolation.cpp:42, 46). Iterators are
positions here; forming one outside the vector is not counted as an error, reading there is. -/
def noFit (it n : Nat) (ndp : Int) : Bool := (it : Int) - ndp < 0 || (it : Int) + (ndp - 1) ≥ n

/-- The loop `while (ndp > 0 && no fit) --ndp` (lagrange_interpolation.cpp:45-48), on the value after the
first decrement. -/
def shrink (it n : Nat) : Nat → Nat
  | 0 => 0
  | k + 1 => if noFit it n (k + 1 : Nat) then shrink it n k else k + 1

/-- Number of data points on each side (lagrange_interpolation.cpp:40-49), for `degree >= 0`. -/
def dataPoints (it n : Nat) (degree : Nat) : Nat :=
  let ndp := (degree + 1) / 2
  if noFit it n ndp then shrink it n (ndp - 1) else ndp

/-- `nom[j]` (lagrange_interpolation.cpp:93-105): product over the window without `j`. -/
def nom (w : List (Rec K)) (t : K) (j : Nat) : K :=
  (List.range w.length).foldl (fun a k => if j ≠ k then a * (t - (w[k]?.map Rec.t).getD 0) else a) 1

/-- `dom[j]` (lagrange_interpolation.cpp:94-105). -/
def dom (w : List (Rec K)) (j : Nat) : K :=
  (List.range w.length).foldl
    (fun a k => if j ≠ k then a * ((w[j]?.map Rec.t).getD 0 - (w[k]?.map Rec.t).getD 0) else a) 1

/-- One quantity of the interpolation loop (lagrange_interpolation.cpp:109-120): `Σ q(record j) * fac`. -/
def lagSum (w : List (Rec K)) (t : K) (q : Rec K → K) : K :=
  (List.range w.length).foldl (fun a j => a + ((w[j]?.map q).getD 0) * (nom w t j / dom w j)) 0

/-- Linear interpolation of one quantity (lagrange_interpolation.cpp:58-75). -/
def lin (x0 x1 : Rec K) (t : K) (q : Rec K → K) : K :=
  q x0 * ((x1.t - t) / (x1.t - x0.t)) + q x1 * ((t - x0.t) / (x1.t - x0.t))

/-- `interpolate` (lagrange_interpolation.cpp:5-128). `dat` is ΔAT at the day of a TT epoch
(`dso::dat(t.tt2utc())`, library `datetime`); `old` is the caller's record, whose ΔAT is kept. A negative
degree makes the loops run off the vector. The result: status, record, and the series with its cache. -/
def Series.interpolate (dat : K → K) (s : Series K) (t : K) (old : Rec K) (degree : Int) :
    Res (Status × Rec K × Series K) :=
  if degree > 9 then .abort else
  (s.hunt t).bind fun it =>
  let s := { s with last := some it }
  if it = 0 then
    match s.vec[0]? with
    | some r => .ok (.prior, { r with t := t }, s)
    | none => .ub
  else if it = s.vec.length then
    match s.vec[it - 1]? with
    | some r => .ok (.later, { r with t := t }, s)
    | none => .ub
  else if degree < 0 then .ub
  else
    let ndp := dataPoints it s.vec.length degree.toNat
    if ndp = 1 then
      match s.vec[it - 1]?, s.vec[it]? with
      | some x0, some x1 =>
        .ok (.linear,
          { t := t, xp := lin x0 x1 t Rec.xp, yp := lin x0 x1 t Rec.yp,
            dut := lin x0 x1 t (fun r => r.dut - r.dat) + dat t,
            lod := lin x0 x1 t Rec.lod, dX := lin x0 x1 t Rec.dX, dY := lin x0 x1 t Rec.dY,
            dat := old.dat, xrt := 0, yrt := 0 }, s)
      | _, _ => .ub
    else if it < ndp ∨ it + ndp > s.vec.length then .ub
    else
      let w := (s.vec.drop (it - ndp)).take (2 * ndp)
      .ok (if ((ndp : Int) * 2 = degree + 1) then .requested else .decreased,
        { t := t, xp := lagSum w t Rec.xp, yp := lagSum w t Rec.yp,
          dut := lagSum w t (fun r => r.dut - r.dat) + dat t,
          lod := lagSum w t Rec.lod, dX := lagSum w t Rec.dX, dY := lagSum w t Rec.dY,
          dat := old.dat, xrt := 0, yrt := 0 }, s)

/-- `approx_dut1` (approx_dut1.cpp:3-49). -/
def Series.approxDut1 (dat : K → K) (s : Series K) (t : K) : Res (Status × K × Series K) :=
  (s.hunt t).bind fun it =>
  let s := { s with last := some it }
  if it = 0 then
    match s.vec[0]? with
    | some r => .ok (.prior, r.dut, s)
    | none => .ub
  else if it = s.vec.length then
    match s.vec[it - 1]? with
    | some r => .ok (.later, r.dut, s)
    | none => .ub
  else
    match s.vec[it - 1]?, s.vec[it]? with
    | some x0, some x1 => .ok (.linear, lin x0 x1 t (fun r => r.dut - r.dat) + dat t, s)
    | _, _ => .ub

/-- `regularize_impl` (regularize.cpp:4-22). `ut1Cor`, `lodCor`: the zonal tide corrections at an epoch in
microseconds (`fundarg` and `deop_zonal_tide`). -/
def Series.regularizeImpl (ut1Cor lodCor : K → K) (s : Series K) (addremove : Int) : Series K :=
  let f : K := if addremove > 0 then 1 / 1000000 else -(1 / 1000000)
  { s with vec := s.vec.map (fun r => { r with dut := r.dut + ut1Cor r.t * f, lod := r.lod + lodCor r.t * f }) }

/-- `regularize` and `deregularize` (eop.hpp:276-280). -/
def Series.regularize (ut1Cor lodCor : K → K) (s : Series K) : Series K := s.regularizeImpl ut1Cor lodCor (-1)
def Series.deregularize (ut1Cor lodCor : K → K) (s : Series K) : Series K := s.regularizeImpl ut1Cor lodCor 1

end Verif.Eop
