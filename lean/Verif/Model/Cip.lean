import Verif.Model.Base
import Verif.Model.Fundarg
import Verif.Model.CipX
import Verif.Model.CipY
import Verif.Model.CipXY
/-
Celestial intermediate pole coordinates (src/lib/iau/xcip06a.cpp, ycip06a.cpp, xycip06a.cpp,
xycip06a_xy.cpp). Exact real arithmetic. Arrays of fundamental arguments are functions of the index.
-/
namespace Verif.Cip
open Verif Angle Fundarg

/-- `has_planetary_args` (xcip06a.cpp:19-22). -/
def Row.hasPlanetary (s : Row) : Bool := (List.range' 5 9).any fun i => s.f.getD i 0 != 0

/-- `XYCipSeriesData::arg` (xcip06a.cpp:28-37, ycip06a.cpp:28-37; s06.cpp:28-37 is the same). -/
noncomputable def Row.arg (s : Row) (fargs : ℕ → ℝ) : ℝ :=
  let arg := fargs 0 * s.f.getD 0 0 + fargs 1 * s.f.getD 1 0 + fargs 2 * s.f.getD 2 0 + fargs 3 * s.f.getD 3 0 +
    fargs 4 * s.f.getD 4 0
  if s.hasPlanetary then (List.range' 5 9).foldl (fun arg i => arg + fargs i * s.f.getD i 0) arg
  else arg

/-- `KahanSum` (kahan.hpp:8-37) in real arithmetic. -/
structure KSum where
  sum : ℝ
  err : ℝ

/-- `operator+=` (kahan.hpp:18-30). -/
noncomputable def KSum.add (k : KSum) (v : ℝ) : KSum :=
  let t := k.sum + v
  if |k.sum| ≥ |v| then ⟨t, k.err + ((k.sum - t) + v)⟩ else ⟨t, k.err + ((v - t) + k.sum)⟩

/-- Conversion to `double` (kahan.hpp:36). -/
noncomputable def KSum.toDouble (k : KSum) : ℝ := k.sum + k.err

/-- One of the loops over a series (xcip06a.cpp:6474-6483 and the four that follow, ycip06a.cpp the same). -/
noncomputable def seriesSum (fargs : ℕ → ℝ) (rows : List Row) : ℝ :=
  (rows.foldl (fun k s =>
    let arg := s.arg fargs
    let ca := Real.cos arg
    let sa := Real.sin arg
    k.add ((s.acj / 100 : ℝ) * ca + (s.asj / 100 : ℝ) * sa)) (⟨0, 0⟩ : KSum)).toDouble

/-- `detail::xcip06a` (xcip06a.cpp:6471-6549), microarcseconds. -/
noncomputable def xcip06a (fargs : ℕ → ℝ) (t : ℝ) : ℝ :=
  let x4 := seriesSum fargs x4Series
  let x3 := seriesSum fargs x3Series
  let x2 := seriesSum fargs x2Series
  let x1 := seriesSum fargs x1Series
  let x0 := seriesSum fargs x0Series
  let xpoly := -16617 + (2004191898 + (-429782.9 + (-198618.34 + (7.578 + 5.9285 * t) * t) * t) * t) * t
  let xseries := x0 + (x1 + (x2 + (x3 + x4 * t) * t) * t) * t
  xseries + xpoly

/-- `detail::ycip06a` (ycip06a.cpp:1353-1430), microarcseconds. -/
noncomputable def ycip06a (fargs : ℕ → ℝ) (t : ℝ) : ℝ :=
  let y4 := seriesSum fargs y4Series
  let y3 := seriesSum fargs y3Series
  let y2 := seriesSum fargs y2Series
  let y1 := seriesSum fargs y1Series
  let y0 := seriesSum fargs y0Series
  let ypoly := -6951 + (-25896 + (-22407274.7 + (1900.59 + (1112.526 + 0.1358 * t) * t) * t) * t) * t
  let yseries := y0 + (y1 + (y2 + (y3 + y4 * t) * t) * t) * t
  ypoly + yseries

/-- `Freq::arg` (xycip06a_xy.cpp:24-31). -/
noncomputable def Freq.arg (s : Freq) (fa : ℕ → ℝ) : ℝ :=
  s.f.getD 0 0 * fa 0 + s.f.getD 1 0 * fa 1 + s.f.getD 2 0 * fa 2 + s.f.getD 3 0 * fa 3 + s.f.getD 4 0 * fa 4

/-- `XyPlntry::arg` (xycip06a_xy.cpp:47-58). -/
noncomputable def Pln.arg (e : Pln) (fa : ℕ → ℝ) : ℝ :=
  e.f.getD 0 0 * fa 0 + e.f.getD 1 0 * fa 1 + e.f.getD 2 0 * fa 2 + e.f.getD 3 0 * fa 3 + e.f.getD 4 0 * fa 4 +
    e.f.getD 5 0 * fa 5 + e.f.getD 6 0 * fa 6 + e.f.getD 7 0 * fa 7 + e.f.getD 8 0 * fa 8

/-- The array `tpow` (xycip06a_xy.cpp:14781-14784). -/
def tpow (t : ℝ) : List ℝ := [1, t * 1, t * (t * 1), t * (t * (t * 1)), t * (t * (t * (t * 1)))]

/-- One of the two inner loops (xycip06a_xy.cpp:14796-14805, 14806-14815): `n` rows are read from `it`;
reading past the table, or past `tpow`, is undefined. Returns the iterator and the accumulated series. -/
noncomputable def rowsLoop (fargs : ℕ → ℝ) (t argls : ℝ) : Nat → List Pln → ℝ → Res (List Pln × ℝ)
  | 0, it, ser => .ok (it, ser)
  | _ + 1, [], _ => .ub
  | n + 1, e :: it, ser =>
    let ca := Real.cos argls
    let sa := Real.sin argls
    let plterms := e.sumpl
    let arg := if plterms ≠ 0 then argls + e.arg (fun i => fargs (i + 5)) else argls
    let cax := if plterms ≠ 0 then Real.cos arg else ca
    let sax := if plterms ≠ 0 then Real.sin arg else sa
    match (tpow t)[e.pow]? with
    | none => .ub
    | some tp => rowsLoop fargs t argls n it (ser + ((e.ac / 100 : ℝ) * cax + (e.as / 100 : ℝ) * sax) * tp)

/-- The outer loop (xycip06a_xy.cpp:14788-14817). -/
noncomputable def xyLoop (fargs : ℕ → ℝ) (t : ℝ) : List Freq → List Pln → ℝ → ℝ → Res (ℝ × ℝ)
  | [], _, xser, yser => .ok (xser, yser)
  | s :: fs, it, xser, yser =>
    let argls := s.arg fargs
    (rowsLoop fargs t argls s.nx it xser).bind fun a =>
      (rowsLoop fargs t argls s.ny a.1 yser).bind fun b =>
        xyLoop fargs t fs b.1 a.2 b.2

/-- `detail::xycip06a` (xycip06a_xy.cpp:14779-14846), microarcseconds. -/
noncomputable def xycip06aDetail (fargs : ℕ → ℝ) (t : ℝ) : Res (ℝ × ℝ) :=
  (xyLoop fargs t xyLunSol xyPln 0 0).bind fun s =>
    let xpoly := -16617 + (2004191898 + (-429782.9 + (-198618.34 + (7.578 + 5.9285 * t) * t) * t) * t) * t
    let ypoly := -6951 + (-25896 + (-22407274.7 + (1900.59 + (1112.526 + 0.1358 * t) * t) * t) * t) * t
    .ok (s.1 + xpoly, s.2 + ypoly)

/-- The array `fa` of fundamental arguments (xycip06a_xy.cpp:14853-14862, xycip06a.cpp:12-27,
s06.cpp:355-363). -/
noncomputable def fargs14 (t : ℝ) : List ℝ :=
  [fal03 t, falp03 t, faf03 t, fad03 t, faom03 t, fame03 t, fave03 t, fae03 t, fama03 t, faju03 t, fasa03 t,
    faur03 t, fane03 t, fapa03 t]

/-- What `xycip06a` returns: X and Y in radians, and the arguments it stores in `outargs` when given. -/
structure XY where
  x : ℝ
  y : ℝ
  outargs : List ℝ

/-- `dso::xycip06a` (xycip06a_xy.cpp:14848-14876). `t`: Julian centuries of TT since J2000. -/
noncomputable def xycip06a (t : ℝ) : Res XY :=
  let fa := fargs14 t
  (xycip06aDetail (fun i => fa.getD i 0) t).bind fun s =>
    .ok ⟨sec2rad (s.1 * 1e-6), sec2rad (s.2 * 1e-6), fa⟩

/-- `dso::extra::xycip06a` (xycip06a.cpp:6-44). -/
noncomputable def xycip06aExtra (t : ℝ) : XY :=
  let fa := fargs14 t
  let x := xcip06a (fun i => fa.getD i 0) t
  let y := ycip06a (fun i => fa.getD i 0) t
  ⟨sec2rad (x * 1e-6), sec2rad (y * 1e-6), fa⟩

end Verif.Cip
