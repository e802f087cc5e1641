import Verif.Model.RoundedSofa
/-
CIP coordinates from the separate series of X and Y in floating-point arithmetic: `extra::xycip06a` (src/lib/iau/xycip06a.cpp, xcip06a.cpp, ycip06a.cpp) as in
`Model/Cip`, with the rounding `fl` after every operation and every literal, products fused with a sum excepted (`Model/Arith`), and the comparison of both
implementations with SOFA, test/sofa/xy06a.cpp. The draws and SOFA's function of the epoch are parameters.
-/
namespace Verif.RoundedSeries
open Verif Verif.Cip Verif.Rounded Verif.RoundedCip Verif.RoundedOrient

section
variable (fl : Arith) (fsin fcos s2r r2s : ℝ → ℝ) (ck : Clock)

/-- `KahanSum::operator+=` (kahan.hpp:18-30). -/
noncomputable def kadd (k : KSum) (v : ℝ) : KSum :=
  let t := fl (k.sum + v)
  if |k.sum| ≥ |v| then ⟨t, fl (k.err + fl (fl (k.sum - t) + v))⟩ else ⟨t, fl (k.err + fl (fl (v - t) + k.sum))⟩

/-- One of the loops over a series (xcip06a.cpp:6475-6483 and the four that follow, ycip06a.cpp the same). The argument of a row is that of `CioSeriesData::arg`
(xcip06a.cpp:28-37, ycip06a.cpp:28-37 and s06.cpp:28-37 agree). -/
noncomputable def seriesLoop (fargs : ℕ → ℝ) (rows : List Row) (k : KSum) : KSum :=
  rows.foldl (fun k s =>
    let arg := RoundedGcrs.rowArg fl s fargs
    let ca := fcos arg
    let sa := fsin arg
    kadd fl k (fl (fl.pr 0 (lit fl (s.acj / 100) * ca) + fl.pr 1 (lit fl (s.asj / 100) * sa)))) k

/-- The loop and the conversion to `double` (kahan.hpp:36). -/
noncomputable def seriesSum (fargs : ℕ → ℝ) (rows : List Row) : ℝ :=
  let k := seriesLoop fl fsin fcos fargs rows ⟨0, 0⟩
  fl (k.sum + k.err)

/-- `detail::xcip06a` (xcip06a.cpp:6471-6549), microarcseconds. The factors of the products with `t` in `xpoly` are the other way round in the source. -/
noncomputable def xcip06a (fargs : ℕ → ℝ) (t : ℝ) : ℝ :=
  let x4 := seriesSum fl fsin fcos fargs x4Series
  let x3 := seriesSum fl fsin fcos fargs x3Series
  let x2 := seriesSum fl fsin fcos fargs x2Series
  let x1 := seriesSum fl fsin fcos fargs x1Series
  let x0 := seriesSum fl fsin fcos fargs x0Series
  let xpoly := horner fl t [-16617, 2004191898, -429782.9, -198618.34, 7.578, 5.9285]
  let xseries := fl (x0 + fl.pr 0 (fl (x1 + fl.pr 1 (fl (x2 + fl.pr 2 (fl (x3 + fl.pr 3 (x4 * t)) * t)) * t)) * t))
  fl (xseries + xpoly)

/-- `detail::ycip06a` (ycip06a.cpp:1353-1430), microarcseconds. The factors of the products with `t` in `ypoly` are the other way round in the source. -/
noncomputable def ycip06a (fargs : ℕ → ℝ) (t : ℝ) : ℝ :=
  let y4 := seriesSum fl fsin fcos fargs y4Series
  let y3 := seriesSum fl fsin fcos fargs y3Series
  let y2 := seriesSum fl fsin fcos fargs y2Series
  let y1 := seriesSum fl fsin fcos fargs y1Series
  let y0 := seriesSum fl fsin fcos fargs y0Series
  let ypoly := horner fl t [-6951, -25896, -22407274.7, 1900.59, 1112.526, 0.1358]
  let yseries := fl (y0 + fl.pr 0 (fl (y1 + fl.pr 1 (fl (y2 + fl.pr 2 (fl (y3 + fl.pr 3 (y4 * t)) * t)) * t)) * t))
  fl (ypoly + yseries)

/-- `extra::xycip06a` (xycip06a.cpp:6-45): X and Y in radians. -/
noncomputable def xycip06aExtra (t : ℝ) : ℝ × ℝ :=
  (s2r (fl (xcip06a fl fsin fcos (fun i => (fargs14 fl s2r t).getD i 0) t * lit fl 1e-6)),
    s2r (fl (ycip06a fl fsin fcos (fun i => (fargs14 fl s2r t).getD i 0) t * lit fl 1e-6)))

/-- An assertion (test/sofa/xy06a.cpp:35, 37, 44, 46): less than `tol` arcseconds apart. -/
def agree (tol sofa mine : ℝ) : Prop := r2s |fl (sofa - mine)| < lit fl tol

open Classical in
/-- test/sofa/xy06a.cpp:15-53; `sofa` is `iauXy06`. -/
noncomputable def xyCheck (sofa : Iau.Epoch → ℝ × ℝ) : List Iau.Epoch → Res Int
  | [] => .ok 0
  | e :: es =>
    (RoundedCip.xycip06a fl fsin fcos s2r (ck.cents e)).bind fun m =>
      if agree fl r2s 1e-9 (sofa e).1 m.1 ∧ agree fl r2s 1e-9 (sofa e).2 m.2 then
        let x := xycip06aExtra fl fsin fcos s2r (ck.cents e)
        if agree fl r2s 1e-8 (sofa e).1 x.1 ∧ agree fl r2s 1e-8 (sofa e).2 x.2 then xyCheck sofa es else .abort
      else .abort

end

end Verif.RoundedSeries
