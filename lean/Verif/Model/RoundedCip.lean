import Verif.Model.Rounded
import Verif.Model.Cip
/-
CIP coordinates in floating-point arithmetic: `detail::xycip06a` and `xycip06a` (src/lib/iau/xycip06a_xy.cpp) as in `Model/Cip`, with the
rounding `fl` after every operation, products fused with a sum excepted (`Model/Arith`). `fsin`, `fcos` are the functions of the C library.
-/
namespace Verif.RoundedCip
open Verif Verif.Cip Verif.Rounded
open Verif.Angle (fmod)

section
variable (fl : Arith) (fsin fcos s2r : ℝ → ℝ)

/-- `f[0] * fa[0] + f[1] * fa[1] + … ` with `n + 1` products, from left to right; the multipliers become doubles exactly. -/
noncomputable def dot (n : ℕ) (f : List Int) (fa : ℕ → ℝ) : ℝ :=
  (List.range' 1 n).foldl (fun a i => fl (a + fl.pr i (f.getD i 0 * fa i))) (fl.pr 0 (f.getD 0 0 * fa 0))

/-- `Freq::arg` (xycip06a_xy.cpp:24-31). -/
noncomputable def freqArg (s : Freq) (fa : ℕ → ℝ) : ℝ := dot fl 4 s.f fa

/-- `XyPlntry::arg` (xycip06a_xy.cpp:47-58). -/
noncomputable def plnArg (e : Pln) (fa : ℕ → ℝ) : ℝ := dot fl 8 e.f fa

/-- The array `tpow` (xycip06a_xy.cpp:14781-14784). -/
noncomputable def tpow (t : ℝ) : List ℝ :=
  [1, fl (t * 1), fl (t * fl (t * 1)), fl (t * fl (t * fl (t * 1))), fl (t * fl (t * fl (t * fl (t * 1))))]

/-- One of the two inner loops (xycip06a_xy.cpp:14796-14805, 14806-14815). -/
noncomputable def rowsLoop (fargs : ℕ → ℝ) (t argls : ℝ) : Nat → List Pln → ℝ → Res (List Pln × ℝ)
  | 0, it, ser => .ok (it, ser)
  | _ + 1, [], _ => .ub
  | n + 1, e :: it, ser =>
    let ca := fcos argls
    let sa := fsin argls
    let plterms := e.sumpl
    let arg := if plterms ≠ 0 then fl (argls + plnArg fl e (fun i => fargs (i + 5))) else argls
    let cax := if plterms ≠ 0 then fcos arg else ca
    let sax := if plterms ≠ 0 then fsin arg else sa
    match (tpow fl t)[e.pow]? with
    | none => .ub
    | some tp => rowsLoop fargs t argls n it
        (fl (ser + fl.pr 0 (fl (fl.pr 1 (lit fl (e.ac / 100) * cax) + fl.pr 2 (lit fl (e.as / 100) * sax)) * tp)))

/-- The outer loop (xycip06a_xy.cpp:14788-14817). -/
noncomputable def xyLoop (fargs : ℕ → ℝ) (t : ℝ) : List Freq → List Pln → ℝ → ℝ → Res (ℝ × ℝ)
  | [], _, xser, yser => .ok (xser, yser)
  | s :: fs, it, xser, yser =>
    let argls := freqArg fl s fargs
    (rowsLoop fl fsin fcos fargs t argls s.nx it xser).bind fun a =>
      (rowsLoop fl fsin fcos fargs t argls s.ny a.1 yser).bind fun b =>
        xyLoop fargs t fs b.1 a.2 b.2

/-- `detail::xycip06a` (xycip06a_xy.cpp:14779-14846), microarcseconds. -/
noncomputable def xycip06aDetail (fargs : ℕ → ℝ) (t : ℝ) : Res (ℝ × ℝ) :=
  (xyLoop fl fsin fcos fargs t xyLunSol xyPln 0 0).bind fun s =>
    let xpoly := horner fl t [-16617, 2004191898, -429782.9, -198618.34, 7.578, 5.9285]
    let ypoly := horner fl t [-6951, -25896, -22407274.7, 1900.59, 1112.526, 0.1358]
    .ok (fl (s.1 + xpoly), fl (s.2 + ypoly))

/-- A mean longitude (e.g. fundarg.hpp:217-219): `fmod(c0 + c1 * t, D2PI)`. -/
noncomputable def longitude (c0 c1 t : ℝ) : ℝ := fmod (fl (lit fl c0 + fl.pr 0 (lit fl c1 * t))) (D2PI fl)

/-- The array `fa` of fundamental arguments (xycip06a_xy.cpp:14853-14862; fundarg.hpp:217-323). -/
noncomputable def fargs14 (t : ℝ) : List ℝ :=
  [fal03 fl s2r t, falp03 fl s2r t, faf03 fl s2r t, fad03 fl s2r t, faom03 fl s2r t,
    longitude fl 4.402608842 2608.7903141574 t, longitude fl 3.176146697 1021.3285546211 t,
    longitude fl 1.753470314 628.3075849991 t, longitude fl 6.203480913 334.0612426700 t,
    longitude fl 0.599546497 52.9690962641 t, longitude fl 0.874016757 21.3299104960 t,
    longitude fl 5.481293872 7.4781598567 t, longitude fl 5.311886287 3.8133035638 t,
    fl (fl (lit fl 0.024381750 + fl.pr 0 (lit fl 0.00000538691 * t)) * t)]

/-- `xycip06a` (xycip06a_xy.cpp:14848-14876): X and Y in radians. -/
noncomputable def xycip06a (t : ℝ) : Res (ℝ × ℝ) :=
  (xycip06aDetail fl fsin fcos (fun i => (fargs14 fl s2r t).getD i 0) t).bind fun d =>
    .ok (s2r (fl (d.1 * lit fl 1e-6)), s2r (fl (d.2 * lit fl 1e-6)))

end

end Verif.RoundedCip
