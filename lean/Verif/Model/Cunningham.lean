import Verif.Model.Tri
import Verif.Model.Mat3
/-
`sh2gradient_cunningham` (src/lib/gravity/sh_cunningham_normalized_gradient.cpp): acceleration and gradient of a spherical harmonic potential.
Arithmetic on `double` is exact. The two work arrays are different objects.
-/
namespace Verif.Cunningham
open Verif

/-- Result: acceleration and gradient. -/
structure Out where
  a : V3
  g : M3

/-- The part of `StokesCoeffs` that is read: degree, order, C, S, GM, Re (stokes_coefficients.hpp:166-215). -/
structure Coeffs where
  degree : Int
  order : Int
  C : Int → Int → ℝ
  S : Int → Int → ℝ
  GM : ℝ
  Re : ℝ

/-- `f1` of the table of factors (sh_cunningham_normalized_gradient.cpp:25-36), which has 201 rows. -/
noncomputable def f1 (n m : Int) : Res ℝ :=
  if 0 ≤ m ∧ m ≤ n ∧ n < 201 then
    if n = m then (if n = 0 then .ok 0 else if n = 1 then .ok (Real.sqrt 3) else .ok (Real.sqrt ((2 * n + 1) / (2 * n))))
    else .ok (Real.sqrt ((2 * n + 1) / ((n + m) * (n - m)) * (2 * n - 1)))
  else .ub

/-- `f2` of the table of factors (sh_cunningham_normalized_gradient.cpp:37-39). -/
noncomputable def f2 (n m : Int) : Res ℝ :=
  if 0 ≤ m ∧ m ≤ n ∧ n < 201 then
    if n = m then .ok 0 else .ok (-Real.sqrt ((2 * n + 1) / ((n + m) * (n - m)) * (n - m - 1) * (n + m - 1) / (2 * n - 3)))
  else .ub

/-- The loop down a column of one array (sh_cunningham_normalized_gradient.cpp:131-133, 146-149). -/
noncomputable def column (z rr : ℝ) (degree m : Int) (n : Int) (A : Tri) : Res Tri :=
  (f1 n m).bind fun a => (A.get (n - 1) m).bind fun p1 => (f2 n m).bind fun b => (A.get (n - 2) m).bind fun p2 =>
  A.set n m (a * z * p1 + b * rr * p2)

/-- The diagonal element (sh_cunningham_normalized_gradient.cpp:138-139, 155-156). -/
noncomputable def diag (x y : ℝ) (m : Int) (s : Tri × Tri) : Res (Tri × Tri) :=
  (f1 m m).bind fun f => (s.1.get (m - 1) (m - 1)).bind fun p => (s.2.get (m - 1) (m - 1)).bind fun w =>
  (s.1.set m m (f * (x * p - y * w))).bind fun M =>
  (M.get (m - 1) (m - 1)).bind fun p => (s.2.set m m (f * (y * p + x * w))).bind fun W => .ok (M, W)

/-- One order (sh_cunningham_normalized_gradient.cpp:136-150). -/
noncomputable def order (x y z rr : ℝ) (degree m : Int) (s : Tri × Tri) : Res (Tri × Tri) :=
  (diag x y m s).bind fun s =>
  (f1 (m + 1) m).bind fun f => (s.1.get m m).bind fun p => (s.1.set (m + 1) m (f * z * p)).bind fun M =>
  (s.2.get m m).bind fun w => (s.2.set (m + 1) m (f * z * w)).bind fun W =>
  forEach (irange (m + 2) (degree + 2)) (fun n s =>
    (column z rr degree m n s.1).bind fun M => (column z rr degree m n s.2).bind fun W => .ok (M, W)) (M, W)

/-- The first part: the functions M and W (sh_cunningham_normalized_gradient.cpp:107-161). -/
noncomputable def fill (r : V3) (Re : ℝ) (degree ord : Int) (s : Tri × Tri) : Res (Tri × Tri) :=
  let M := s.1.fill 0
  let W := s.2.fill 0
  let rs : V3 := ⟨r.x / Re, r.y / Re, r.z / Re⟩
  let rr := (1 / rs.norm) ^ 2
  let x := rs.x * rr
  let y := rs.y * rr
  let z := rs.z * rr
  (M.set 0 0 (1 / rs.norm)).bind fun M =>
  (M.get 0 0).bind fun p => (M.set 1 0 (Real.sqrt 3 * z * p)).bind fun M =>
  (forEach (irange 2 (degree + 2)) (column z rr degree 0) M).bind fun M =>
  (forEach (irange 1 (ord + 1)) (order x y z rr degree) (M, W)).bind fun s =>
  diag x y (ord + 2) s

/-- Reading an element of both arrays. -/
def rd (s : Tri × Tri) (i j : Int) : Res (ℝ × ℝ) := (s.1.get i j).bind fun a => (s.2.get i j).bind fun b => .ok (a, b)

/-- `acc += ...; gradient += ...` -/
noncomputable def Out.add (o : Out) (fa : ℝ) (a : V3) (fg : ℝ) (gxx gxy gxz gyy gyz gzz : ℝ) : Out :=
  ⟨o.a + fa * a, o.g + fg * (⟨gxx, gxy, gxz, gxy, gyy, gyz, gxz, gyz, gzz⟩ : M3)⟩

/-- One term with m ≥ 2 (sh_cunningham_normalized_gradient.cpp:172-249). -/
noncomputable def term (C S : Int → Int → ℝ) (s : Tri × Tri) (m n : Int) (o : Out) : Res Out :=
  (rd s (n + 1) (m - 1)).bind fun am1 => (rd s (n + 1) m).bind fun am0 => (rd s (n + 1) (m + 1)).bind fun ap1 =>
  (rd s (n + 2) (m - 2)).bind fun gm2 => (rd s (n + 2) (m - 1)).bind fun gm1 => (rd s (n + 2) m).bind fun gm0 =>
  (rd s (n + 2) (m + 1)).bind fun gp1 => (rd s (n + 2) (m + 2)).bind fun gp2 =>
  let c := C n m
  let d := S n m
  let wm1 := Real.sqrt (((n : ℝ) - m + 1) * (n - m + 2))
  let wm0 := Real.sqrt (((n : ℝ) - m + 1) * (n + m + 1))
  let wp1 := Real.sqrt (((n : ℝ) + m + 1) * (n + m + 2))
  let Cm1 := wm1 * am1.1
  let Sm1 := wm1 * am1.2
  let Cm0 := wm0 * am0.1
  let Sm0 := wm0 * am0.2
  let Cp1 := wp1 * ap1.1
  let Sp1 := wp1 * ap1.2
  let a : V3 := ⟨c * (Cm1 - Cp1) + d * (Sm1 - Sp1), c * (-Sm1 - Sp1) + d * (Cm1 + Cp1), c * (-2 * Cm0) + d * (-2 * Sm0)⟩
  let wm2 := Real.sqrt (((n : ℝ) - m + 1) * (n - m + 2) * (n - m + 3) * (n - m + 4)) * (if m = 2 then Real.sqrt 2 else 1)
  let wm1 := Real.sqrt (((n : ℝ) - m + 1) * (n - m + 2) * (n - m + 3) * (n + m + 1))
  let wm0 := Real.sqrt (((n : ℝ) - m + 1) * (n - m + 2) * (n + m + 1) * (n + m + 2))
  let wp1 := Real.sqrt (((n : ℝ) - m + 1) * (n + m + 1) * (n + m + 2) * (n + m + 3))
  let wp2 := Real.sqrt (((n : ℝ) + m + 1) * (n + m + 2) * (n + m + 3) * (n + m + 4))
  let Cm2 := wm2 * gm2.1
  let Sm2 := wm2 * gm2.2
  let Cm1 := wm1 * gm1.1
  let Sm1 := wm1 * gm1.2
  let Cm0 := wm0 * gm0.1
  let Sm0 := wm0 * gm0.2
  let Cp1 := wp1 * gp1.1
  let Sp1 := wp1 * gp1.2
  let Cp2 := wp2 * gp2.1
  let Sp2 := wp2 * gp2.2
  .ok (o.add (Real.sqrt ((2 * n + 1) / (2 * n + 3))) a (Real.sqrt ((2 * n + 1) / (2 * n + 5)))
    (c * (Cm2 - 2 * Cm0 + Cp2) + d * (Sm2 - 2 * Sm0 + Sp2))
    (c * (-Sm2 + Sp2) + d * (Cm2 - Cp2))
    (c * (-2 * Cm1 + 2 * Cp1) + d * (-2 * Sm1 + 2 * Sp1))
    (c * (-Cm2 - 2 * Cm0 - Cp2) + d * (-Sm2 - 2 * Sm0 - Sp2))
    (c * (2 * Sm1 + 2 * Sp1) + d * (-2 * Cm1 - 2 * Cp1))
    (c * (4 * Cm0) + d * (4 * Sm0)))

/-- One term with m = 1 (sh_cunningham_normalized_gradient.cpp:255-319). -/
noncomputable def term1 (C S : Int → Int → ℝ) (s : Tri × Tri) (n : Int) (o : Out) : Res Out :=
  (rd s (n + 1) 0).bind fun am1 => (rd s (n + 1) 1).bind fun am0 => (rd s (n + 1) 2).bind fun ap1 =>
  (rd s (n + 2) 0).bind fun gm1 => (rd s (n + 2) 1).bind fun gm0 => (rd s (n + 2) 2).bind fun gp1 => (rd s (n + 2) 3).bind fun gp2 =>
  let c := C n 1
  let d := S n 1
  let m : ℝ := 1
  let wm1 := Real.sqrt (((n : ℝ) - m + 1) * (n - m + 2)) * Real.sqrt 2
  let wm0 := Real.sqrt (((n : ℝ) - m + 1) * (n + m + 1))
  let wp1 := Real.sqrt (((n : ℝ) + m + 1) * (n + m + 2))
  let Cm1 := wm1 * am1.1
  let Sm1 := wm1 * am1.2
  let Cm0 := wm0 * am0.1
  let Sm0 := wm0 * am0.2
  let Cp1 := wp1 * ap1.1
  let Sp1 := wp1 * ap1.2
  let a : V3 := ⟨c * (Cm1 - Cp1) + d * (Sm1 - Sp1), c * (-Sm1 - Sp1) + d * (Cm1 + Cp1), c * (-2 * Cm0) + d * (-2 * Sm0)⟩
  let wm1 := Real.sqrt (((n : ℝ) - m + 1) * (n - m + 2) * (n - m + 3) * (n + m + 1)) * Real.sqrt 2
  let wm0 := Real.sqrt (((n : ℝ) - m + 1) * (n - m + 2) * (n + m + 1) * (n + m + 2))
  let wp1 := Real.sqrt (((n : ℝ) - m + 1) * (n + m + 1) * (n + m + 2) * (n + m + 3))
  let wp2 := Real.sqrt (((n : ℝ) + m + 1) * (n + m + 2) * (n + m + 3) * (n + m + 4))
  let Cm1 := wm1 * gm1.1
  let Sm1 := wm1 * gm1.2
  let Cm0 := wm0 * gm0.1
  let Sm0 := wm0 * gm0.2
  let Cp1 := wp1 * gp1.1
  let Sp1 := wp1 * gp1.2
  let Cp2 := wp2 * gp2.1
  let Sp2 := wp2 * gp2.2
  .ok (o.add (Real.sqrt ((2 * n + 1) / (2 * n + 3))) a (Real.sqrt ((2 * n + 1) / (2 * n + 5)))
    (c * (-3 * Cm0 + Cp2) + d * (-Sm0 + Sp2))
    (c * (-Sm0 + Sp2) + d * (-Cm0 - Cp2))
    (c * (-2 * Cm1 + 2 * Cp1) + d * (-2 * Sm1 + 2 * Sp1))
    (c * (-Cm0 - Cp2) + d * (-3 * Sm0 - Sp2))
    (c * (2 * Sp1) + d * (-2 * Cm1 - 2 * Cp1))
    (c * (4 * Cm0) + d * (4 * Sm0)))

/-- One term with m = 0 (sh_cunningham_normalized_gradient.cpp:325-371). -/
noncomputable def term0 (C : Int → Int → ℝ) (s : Tri × Tri) (n : Int) (o : Out) : Res Out :=
  (s.1.get (n + 1) 0).bind fun am0 => (rd s (n + 1) 1).bind fun ap1 =>
  (s.1.get (n + 2) 0).bind fun gm0 => (rd s (n + 2) 1).bind fun gp1 => (rd s (n + 2) 2).bind fun gp2 =>
  let c := C n 0
  let wm0 := Real.sqrt (((n : ℝ) + 1) * (n + 1))
  let wp1 := Real.sqrt (((n : ℝ) + 1) * (n + 2)) / Real.sqrt 2
  let Cm0 := wm0 * am0
  let Cp1 := wp1 * ap1.1
  let Sp1 := wp1 * ap1.2
  let a : V3 := ⟨c * (-2 * Cp1), c * (-2 * Sp1), c * (-2 * Cm0)⟩
  let wm0 := Real.sqrt (((n : ℝ) + 1) * (n + 2) * (n + 1) * (n + 2))
  let wp1 := Real.sqrt (((n : ℝ) + 1) * (n + 1) * (n + 2) * (n + 3)) / Real.sqrt 2
  let wp2 := Real.sqrt (((n : ℝ) + 1) * (n + 2) * (n + 3) * (n + 4)) / Real.sqrt 2
  let Cm0 := wm0 * gm0
  let Cp1 := wp1 * gp1.1
  let Sp1 := wp1 * gp1.2
  let Cp2 := wp2 * gp2.1
  let Sp2 := wp2 * gp2.2
  .ok (o.add (Real.sqrt ((2 * n + 1) / (2 * n + 3))) a (Real.sqrt ((2 * n + 1) / (2 * n + 5)))
    (c * (-2 * Cm0 + 2 * Cp2)) (c * (2 * Sp2)) (c * (4 * Cp1)) (c * (-2 * Cm0 - 2 * Cp2)) (c * (4 * Sp1)) (c * (4 * Cm0)))

/-- The second part: the sums (sh_cunningham_normalized_gradient.cpp:163-373). -/
noncomputable def sums (C S : Int → Int → ℝ) (degree ord : Int) (s : Tri × Tri) : Res Out :=
  (forEach (irange 2 ord).reverse (fun m o => forEach (irange m degree).reverse (term C S s m) o) ⟨0, 0⟩).bind fun o =>
  (forEach (irange 1 degree).reverse (term1 C S s) o).bind fun o =>
  forEach (irange 0 degree).reverse (term0 C s) o

/-- `sh2gradient_cunningham_impl` (sh_cunningham_normalized_gradient.cpp:72-379). -/
noncomputable def impl (C S : Int → Int → ℝ) (r : V3) (degree ord : Int) (Re GM : ℝ) (W M : Tri) : Res Out :=
  if 198 < degree then .abort else
  (fill r Re degree ord (M, W)).bind fun s => (sums C S degree ord s).bind fun o =>
  .ok ⟨GM / (2 * Re * Re) * o.a, GM / (4 * Re * Re * Re) * o.g⟩

/-- `sh2gradient_cunningham` (sh_cunningham_normalized_gradient.cpp:382-460); `none` is a non-zero status, with the results untouched. A
work array that is not given is created, with `junk` in it. -/
noncomputable def gradient (cs : Coeffs) (r : V3) (degree ord : Int) (Re GM : ℝ) (W M : Option Tri) (junk : Int → ℝ) : Res (Option Out) :=
  let degree := if degree < 0 then cs.degree else degree
  let ord := if ord < 0 then cs.order else ord
  if degree < ord then .ok none else
  if cs.degree < degree then .ok none else
  if cs.order < ord then .ok none else
  let Re := if Re < 0 then cs.Re else Re
  let GM := if GM < 0 then cs.GM else GM
  let W := W.getD ⟨(degree + 2).toNat, junk⟩
  let M := M.getD ⟨(degree + 2).toNat, junk⟩
  if (W.rows : Int) < degree + 2 ∨ (M.rows : Int) < degree + 2 then .ok none else
  (impl cs.C cs.S r degree ord Re GM W M).bind fun o => .ok (some o)

end Verif.Cunningham
