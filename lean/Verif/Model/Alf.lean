import Verif.Model.Tri
import Mathlib.Analysis.SpecialFunctions.Trigonometric.Basic
/-
`normalised_associated_legendre_functions` (src/lib/gravity/forward_column_alf.cpp). Arithmetic on `double` is exact; arithmetic on `int` is
checked for overflow, which is undefined behaviour.
-/
namespace Verif.Alf
open Verif

/-- A value of type `int`. -/
def i32 (x : Int) : Res Int := if -2147483648 ≤ x ∧ x ≤ 2147483647 then .ok x else .ub

/-- `anm` (forward_column_alf.cpp:6-8). -/
noncomputable def anm (n m : Int) : Res ℝ :=
  (i32 ((2 * n - 1) * (2 * n + 1))).bind fun a => (i32 ((n - m) * (n + m))).bind fun b => .ok (Real.sqrt ((a : ℝ) / (b : ℝ)))

/-- `bnm` (forward_column_alf.cpp:10-14): the products are computed as `int`. -/
noncomputable def bnm (n m : Int) : Res ℝ :=
  (i32 ((2 * n + 1) * (n + m - 1))).bind fun b => (i32 (b * (n - m - 1))).bind fun b1 =>
  (i32 ((n - m) * (n + m))).bind fun c => (i32 (c * (2 * n - 3))).bind fun b2 => .ok (Real.sqrt ((b1 : ℝ) / (b2 : ℝ)))

/-- `fnm` (forward_column_alf.cpp:16-20). -/
noncomputable def fnm (n m : Int) : Res ℝ :=
  (i32 (n * n)).bind fun nn => (i32 (m * m)).bind fun mm => (i32 ((nn - mm) * (2 * n + 1))).bind fun f1 =>
  .ok (Real.sqrt ((f1 : ℝ) / ((2 * n - 1 : Int) : ℝ)))

/-- A column below its first element (forward_column_alf.cpp:41-48 and 56-61): element `m + 1` and the loop. -/
noncomputable def column (t : ℝ) (deg m : Int) (P : Tri) : Res Tri :=
  (anm (m + 1) m).bind fun a => (P.get m m).bind fun p0 => (P.set (m + 1) m (a * t * p0)).bind fun P =>
  forEach (irange (m + 2) deg) (fun n P =>
    (anm n m).bind fun a => (P.get (n - 1) m).bind fun p1 => (bnm n m).bind fun b => (P.get (n - 2) m).bind fun p2 =>
    P.set n m (a * t * p1 - b * p2)) P

/-- The next element of the diagonal (forward_column_alf.cpp:50-51, 98-99). -/
noncomputable def diag (u : ℝ) (m : Int) (P : Tri) : Res Tri :=
  if 0 < m then (P.get m m).bind fun p => P.set (m + 1) (m + 1) (u * Real.sqrt ((2 * m + 3) / (2 * m + 2)) * p) else .ok P

/-- `normalised_associated_legendre_functions(theta, max_degree, max_order, P)` (forward_column_alf.cpp:23-64). -/
noncomputable def alf (theta : ℝ) (deg ord : Int) (P : Tri) : Res Tri :=
  if ¬ord ≤ deg then .abort else
  let u := Real.cos theta
  let t := Real.sin theta
  (P.set 0 0 1).bind fun P => (P.set 1 1 (Real.sqrt 3 * u)).bind fun P =>
  (forEach (irange 0 (ord - 1)) (fun m P => (column t deg m P).bind (diag u m)) P).bind fun P =>
  column t deg ord P

/-- A column of the version with derivatives (forward_column_alf.cpp:82-96 and 104-115). -/
noncomputable def columnD (u t : ℝ) (deg m : Int) (s : Tri × Tri) : Res (Tri × Tri) :=
  let uinv := 1 / u
  (s.1.get m m).bind fun p0 => (s.2.set m m (m * (t / u) * p0)).bind fun D =>
  (anm (m + 1) m).bind fun a => (s.1.set (m + 1) m (a * t * p0)).bind fun P =>
  (P.get (m + 1) m).bind fun p1 => (fnm (m + 1) m).bind fun f => (P.get m m).bind fun p0 =>
  (D.set (m + 1) m (uinv * ((m + 1) * t * p1 - f * p0))).bind fun D =>
  forEach (irange (m + 2) deg) (fun n s =>
    (anm n m).bind fun a => (s.1.get (n - 1) m).bind fun p1 => (bnm n m).bind fun b => (s.1.get (n - 2) m).bind fun p2 =>
    (s.1.set n m (a * t * p1 - b * p2)).bind fun P =>
    (P.get n m).bind fun p => (fnm n m).bind fun f => (P.get (n - 1) m).bind fun p1 =>
    (s.2.set n m (uinv * (n * t * p - f * p1))).bind fun D => .ok (P, D)) (P, D)

/-- `normalised_associated_legendre_functions(theta, max_degree, max_order, P, dP)` (forward_column_alf.cpp:66-120). The two matrices are
different objects. -/
noncomputable def alfD (theta : ℝ) (deg ord : Int) (s : Tri × Tri) : Res (Tri × Tri) :=
  if ¬ord ≤ deg then .abort else
  let u := Real.cos theta
  let t := Real.sin theta
  (s.1.set 0 0 1).bind fun P => (P.set 1 1 (Real.sqrt 3 * u)).bind fun P =>
  (forEach (irange 0 (ord - 1)) (fun m s => (columnD u t deg m s).bind fun s => (diag u m s.1).bind fun P => .ok (P, s.2)) (P, s.2)).bind fun s =>
  columnD u t deg ord s

end Verif.Alf
