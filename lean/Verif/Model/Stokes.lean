import Verif.Model.MatrixExpr
import Verif.Model.Matrix
/-
Model of `/repo/include/stokes_coefficients.hpp` and `/repo/src/lib/stokes_coefficients.cpp`.

Objects are numbered; object `k` keeps its `_Cnm` buffer at `2k` and its `_Snm` buffer at `2k+1` of a
buffer environment, so that `a += a` is the same code run on aliased buffers (the `__restrict__` in
the code makes that call formally undefined; the model runs the loop as written). Buffer ownership is
the subject of `Model/Matrix.lean`; here the length of a buffer is its capacity. `_GM`, `_Re` and
`_cnormalized` play no role in the operations below and are left out. Degrees and orders are naturals,
except the order argument of the constructor, whose sign is tested.
-/
namespace Verif.Stokes
open Verif Storage MatrixExpr

variable {α : Type}

/-- Live objects with `(m_degree, m_order)`, and all buffers. stokes_coefficients.hpp:34-49. -/
structure S (α : Type) where
  obj : Nat → Option (Nat × Nat)
  env : Env α

/-- The coefficient matrices, stokes_coefficients.hpp:47-49. -/
def tri (n : Nat) : St := ⟨.lwTriangularColWise, n, n⟩

/-- Content of `new double[n]` (any). -/
def junkBuf (n : Nat) (junk : Nat → α) : List α := (List.range n).map junk

/-- Set degree/order and both matrices of object `k`. -/
def S.put (s : S α) (k d o : Nat) (c t : St × List α) : S α :=
  ⟨fun i => if i = k then some (d, o) else s.obj i, (s.env.set (2 * k) c).set (2 * k + 1) t⟩

/-- Use of an object. -/
def S.get (s : S α) (k : Nat) : Res (Nat × Nat) :=
  match s.obj k with
  | some p => .ok p
  | none => .ub

/-- `CoeffMatrix2D::resize(n, n)` seen from outside, coeff_matrix_2d.hpp:439-450. -/
def mresize (m : St × List α) (n : Nat) (junk : Nat → α) : St × List α :=
  if m.2.length < (tri n).numElements then (tri n, junkBuf (tri n).numElements junk)
  else (tri n, m.2)

/-- `CoeffMatrix2D::cresize(n, n)` seen from outside, coeff_matrix_2d.hpp:489-513. -/
def mcresize (m : St × List α) (n : Nat) (junk : Nat → α) : Res (St × List α) :=
  if n ≠ m.1.nrows ∨ n ≠ m.1.ncols then do
    let d ← Matrix.cresizeLoop m.1 (tri n) m.2 (min (tri n).numSlices m.1.numSlices)
      (junkBuf (tri n).numElements junk)
    .ok (tri n, d)
  else .ok m

/-- Default constructor, stokes_coefficients.hpp:129-131. -/
def default (s : S α) (k : Nat) : S α := s.put k 0 0 (tri 0, []) (tri 0, [])

/-- `StokesCoeffs(n, m, GM, Re)`, stokes_coefficients.hpp:134-136. -/
def construct (s : S α) (k n : Nat) (m : Int) (junk : Nat → α) : S α :=
  s.put k n (if m > 0 then m.toNat else n)
    (tri (n + 1), junkBuf (tri (n + 1)).numElements junk)
    (tri (n + 1), junkBuf (tri (n + 1)).numElements junk)

/-- `resize(degree, order)`, stokes_coefficients.cpp:4-9. -/
def resize (s : S α) (k d o : Nat) (junk : Nat → α) : Res (S α) := do
  let _ ← s.get k
  .ok (s.put k d o (mresize (s.env (2 * k)) (d + 1) junk) (mresize (s.env (2 * k + 1)) (d + 1) junk))

/-- `cresize(degree, order)`, stokes_coefficients.cpp:11-17. -/
def cresize (s : S α) (k d o : Nat) (junk : Nat → α) : Res (S α) := do
  let _ ← s.get k
  let c ← mcresize (s.env (2 * k)) (d + 1) junk
  let t ← mcresize (s.env (2 * k + 1)) (d + 1) junk
  .ok (s.put k d o c t)

/-- `shrink_dimensions`, stokes_coefficients.hpp:155-163: status and new state. -/
def shrink (s : S α) (k d o : Nat) : Res (Int × S α) := do
  let (deg, ord) ← s.get k
  if o ≤ d ∧ d ≤ deg ∧ o ≤ ord then
    .ok (0, ⟨fun i => if i = k then some (d, o) else s.obj i, s.env⟩)
  else .ok (1, s)

/-- `clear()`, stokes_coefficients.hpp:194-197 with `fill_with` over the capacity. -/
def clear [Zero α] (s : S α) (k : Nat) : Res (S α) := do
  let (d, o) ← s.get k
  .ok (s.put k d o ((s.env (2 * k)).1, List.replicate (s.env (2 * k)).2.length 0)
    ((s.env (2 * k + 1)).1, List.replicate (s.env (2 * k + 1)).2.length 0))

/-- `CoeffMatrix2D::multiply`, coeff_matrix_2d.hpp:330-333. -/
def mmultiply [Mul α] (m : St × List α) (f : α) : St × List α :=
  (m.1, (m.2.take m.1.numElements).map (· * f) ++ m.2.drop m.1.numElements)

/-- `scale(factor)`, stokes_coefficients.hpp:200-205: only if `m_degree` is not zero. -/
def scale [Mul α] (s : S α) (k : Nat) (f : α) : Res (S α) := do
  let (d, o) ← s.get k
  if d ≠ 0 then .ok (s.put k d o (mmultiply (s.env (2 * k)) f) (mmultiply (s.env (2 * k + 1)) f))
  else .ok s

/-- `C(n, m) = v` (b = 0) and `S(n, m) = v` (b = 1), stokes_coefficients.hpp:211, 217. -/
def setCoeff (s : S α) (k b : Nat) (n m : Int) (v : α) : Res (S α) := do
  let _ ← s.get k
  let e ← cell (fun _ v => v) (2 * k + b) ((s.env (2 * k + b)).1.index n m) v s.env
  .ok ⟨s.obj, e⟩

/-- `C(n, m)` (b = 0) and `S(n, m)` (b = 1), stokes_coefficients.hpp:208, 214. -/
def getCoeff (s : S α) (k b : Nat) (n m : Int) : Res α := do
  let _ ← s.get k
  rd (s.env (2 * k + b)).2 ((s.env (2 * k + b)).1.index n m)

/-- One of the two loop nests of `operator+=`, stokes_coefficients.cpp:24-32 and 34-42: column by
column, `colCnm[n] += colCnm2[n]` for `n <= sc.max_degree() - m` (the dimensions do not
change during the loops, so the storage objects are read once). -/
def addCols [Add α] (x y deg ord : Nat) (env : Env α) : Res (Env α) :=
  let sx := (env x).1
  let sy := (env y).1
  forEach (List.range (ord + 1)) (fun (m : Nat) env =>
    forEach (List.range (deg + 1 - m)) (fun (n : Nat) env => do
      let v ← rd (env y).2 (sy.slice m + n)
      cell (· + ·) x (sx.slice m + n) v env) env) env

/-- `operator+=`, stokes_coefficients.cpp:19-45, object `k` += object `j`. -/
def addAssign [Add α] (s : S α) (k j : Nat) : Res (S α) := do
  let (dk, ok) ← s.get k
  let (dj, oj) ← s.get j
  if dk < dj ∨ ok < oj then .throw else
  let e1 ← addCols (2 * k) (2 * j) dj oj s.env
  let e2 ← addCols (2 * k + 1) (2 * j + 1) dj oj e1
  .ok ⟨s.obj, e2⟩

/-- Copy assignment, stokes_coefficients.hpp:87-98, between different objects: the matrices are copied
as in coeff_matrix_2d.hpp:402-415 (kept memory beyond the elements stays). -/
def mcopy (dst src : St × List α) : St × List α :=
  if dst.2.length < src.2.length then (src.1, src.2.take src.1.numElements)
  else (src.1, src.2.take src.1.numElements ++ dst.2.drop src.1.numElements)

/-- See `mcopy`. -/
def copyAssign (s : S α) (k j : Nat) : Res (S α) := do
  let _ ← s.get k
  let (d, o) ← s.get j
  if k = j then .ok s else
  .ok (s.put k d o (mcopy (s.env (2 * k)) (s.env (2 * j)))
    (mcopy (s.env (2 * k + 1)) (s.env (2 * j + 1))))

/-- Move assignment, stokes_coefficients.hpp:101-112, between different objects: the source keeps its
degree and order but loses its matrices. -/
def moveAssign (s : S α) (k j : Nat) : Res (S α) := do
  let _ ← s.get k
  let (d, o) ← s.get j
  if k = j then .ok s else
  .ok ((s.put k d o (s.env (2 * j)) (s.env (2 * j + 1))).put j d o (tri 0, []) (tri 0, []))

/-- `to_anm()`, stokes_coefficients.hpp:269-280: cell `(r, c)` of the packed square matrix of size
`m_degree + 1`. -/
def toAnm (s : S α) (k : Nat) (r c : Nat) : Res α :=
  if r < c then getCoeff s k 1 c (r + 1) else getCoeff s k 0 r c

/-- `from_anm(anm)`, stokes_coefficients.hpp:282-301, into a new object `k`; `sz` is `anm.rows()`
(at least 1). The loops write every C and every S with order at least one. -/
def fromAnm (s : S α) (k : Nat) (anm : Nat → Nat → α) (sz : Nat) (maxOrder : Int) (junk : Nat → α) :
    Res (S α) :=
  let ord := if maxOrder < 0 then (sz : Int) - 1 else maxOrder
  let s0 := construct s k (sz - 1) ord junk
  forEach (List.range sz) (fun m s => do
    let s ← forEach (List.range m) (fun (l : Nat) s => setCoeff s k 1 m (l + 1) (anm l m)) s
    forEach (List.range' m (sz - m)) (fun (l : Nat) s => setCoeff s k 0 l m (anm l m)) s) s0

/-- Operations of a program on Stokes coefficient sets. -/
inductive Op (α : Type) where
  | construct (k n : Nat) (m : Int) (junk : Nat → α)
  | resize (k d o : Nat) (junk : Nat → α)
  | cresize (k d o : Nat) (junk : Nat → α)
  | shrink (k d o : Nat)
  | clear (k : Nat)
  | scale (k : Nat) (f : α)
  | set (k b : Nat) (n m : Int) (v : α)
  | add (k j : Nat)
  | copy (k j : Nat)

/-- One operation (the status of `shrink_dimensions` is dropped). -/
def step [Add α] [Mul α] [Zero α] (s : S α) : Op α → Res (S α)
  | .construct k n m junk => .ok (construct s k n m junk)
  | .resize k d o junk => resize s k d o junk
  | .cresize k d o junk => cresize s k d o junk
  | .shrink k d o => do
    let r ← shrink s k d o
    .ok r.2
  | .clear k => clear s k
  | .scale k f => scale s k f
  | .set k b n m v => setCoeff s k b n m v
  | .add k j => addAssign s k j
  | .copy k j => copyAssign s k j

end Verif.Stokes
