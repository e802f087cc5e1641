import Verif.Model.Eop
import Mathlib.Algebra.Polynomial.Degree.Lemmas
/-
What interpolation in a time series means.
-/
namespace Verif.Eop
open Polynomial

variable {K : Type} [Field K] [LinearOrder K]

/-- Records in strictly increasing time order. -/
def Sorted (v : List (Rec K)) : Prop := v.Pairwise (fun a b => a.t < b.t)

/-- `v` splits into records up to `t` and records after `t`, the `m` records nearest to `t` on each side
being `l` and `r`. -/
structure Window (v : List (Rec K)) (t : K) (m : Nat) (l r : List (Rec K)) : Prop where
  split : ∃ pre post, v = pre ++ l ++ r ++ post
  left : ∀ x ∈ l, x.t ≤ t
  right : ∀ x ∈ r, t < x.t
  lenL : l.length = m
  lenR : r.length = m

/-- `val` is the value at `t` of the polynomial of degree less than the number of records of `w` that takes
the values `q` at the epochs of `w`. -/
def PolyThrough (w : List (Rec K)) (q : Rec K → K) (t val : K) : Prop :=
  ∃ p : K[X], p.degree < w.length ∧ (∀ r ∈ w, p.eval r.t = q r) ∧ val = p.eval t

/-- The interpolated record: every quantity is that of the interpolating polynomial; UT1-UTC through
UT1-TAI, with ΔAT at `t` added; the rates are zero. -/
structure Interpolates (dat : K → K) (w : List (Rec K)) (t : K) (e : Rec K) : Prop where
  epoch : e.t = t
  xp : PolyThrough w Rec.xp t e.xp
  yp : PolyThrough w Rec.yp t e.yp
  dut : PolyThrough w (fun r => r.dut - r.dat) t (e.dut - dat t)
  lod : PolyThrough w Rec.lod t e.lod
  dX : PolyThrough w Rec.dX t e.dX
  dY : PolyThrough w Rec.dY t e.dY

end Verif.Eop
