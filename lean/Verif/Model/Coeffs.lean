import Verif.Model.Base
import Mathlib.Algebra.Group.Basic
import Mathlib.Algebra.Ring.Basic
/-
A set of Stokes coefficients by value (`dso::StokesCoeffs`, include/stokes_coefficients.hpp), for the code
that fills and combines such sets. `Verif.Model.Stokes` models the same class with its memory; here only the
dimensions and the values are kept.

Simplification: an element `(i, j)` can be read and written iff `0 <= j <= i < rows`; any other index is
`ub` (the address computed for it belongs to another element or lies outside the matrix).
-/
namespace Verif

/-- stokes_coefficients.hpp:34-49. `rows` is the number of rows of the two triangular matrices. -/
structure Coeffs (α : Type _) where
  deg : Int
  ord : Int
  rows : Nat
  C : Nat → Nat → α
  S : Nat → Nat → α
  gm : α
  re : α
  normalized : Bool

namespace Coeffs
variable {α : Type _}

/-- Whether the element exists. -/
def Has (c : Coeffs α) (i j : Int) : Prop := 0 ≤ j ∧ j ≤ i ∧ i < c.rows

instance (c : Coeffs α) (i j : Int) : Decidable (c.Has i j) := inferInstanceAs (Decidable (_ ∧ _))

/-- `f` with the value at `(i, j)` replaced. -/
def put (f : Nat → Nat → α) (i j : Nat) (v : α) : Nat → Nat → α :=
  fun a b => if a = i ∧ b = j then v else f a b

/-- `C(i, j)`, stokes_coefficients.hpp:209. -/
def getC (c : Coeffs α) (i j : Int) : Res α := if c.Has i j then .ok (c.C i.toNat j.toNat) else .ub

/-- `S(i, j)`, stokes_coefficients.hpp:215. -/
def getS (c : Coeffs α) (i j : Int) : Res α := if c.Has i j then .ok (c.S i.toNat j.toNat) else .ub

/-- `C(i, j) = v`, stokes_coefficients.hpp:212. -/
def setC (c : Coeffs α) (i j : Int) (v : α) : Res (Coeffs α) :=
  if c.Has i j then .ok { c with C := put c.C i.toNat j.toNat v } else .ub

/-- `S(i, j) = v`, stokes_coefficients.hpp:218. -/
def setS (c : Coeffs α) (i j : Int) (v : α) : Res (Coeffs α) :=
  if c.Has i j then .ok { c with S := put c.S i.toNat j.toNat v } else .ub

/-- `C(i, j) += v; S(i, j) += w`. -/
def addAt [Add α] (c : Coeffs α) (i j : Int) (v w : α) : Res (Coeffs α) :=
  if c.Has i j then
    .ok { c with C := put c.C i.toNat j.toNat (c.C i.toNat j.toNat + v),
                 S := put c.S i.toNat j.toNat (c.S i.toNat j.toNat + w) }
  else .ub

/-- `resize(degree, order)`, stokes_coefficients.cpp:4-9: the contents are undefined. One function `junk` gives the
unrelated contents of both matrices: what is below its diagonal goes to `C`, what is above to `S`. A negative number
of rows is undefined behaviour. -/
def resize (c : Coeffs α) (junk : Nat → Nat → α) (d o : Int) : Res (Coeffs α) :=
  if d < -1 then .ub
  else .ok { c with deg := d, ord := o, rows := (d + 1).toNat, C := junk, S := fun i j => junk j (i + 1) }

/-- `cresize(degree, order)`, stokes_coefficients.cpp:11-17: what is in both sizes is kept (C06), the rest is
undefined (`junk`, as in `resize`). -/
def cresize (c : Coeffs α) (junk : Nat → Nat → α) (d o : Int) : Res (Coeffs α) :=
  if d < -1 then .ub
  else .ok { c with deg := d, ord := o, rows := (d + 1).toNat,
                    C := fun i j => if i < c.rows then c.C i j else junk i j,
                    S := fun i j => if i < c.rows then c.S i j else junk j (i + 1) }

/-- `clear()`, stokes_coefficients.hpp:195-198. -/
def clear [Zero α] (c : Coeffs α) : Coeffs α := { c with C := fun _ _ => 0, S := fun _ _ => 0 }

/-- `shrink_dimensions`, stokes_coefficients.hpp:155-163; the status is dropped. -/
def shrink (c : Coeffs α) (d o : Int) : Coeffs α :=
  if o ≤ d ∧ d ≤ c.deg ∧ o ≤ c.ord then { c with deg := d, ord := o } else c

/-- `scale(factor)`, stokes_coefficients.hpp:201-206. -/
def scale [Mul α] (c : Coeffs α) (f : α) : Coeffs α :=
  if c.deg ≠ 0 then { c with C := fun i j => c.C i j * f, S := fun i j => c.S i j * f } else c

/-- `operator+=`, stokes_coefficients.cpp:19-45. The columns of both matrices are walked up to the degree and
order of the argument: with `deg < rows` for both sets every element exists, otherwise the outcome is
undefined. -/
def addAssign [Add α] (c d : Coeffs α) : Res (Coeffs α) :=
  if c.deg < d.deg ∨ c.ord < d.ord then .throw
  else if d.deg < d.rows ∧ d.deg < c.rows ∧ d.ord ≤ d.deg then
    .ok { c with C := fun i j => if (i : Int) ≤ d.deg ∧ (j : Int) ≤ d.ord ∧ j ≤ i then c.C i j + d.C i j else c.C i j,
                 S := fun i j => if (i : Int) ≤ d.deg ∧ (j : Int) ≤ d.ord ∧ j ≤ i then c.S i j + d.S i j else c.S i j }
  else .ub

end Coeffs
end Verif
