import Verif.Model.Storage
/-
Specification vocabulary for the storage layouts: which element positions a matrix has.
-/
namespace Verif.Storage

/-- A matrix keeps only the elements on or below the diagonal. -/
def Layout.lower : Layout → Prop
  | .rowWise | .columnWise => False
  | .trapezoid | .lwTriangularRowWise | .lwTriangularColWise => True

/-- `(i, j)` is an element position of an `r × c` matrix of the given layout. -/
def IsElement (l : Layout) (r c : Nat) (i j : Int) : Prop :=
  0 ≤ i ∧ i < r ∧ 0 ≤ j ∧ j < c ∧ (l.lower → j ≤ i)

/-- What the constructors' asserts guarantee: triangular layouts are square. -/
def St.WF (s : St) : Prop := St.square s.layout = true → s.rows = s.cols

/-- Element position of a storage object. -/
def St.HasElement (s : St) (i j : Int) : Prop := IsElement s.layout s.rows s.cols i j

end Verif.Storage
