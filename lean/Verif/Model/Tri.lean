import Verif.Model.Storage
import Mathlib.Data.Real.Basic
/-
Lower triangular matrices stored by columns, as memory: `CoeffMatrix2D<LwTriangularColWise>`, used as work arrays by the gravity code.
An index is turned into a position of the buffer as `Verif.Model.Storage` says; a position outside the buffer is undefined behaviour, any
other one reads or writes the cell it denotes, whichever element that is. Simplification: the buffer has exactly as many cells as the matrix has
elements (a matrix that was larger before keeps its larger buffer).
-/
namespace Verif

/-- The matrix: number of rows (and columns), cells of the buffer. -/
structure Tri where
  rows : Nat
  mem : Int → ℝ

namespace Tri

/-- The storage object. -/
def st (t : Tri) : Storage.St := ⟨.lwTriangularColWise, t.rows, t.rows⟩

/-- Whether a position is in the buffer. -/
def In (t : Tri) (i j : Int) : Prop := 0 ≤ t.st.index i j ∧ t.st.index i j < t.st.numElements

instance (t : Tri) (i j : Int) : Decidable (t.In i j) := inferInstanceAs (Decidable (_ ∧ _))

/-- Value at a position. -/
def val (t : Tri) (i j : Int) : ℝ := t.mem (t.st.index i j)

/-- The matrix with a cell replaced. -/
noncomputable def upd (t : Tri) (i j : Int) (v : ℝ) : Tri :=
  { t with mem := fun a => if a = t.st.index i j then v else t.mem a }

/-- Reading `(i, j)` (coeff_matrix_2d.hpp:253-260), or `column(j)[i - j]` (coeff_matrix_2d.hpp:298-300). -/
def get (t : Tri) (i j : Int) : Res ℝ := if t.In i j then .ok (t.val i j) else .ub

/-- Writing `(i, j)` (coeff_matrix_2d.hpp:243-250), or `column(j)[i - j]` (coeff_matrix_2d.hpp:287-289). -/
noncomputable def set (t : Tri) (i j : Int) (v : ℝ) : Res Tri := if t.In i j then .ok (t.upd i j v) else .ub

/-- `fill_with` (coeff_matrix_2d.hpp:325-327). -/
noncomputable def fill (t : Tri) (v : ℝ) : Tri := { t with mem := fun _ => v }

end Tri

/-- The values of a loop variable running from `a` to `b`, both included. Models no particular line. -/
def irange (a b : Int) : List Int := (List.range (b + 1 - a).toNat).map fun k : Nat => a + (k : Int)

end Verif
