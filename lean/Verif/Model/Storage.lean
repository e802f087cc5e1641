import Verif.Model.Base
/-
Model of `/repo/include/coeff_matrix_storage.hpp`: the five storage layouts.

Simplification (all definitions): dimensions are naturals (the C++ `int`s are never negative in a
constructed matrix), positions are unbounded integers (no `int` overflow).
-/
namespace Verif.Storage

/-- `enum class MatrixStorageType`, coeff_matrix_storage.hpp:21-27. -/
inductive Layout where
  | rowWise | columnWise | trapezoid | lwTriangularRowWise | lwTriangularColWise
  deriving Repr, DecidableEq

/-- Data members of `StorageImplementation<S>`: `rows` (46, 135, 216, 305, 374) and `cols`
(218, 307, 376). The triangular layouts store only `rows`; their `ncols()` returns `rows` (82, 170).
The model keeps `cols` for all layouts and `ncols` below reproduces the getter. -/
structure St where
  layout : Layout
  rows : Nat
  cols : Nat
  deriving Repr, DecidableEq

namespace St

/-- `isTriangular` flags restricted to the two layouts whose constructor asserts `r == c`
(coeff_matrix_storage.hpp:59-65 and 145-151). -/
def square : Layout → Bool
  | .lwTriangularRowWise | .lwTriangularColWise => true
  | _ => false

/-- Constructors, coeff_matrix_storage.hpp:59-65, 145-151, 228, 317, 386. The two triangular
layouts assert `r == c` (the assert is outside `#ifdef DEBUG`). -/
def make (l : Layout) (r c : Nat) : Res St :=
  if square l && r != c then .abort else .ok ⟨l, r, c⟩

/-- `__set_dimensions`, coeff_matrix_storage.hpp:68-73, 159-164, 237-240, 326-329, 395-398. -/
def setDimensions (s : St) (r c : Nat) : Res St := make s.layout r c

/-- `nrows()`, coeff_matrix_storage.hpp:79, 167, 231, 320, 389. -/
def nrows (s : St) : Nat := s.rows

/-- `ncols()`, coeff_matrix_storage.hpp:82, 170 (triangular: returns `rows`), 234, 323, 392. -/
def ncols (s : St) : Nat := if square s.layout then s.rows else s.cols

/-- Trapezoid `slice(int row)`, coeff_matrix_storage.hpp:269-274: the loop
`for (i = 0; i < row; i++) offset += min(i + 1, cols)`. -/
def trapOffset (cols : Nat) : Nat → Nat
  | 0 => 0
  | i + 1 => trapOffset cols i + min (i + 1) cols

/-- `num_elements()`, coeff_matrix_storage.hpp:49+76, 154-156, 243-253, 332, 401. -/
def numElements (s : St) : Nat :=
  match s.layout with
  | .lwTriangularRowWise => s.rows * (s.rows + 1) / 2
  | .lwTriangularColWise => s.rows * (s.rows + 1) / 2
  | .trapezoid =>
      if s.rows = s.cols then s.rows * (s.rows + 1) / 2 else trapOffset s.cols s.rows
  | .rowWise => s.rows * s.cols
  | .columnWise => s.rows * s.cols

/-- `slice(int)`: offset of the first stored element of row/column `i`;
coeff_matrix_storage.hpp:93, 182-184, 269-274, 352, 422. -/
def slice (s : St) (i : Int) : Int :=
  match s.layout with
  | .lwTriangularRowWise => i * (i + 1) / 2
  | .lwTriangularColWise => i * s.rows - i * (i - 1) / 2
  | .trapezoid => trapOffset s.cols i.toNat
  | .rowWise => i * s.cols
  | .columnWise => i * s.rows

/-- The `num_elements` output argument of `slice(int, int&)`;
coeff_matrix_storage.hpp:102-105, 186-189, 276-279 (with 256-258), 354-357, 424-427. -/
def sliceLen (s : St) (i : Int) : Int :=
  match s.layout with
  | .lwTriangularRowWise => i + 1
  | .lwTriangularColWise => s.rows - i
  | .trapezoid => min (i + 1) s.cols
  | .rowWise => s.cols
  | .columnWise => s.rows

/-- `num_slices()`, coeff_matrix_storage.hpp:108, 192, 282, 360, 429. -/
def numSlices (s : St) : Nat :=
  match s.layout with
  | .columnWise => s.ncols
  | _ => s.rows

/-- `index(int row, int column)`, coeff_matrix_storage.hpp:114-116, 198-200, 288-290, 338-340,
408-410. The trapezoid variant compares `column` with `rows` (line 289), reproduced as is. -/
def index (s : St) (row col : Int) : Int :=
  match s.layout with
  | .lwTriangularRowWise => s.slice row + col
  | .lwTriangularColWise => s.slice col + (row - col)
  | .trapezoid => if col ≤ s.rows then s.slice row + col else s.slice col + row
  | .rowWise => row * s.cols + col
  | .columnWise => col * s.rows + row

/-- `isRowMajor`, coeff_matrix_storage.hpp:53, 139, 222, 311, 380. -/
def isRowMajor : Layout → Bool
  | .lwTriangularRowWise | .trapezoid | .rowWise => true
  | .lwTriangularColWise | .columnWise => false

/-- `first_row_of_col`, coeff_matrix_storage.hpp:118, 202, 292, 362, 431. -/
def firstRowOfCol (l : Layout) (col : Int) : Int :=
  match l with
  | .lwTriangularRowWise | .lwTriangularColWise | .trapezoid => col
  | .rowWise | .columnWise => 0

end St
end Verif.Storage
