import Verif.Model.RoundedEopTides
/-
The check that `regularize` and `deregularize` undo each other (test/unit_tests/eop_regularize.cpp), in floating-point arithmetic.

Simplifications: the reading of the file (eop_regularize.cpp:11-18, see `Model/EopFile`) is left out, the program starts with the series it
gives. The assertions are live (no NDEBUG). As in `Model/RoundedEopTides`, nothing over- or underflows.
-/
namespace Verif.RegularizeCheck
open Verif Verif.Rounded Verif.Eop Verif.RoundedEopTides

section
variable (fl : Arith) (fsin fcos s2r cents : ℝ → ℝ)

/-- The assertions on what is kept (eop_regularize.cpp:27-36, 48-57); `a` is the record of the copy. -/
def same (a b : Rec ℝ) : Prop := a.t = b.t ∧ a.xp = b.xp ∧ a.yp = b.yp ∧ a.dX = b.dX ∧ a.dY = b.dY

/-- The assertions after `regularize` (eop_regularize.cpp:27-40). -/
def first (a b : Rec ℝ) : Prop := same a b ∧ a.dut ≠ b.dut ∧ a.lod ≠ b.lod

/-- The assertions after `deregularize` (eop_regularize.cpp:48-70). -/
def second (a b : Rec ℝ) : Prop := same a b ∧ |fl (a.dut - b.dut)| < lit fl 1e-15 ∧ |fl (a.lod - b.lod)| < lit fl 1e-15

open Classical in
/-- A loop of assertions over the indices of the copy (eop_regularize.cpp:26-41, 47-71); the original has to have as many records. -/
noncomputable def compare (holds : Rec ℝ → Rec ℝ → Prop) : List (Rec ℝ) → List (Rec ℝ) → Res Unit
  | [], _ => .ok ()
  | _ :: _, [] => .ub
  | a :: as, b :: bs => if holds a b then compare holds as bs else .abort

/-- The program after the file was read (eop_regularize.cpp:19-73). -/
noncomputable def program (eop : Series ℝ) : Res Int :=
  if eop.vec.length ≠ 9 then .abort
  else
    let copy := regularize fl fsin fcos s2r cents eop.copy
    (compare first copy.vec eop.vec).bind fun _ =>
      let copy := deregularize fl fsin fcos s2r cents copy
      (compare (second fl) copy.vec eop.vec).bind fun _ => .ok 0

end

end Verif.RegularizeCheck
