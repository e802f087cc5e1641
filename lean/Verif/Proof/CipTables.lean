import Verif.Proof.Cip
/-
The rows of the separate X and Y series are those of the Conventions' tables; evaluated by the kernel.
-/
namespace Verif.Cip
open Verif SortPerm

/-- The row of Ω in the X series of degree one: the source has 205833.1 for the amplitude 205833.11. -/
def omegaRow : Spec.Term := ⟨-330973, 20583310, [0, 0, 0, 0, 1, 0, 0, 0, 0, 0, 0, 0, 0, 0]⟩

/-- The published row. -/
def omegaTerm : Spec.Term := ⟨-330973, 20583311, [0, 0, 0, 0, 1, 0, 0, 0, 0, 0, 0, 0, 0, 0]⟩

theorem x1_head : Spec.tableX1 = omegaTerm :: Spec.tableX1.tail := by decide +kernel
theorem x1_perm : (x1Series.map Row.term).Perm (omegaRow :: Spec.tableX1.tail) := perm_of_key (by decide +kernel)
theorem x0_perm : (x0Series.map Row.term).Perm Spec.tableX0 := perm_of_key (by decide +kernel)
theorem x2_perm : (x2Series.map Row.term).Perm Spec.tableX2 := perm_of_key (by decide +kernel)
theorem x3_perm : (x3Series.map Row.term).Perm Spec.tableX3 := perm_of_key (by decide +kernel)
theorem x4_perm : (x4Series.map Row.term).Perm Spec.tableX4 := perm_of_key (by decide +kernel)
theorem y0_perm : (y0Series.map Row.term).Perm Spec.tableY0 := perm_of_key (by decide +kernel)
theorem y1_perm : (y1Series.map Row.term).Perm Spec.tableY1 := perm_of_key (by decide +kernel)
theorem y2_perm : (y2Series.map Row.term).Perm Spec.tableY2 := perm_of_key (by decide +kernel)
theorem y3_perm : (y3Series.map Row.term).Perm Spec.tableY3 := perm_of_key (by decide +kernel)
theorem y4_perm : (y4Series.map Row.term).Perm Spec.tableY4 := perm_of_key (by decide +kernel)

end Verif.Cip
