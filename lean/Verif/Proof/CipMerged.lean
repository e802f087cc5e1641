import Verif.Proof.Cip
/-
The merged table has the terms of the Conventions' tables; evaluated by the kernel.
-/
namespace Verif.Cip
open Verif SortPerm

theorem merged_some : (expand xyLunSol xyPln).any (fun p => powsLe p.1 && powsLe p.2) = true := by decide +kernel
theorem mx0 : mergedX 0 = some (sort key Spec.tableX0) := by decide +kernel
theorem mx1 : mergedX 1 = some (sort key Spec.tableX1) := by decide +kernel
theorem mx2 : mergedX 2 = some (sort key Spec.tableX2) := by decide +kernel
theorem mx3 : mergedX 3 = some (sort key Spec.tableX3) := by decide +kernel
theorem mx4 : mergedX 4 = some (sort key Spec.tableX4) := by decide +kernel
theorem my0 : mergedY 0 = some (sort key Spec.tableY0) := by decide +kernel
theorem my1 : mergedY 1 = some (sort key Spec.tableY1) := by decide +kernel
theorem my2 : mergedY 2 = some (sort key Spec.tableY2) := by decide +kernel
theorem my3 : mergedY 3 = some (sort key Spec.tableY3) := by decide +kernel
theorem my4 : mergedY 4 = some (sort key Spec.tableY4) := by decide +kernel

/-- The merged table expands to two lists of terms which, power by power, are the published ones. -/
theorem merged_expand : ∃ xs ys, expand xyLunSol xyPln = some (xs, ys) ∧ powsLe xs = true ∧ powsLe ys = true ∧
    ((ofPow 0 xs).Perm Spec.tableX0 ∧ (ofPow 1 xs).Perm Spec.tableX1 ∧ (ofPow 2 xs).Perm Spec.tableX2 ∧
      (ofPow 3 xs).Perm Spec.tableX3 ∧ (ofPow 4 xs).Perm Spec.tableX4) ∧
    ((ofPow 0 ys).Perm Spec.tableY0 ∧ (ofPow 1 ys).Perm Spec.tableY1 ∧ (ofPow 2 ys).Perm Spec.tableY2 ∧
      (ofPow 3 ys).Perm Spec.tableY3 ∧ (ofPow 4 ys).Perm Spec.tableY4) := by
  have h0 := merged_some
  have x0 := mx0; have x1 := mx1; have x2 := mx2; have x3 := mx3; have x4 := mx4
  have y0 := my0; have y1 := my1; have y2 := my2; have y3 := my3; have y4 := my4
  unfold mergedX at x0 x1 x2 x3 x4
  unfold mergedY at y0 y1 y2 y3 y4
  generalize hE : expand xyLunSol xyPln = E at *
  match E with
  | none => cases x0
  | some (xs, ys) =>
    simp only [Option.map_some, Option.some.injEq] at x0 x1 x2 x3 x4 y0 y1 y2 y3 y4
    simp only [Option.any_some, Bool.and_eq_true] at h0
    exact ⟨xs, ys, rfl, h0.1, h0.2,
      ⟨perm_of_key x0, perm_of_key x1, perm_of_key x2, perm_of_key x3, perm_of_key x4⟩,
      ⟨perm_of_key y0, perm_of_key y1, perm_of_key y2, perm_of_key y3, perm_of_key y4⟩⟩

end Verif.Cip
