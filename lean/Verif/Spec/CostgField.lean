import Verif.Spec.CostgTide
import Verif.Spec.TideForce
/-
The gravity field of a model in the format of ICGEM at an epoch, and what agrees with it.
-/
namespace Verif.Groops
open Verif Verif.Icgem Verif.Icgem.Head

variable {T : Type} [LinearOrder T]

/-- Whether the header announces the second version of the format. -/
def Gfc.isV2 (g : Gfc T) : Bool := lastOf Setting.format? false g.settings

/-- The coefficient of degree `i` and order `j` at `t`: the sum of its records, each with its factor at `t`. -/
noncomputable def Gfc.coeffAt (g : Gfc T) (cal : Cal T) (t : T) (val : Record T → ℚ) (i j : Nat) : ℝ :=
  total (if g.isV2 then fun _ r => factor2 cal.years t r else factor1 cal.years t) val g.records i j

/-- The record counts at `t` if degree and order `n` are read. -/
def Gfc.UsedAt (g : Gfc T) (t : T) (n : Nat) (r : Record T) : Prop :=
  r.n ≤ n ∧ r.m ≤ n ∧ (g.isV2 = true → r.kind = .static ∨ ∃ t0 t1, r.t0 = some t0 ∧ r.t1 = some t1 ∧ t0 ≤ t ∧ t < t1)

/-- The file is a well formed ICGEM file, of which degree and order `n` at `t` can be read: in version 1 the reference epoch of a coefficient that varies
comes before its variation, in version 2 `t` is within the calendar. -/
structure Gfc.OkAt (g : Gfc T) (cal : Cal T) (t : T) (n : Nat) : Prop where
  header : Holds g.header g.settings
  short : g.header.length ≤ 1000
  errors : lastOf Setting.errors? none g.settings = some g.errors
  tail : '\n' ∉ g.tail ∧ g.tail.length + 11 < 256
  one : ∀ l ∈ g.data, '\n' ∉ l
  lines : List.Forall₂ (if g.isV2 then GoodLine2 true cal g.errors else GoodLine1 true cal g.errors) g.data g.records
  triangle : ∀ r ∈ g.records, r.n ≤ n → r.m ≤ n → 0 ≤ r.m ∧ r.m ≤ r.n
  periods : ∀ r ∈ g.records, PeriodOk r
  grouped : g.isV2 = false → Grouped n n g.records
  calendar : g.isV2 = true → cal.min ≤ t ∧ t < cal.max
  degree : (n : Int) ≤ g.maxDegree

/-- A coefficient of degree and order `n` counts at `t`. -/
def Gfc.FullAt (g : Gfc T) (t : T) (n : Nat) : Prop := (∃ r ∈ g.records, g.UsedAt t n r ∧ r.n = n) ∧ ∃ r ∈ g.records, g.UsedAt t n r ∧ r.m = n

/-- The potential at `t` from degree 2 to `n`, with the constants of the file. -/
noncomputable def Gfc.fieldAt (g : Gfc T) (cal : Cal T) (t : T) (n : Nat) (r : V3) : ℝ :=
  let V := fun N => Harmonic.potential (g.gm : ℚ) (g.radius : ℚ) (g.coeffAt cal t Record.C) (g.coeffAt cal t Record.S) N N r
  V n - V 1

end Verif.Groops

namespace Verif.Costg
open Verif

/-- The accelerations at the rows of an orbit by the potential `V`. -/
def FieldAccels (V : V3 → ℝ) : List (ℚ × List ℚ) → List V3 → Prop := List.Forall₂ fun o g => Harmonic.IsGradient V (three o.2 0) g

/-- The acceleration `g` is within the tolerance of the benchmark in every component, in the terrestrial frame. -/
def WithinItrf (tol : ℝ) (r : ℚ × List ℚ) (g : V3) : Prop :=
  |(three r.2 0).x - g.x| < tol ∧ |(three r.2 0).y - g.y| < tol ∧ |(three r.2 0).z - g.z| < tol

/-- All rows are within the tolerance. -/
def AllWithinItrf (tol : ℝ) (rs : List (ℚ × List ℚ)) (gs : List V3) : Prop :=
  ∀ (i : Nat) r g, rs[i]? = some r → gs[i]? = some g → WithinItrf tol r g

end Verif.Costg
