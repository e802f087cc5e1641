import Verif.Model.RoundedIcgem
import Verif.Spec.Icgem
import Verif.Spec.Rounding
/-
Accuracy of the coefficients of an ICGEM gravity model.
-/
namespace Verif.RoundedIcgem
open Verif Verif.Icgem Verif.Rounding

variable {T : Type}

/-- The library's number of years between two epochs is right up to four half units in the last place. -/
def YearDifference (years yr : T → T → ℝ) : Prop := ∀ a b, |yr a b - years a b| ≤ 4 * u * |years a b|

/-- How large the factor of a record can be at `dt` years from the reference epoch; for periodic terms with the angle, whose
rounding errors grow with it. -/
noncomputable def Kind.size (dt : ℝ) : Kind → ℝ
  | .static => 1
  | .ref => 1
  | .trend => |dt|
  | .sin p => 1 + |2 * Real.pi / p * dt|
  | .cos p => 1 + |2 * Real.pi / p * dt|

/-- The size of a record's factor in version 1 (compare `factor1`). -/
noncomputable def size1 (years : T → T → ℝ) (t : T) (before : List (Record T)) (r : Record T) : ℝ :=
  match r.kind, epoch1 before r.n r.m with
  | .static, _ => 1
  | .ref, _ => 1
  | k, some t0 => Kind.size (years t t0) k
  | _, none => 0

/-- The size of a record's factor in version 2 (compare `factor2`). -/
noncomputable def size2 [LinearOrder T] (years : T → T → ℝ) (t : T) (r : Record T) : ℝ :=
  match r.kind, r.t0, r.t1 with
  | .static, _, _ => 1
  | k, some t0, some t1 => if t0 ≤ t ∧ t < t1 then Kind.size (years t t0) k else 0
  | _, _, _ => 0

/-- Number of records of a degree and order. -/
def count (rs : List (Record T)) (a b : Int) : Nat := (rs.filter fun r => r.n = a ∧ r.m = b).length

/-- The result of reading in double precision: as `Icgem.Result`, but every coefficient of which there are no more than 400 records is the sum
over its records up to `25 + 1.01 k` half units in the last place, for `k` records, of the sum of the sizes of its terms. -/
structure Result (h : Header) (n m : Int) (fac size : List (Record T) → Record T → ℝ) (used : Record T → Prop)
    (rs : List (Record T)) (co : Coeffs ℝ) : Prop where
  C : ∀ a b : Nat, b ≤ a → (a : Int) ≤ n → (b : Int) ≤ m → count rs a b ≤ 400 → ∃ c, co.getC a b = .ok c ∧
    |c - total fac Record.C rs a b| ≤ (25 + 1.01 * count rs a b) * u * total size (fun r => |r.C|) rs a b
  S : ∀ a b : Nat, b ≤ a → (a : Int) ≤ n → (b : Int) ≤ m → count rs a b ≤ 400 → ∃ s, co.getS a b = .ok s ∧
    |s - total fac Record.S rs a b| ≤ (25 + 1.01 * count rs a b) * u * total size (fun r => |r.S|) rs a b
  deg : Largest used Record.n rs co.deg
  ord : Largest used Record.m rs co.ord
  gm : co.gm = h.gm
  re : co.re = h.re
  normalized : co.normalized = h.normalized
  rows : (co.rows : Int) = n + 1

end Verif.RoundedIcgem
