import Verif.Spec.RoundedEopTides
/-
Series from which the zonal tides are removed: what the check of test/unit_tests/eop_regularize.cpp is about.
-/
namespace Verif.RegularizeCheck
open Verif.Eop Verif.RoundedEopTides

/-- UT1 and length of day of every record are changed. -/
def Changed (v v' : List (Rec ℝ)) : Prop := List.Forall₂ (fun r r' => r'.dut ≠ r.dut ∧ r'.lod ≠ r.lod) v v'

/-- Records within a century of J2000, UT1-UTC within 1 s, length of day within 0.01 s. -/
def Ordinary (cents : ℝ → ℝ) (v : List (Rec ℝ)) : Prop := ∀ r ∈ v, Centuries cents r.t ∧ |r.dut| ≤ 1 ∧ |r.lod| ≤ 0.01

/-- Two records have the same epoch, pole and corrections of the celestial pole, whatever UT1 and length of day are. -/
def Kept (a b : Rec ℝ) : Prop := a.t = b.t ∧ (a.xp, a.yp) = (b.xp, b.yp) ∧ (a.dX, a.dY) = (b.dX, b.dY)

/-- Two records agree, UT1 and length of day to `ε` seconds. -/
def Alike (ε : ℝ) (a b : Rec ℝ) : Prop := Kept a b ∧ |a.dut - b.dut| ≤ ε ∧ |a.lod - b.lod| ≤ ε

end Verif.RegularizeCheck
