import Verif.Spec.Costg
import Verif.Spec.TideForce
import Verif.Spec.EopFile
import Verif.Spec.Angle
/-
The tide at an epoch of the benchmark: UT1 from the Earth orientation, the angles of the IERS Conventions, the potential of the files.
-/
namespace Verif.Costg
open Verif

/-- The Modified Julian Date TT of one in GPS time. -/
def mjdTT (t : ℚ) : ℚ := t + (19 + 32.184) / 86400

/-- `a` and `b` are neighbours in the records, `a` at or before `t`, `b` after. -/
def Between (recs : List (Eop.Rec ℚ)) (t : ℚ) (a b : Eop.Rec ℚ) : Prop :=
  (∃ pre post, recs = pre ++ a :: b :: post) ∧ a.t ≤ t ∧ t < b.t

/-- UT1-TAI in seconds at `t` (TT), linear between two records. -/
def ut1Tai (a b : Eop.Rec ℚ) (t : ℚ) : ℚ := (a.dut - a.dat) + ((b.dut - b.dat) - (a.dut - a.dat)) * ((t - a.t) / (b.t - a.t))

/-- Julian centuries of TT since J2000. -/
noncomputable def centuriesTT (t : ℚ) : ℝ := (jdTT t - 2451545) / 36525

/-- Days of UT1 since J2000 if UT1-TAI is `d` seconds. -/
noncomputable def daysUT1 (t d : ℚ) : ℝ := (t : ℝ) + (19 + (d : ℝ)) / 86400 - 51544.5

/-- A tide potential `U` (degree, sidereal time, Delaunay arguments, position) without the terms of degree 0 and 1 at an epoch, with the
developments of the IERS Conventions; `T` centuries of TT, `Tu` days of UT1 since J2000. -/
noncomputable def tideAt (U : Nat → ℝ → ℝ → ℝ → ℝ → ℝ → ℝ → V3 → ℝ) (n : Nat) (T Tu : ℝ) (r : V3) : ℝ :=
  let V := fun N => U N (Iau.eraIers Tu + PoleTide.rad (Iau.gmstPoly T)) (PoleTide.rad (Fundarg.lPoly T)) (PoleTide.rad (Fundarg.lpPoly T))
    (PoleTide.rad (Fundarg.fPoly T)) (PoleTide.rad (Fundarg.dPoly T)) (PoleTide.rad (Fundarg.omPoly T)) r
  V n - V 1

/-- The accelerations at the rows of an orbit by the tide potential `U` from degree 2 to `n`, UT1 from the records. -/
def TideAccels (U : Nat → ℝ → ℝ → ℝ → ℝ → ℝ → ℝ → V3 → ℝ) (n : Nat) (recs : List (Eop.Rec ℚ)) : List (ℚ × List ℚ) → List V3 → Prop :=
  List.Forall₂ fun o g => ∃ a b, Between recs (mjdTT o.1) a b ∧
    Harmonic.IsGradient (tideAt U n (centuriesTT o.1) (daysUT1 o.1 (ut1Tai a b (mjdTT o.1)))) (three o.2 0) g

/-- The acceleration `g`, rotated to the celestial frame, is within the tolerance of the benchmark in every component. -/
def Within (tol : ℝ) (q r : ℚ × List ℚ) (g : V3) : Prop :=
  |(three r.2 0).x - (toCelestial q.2 g).x| < tol ∧ |(three r.2 0).y - (toCelestial q.2 g).y| < tol ∧
    |(three r.2 0).z - (toCelestial q.2 g).z| < tol

/-- All rows are within the tolerance. -/
def AllWithin (tol : ℝ) (qs rs : List (ℚ × List ℚ)) (gs : List V3) : Prop :=
  ∀ (i : Nat) q r g, qs[i]? = some q → rs[i]? = some r → gs[i]? = some g → Within tol q r g

end Verif.Costg
