import Verif.Model.Fcn
import Verif.Spec.Chars
import Mathlib.Analysis.SpecialFunctions.Complex.Circle
/-
Lambert's model: a complex amplitude, tabulated, rotating with the period of -430.21 days.
-/
namespace Verif.Fcn
open Verif.Chars

/-- The complex amplitude of a table entry. -/
noncomputable def Coef.amp (c : Coef ℝ) : ℂ := ⟨c.re, c.im⟩

/-- Phase at MJD `t`: one turn in -430.21 days, zero at J2000 (MJD 51544.5). -/
noncomputable def phase (t : ℝ) : ℝ := 2 * Real.pi * (t - 51544.5) / (-430.21)

/-- A strictly increasing table. -/
def Sorted (l : List (Coef ℝ)) : Prop := l.Pairwise (fun a b => a.t < b.t)

/-- The amplitude that the table gives at `t`: linear between neighbours, constant outside. -/
inductive Amplitude (l : List (Coef ℝ)) (t : ℝ) : ℂ → Prop where
  | between (pre post : List (Coef ℝ)) (a b : Coef ℝ) (hl : l = pre ++ a :: b :: post) (ha : a.t ≤ t)
      (hb : t < b.t) :
      Amplitude l t (a.amp + ((t - a.t) / (b.t - a.t) : ℝ) * (b.amp - a.amp))
  | before (a : Coef ℝ) (post : List (Coef ℝ)) (hl : l = a :: post) (ha : t < a.t) : Amplitude l t a.amp
  | after (pre : List (Coef ℝ)) (a : Coef ℝ) (hl : l = pre ++ [a]) (ha : a.t ≤ t) : Amplitude l t a.amp

/-- Modified Julian Date of 1 January 0h of a Gregorian year: 51544 for 2000. -/
def newYear (y : Int) : Int :=
  let days (n : Int) := 365 * n + n / 4 - n / 100 + n / 400
  51544 + (days (y - 1) - days 1999)

/-! ### Files -/

/-- The columns of a line: year, MJD, real part, imaginary part, sigma. -/
def columns (year : ℚ) (c : Coef ℚ) : List ℚ := [year, c.t, c.re, c.im, c.sg]

end Verif.Fcn
