import Verif.Model.RoundedSofa
import Verif.Spec.Rounding
import Verif.Spec.Angle
/-
Draws, and what is asked of the library that is compared with.
-/
namespace Verif.RoundedSofa
open Verif Verif.Iau Verif.Rounding Verif.Rounded

/-- The epochs that are drawn: from MJD 47892 to 66154, up to a minute and more before and after. -/
def Drawn (e : Epoch) : Prop := -3653 ≤ e.daysSinceJ2000 ∧ e.daysSinceJ2000 ≤ 14611

/-- An angle within `ε` of `x`, whole turns apart, between 0 and a full turn. -/
def Angle (ε a x : ℝ) : Prop := Near ε a x ∧ 0 ≤ a ∧ a ≤ 2 * Real.pi + 1e-15

/-- The angle is not within `δ` of a full turn. -/
def Clear (δ x : ℝ) : Prop := ∀ k : ℤ, δ ≤ |x - 2 * Real.pi * k|

/-- Precession part of the IAU 2000 sidereal time, arcseconds. -/
noncomputable def gmst00Poly (t : ℝ) : ℝ := 0.014506 + 4612.15739966 * t + 1.39667721 * t ^ 2 - 0.00009344 * t ^ 3 + 0.00001882 * t ^ 4

/-- SOFA's sidereal times: a function of the Earth rotation angle and a polynomial in the centuries of TT, with the coefficients of IAU 2006 or of IAU 2000. -/
noncomputable def sofaGmst (fl : Arith) (F : ℝ → ℝ → ℝ) (era cents : Epoch → ℝ) (cs : List ℝ) (tt ut1 : Epoch) : ℝ := F (era ut1) (horner fl (cents tt) cs)

noncomputable def iau2006 : List ℝ := [0.014506, 4612.156534, 1.3915817, -0.00000044, -0.000029956, -0.0000000368]
noncomputable def iau2000 : List ℝ := [0.014506, 4612.15739966, 1.39667721, -0.00009344, 0.00001882]

end Verif.RoundedSofa
