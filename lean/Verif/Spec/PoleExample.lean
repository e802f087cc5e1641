import Verif.Spec.Eop
import Verif.Spec.PoleTide
import Verif.Spec.DesaiGrid
/-
Displacement of a site by the pole tide and the ocean pole tide, IERS Conventions (2010), sections 7.1.4 and 7.1.5, with the pole from a series
of records. `t` is a Modified Julian Date TT, angles are in degrees unless said otherwise.
-/
namespace Verif.PoleExample
open Verif Verif.Eop Verif.PoleTide

/-- The pole at `t` (arcseconds): the polynomials through the nearest records, as many on each side as there are on both, at most three. -/
def PoleAt (recs : List (Rec ℚ)) (t xp yp : ℚ) : Prop :=
  ∃ l r pre post, recs = pre ++ l ++ r ++ post ∧ (∀ x ∈ pre ++ l, x.t ≤ t) ∧ (∀ x ∈ r ++ post, t < x.t) ∧ l.length = r.length ∧
    1 ≤ l.length ∧ l.length ≤ 3 ∧ (l.length = 3 ∨ pre = [] ∨ post = []) ∧ PolyThrough (l ++ r) Rec.xp t xp ∧ PolyThrough (l ++ r) Rec.yp t yp

/-- Julian years since J2000. -/
noncomputable def years (t : ℚ) : ℝ := ((t : ℝ) - 51544.5) / 365.25

/-- Radians. -/
noncomputable def radians (d : ℚ) : ℝ := d * (Real.pi / 180)

/-- Equation 26 of section 7.1.4, in metres. -/
def SolidShift (t xp yp lon lat : ℚ) (v : V3) : Prop :=
  let θ := Real.pi / 2 - radians lat
  let l := radians lon
  let m1 := (xp : ℝ) - poleX (years t)
  let m2 := -((yp : ℝ) - poleY (years t))
  v.dot (south l (radians lat)) = -0.009 * Real.cos (2 * θ) * (m1 * Real.cos l + m2 * Real.sin l) ∧
  v.dot (east l (radians lat)) = 0.009 * Real.cos θ * (m1 * Real.sin l - m2 * Real.cos l) ∧
  v.dot (up l (radians lat)) = -0.033 * Real.sin (2 * θ) * (m1 * Real.cos l + m2 * Real.sin l)

/-- Equation 29 of section 7.1.5, in metres, with the coefficients `c` of the site and the constants of Table 1.1 (the mean angular velocity of
the Earth with more digits). -/
def OceanShift (t xp yp lon lat : ℚ) (c : SiteCoeffs ℚ) (v : V3) : Prop :=
  let l := radians lon
  let m1 := rad (xp - poleX (years t))
  let m2 := rad (-(yp - poleY (years t)))
  let a : ℝ := 6378136.6
  let K : ℝ := 4 * Real.pi * 6.67428e-11 * a * 1025 * (Real.sqrt (8 * Real.pi / 15) * (7.2921151467064e-5 ^ 2 * a ^ 4 / 3.986004418e14)) /
    (3 * 9.7803278)
  let f (x y : ℚ) := K * ((m1 * 0.6870 + m2 * 0.0036) * x + (m2 * 0.6870 - m1 * 0.0036) * y)
  v.dot (east l (radians lat)) = f c.eR c.eI ∧ v.dot (-south l (radians lat)) = f c.nR c.nI ∧ v.dot (up l (radians lat)) = f c.rR c.rI

end Verif.PoleExample
