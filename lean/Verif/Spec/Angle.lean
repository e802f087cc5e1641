import Verif.Model.Fundarg
import Verif.Model.Iau
import Verif.Model.DoodsonArg
/-
Textbook definitions of angles, rates and arguments.
-/
namespace Verif.Angle

/-- Equal modulo a full circle. -/
def Cong (x y : ℝ) : Prop := ∃ k : ℤ, x = y + 2 * Real.pi * k

/-- An angle in [0, 2π). -/
def InCircle (x : ℝ) : Prop := 0 ≤ x ∧ x < 2 * Real.pi

end Verif.Angle

namespace Verif.Iau
open Verif.Angle

/-- IERS Conventions 2010, Equation 5.15: Earth rotation angle for `Tu` days of UT1 since J2000. -/
noncomputable def eraIers (Tu : ℝ) : ℝ := 2 * Real.pi * (0.7790572732640 + 1.00273781191135448 * Tu)

/-- Precession part of the IAU 2006 GMST, arcseconds, `t` Julian centuries of TT. -/
noncomputable def gmstPoly (t : ℝ) : ℝ :=
  0.014506 + 4612.156534 * t + 1.3915817 * t ^ 2 - 0.00000044 * t ^ 3 - 0.000029956 * t ^ 4 -
    0.0000000368 * t ^ 5

/-- IAU 1982 GMST in seconds of time: second of the UT1 day plus the polynomial. -/
noncomputable def gmst82Poly (t secOfDay : ℝ) : ℝ :=
  secOfDay + 24110.54841 + 8640184.812866 * t + 0.093104 * t ^ 2 - 6.2e-6 * t ^ 3

end Verif.Iau

namespace Verif.Fundarg
open Verif.Angle

/-- Delaunay arguments of IERS Conventions 2010, Equation 5.43, in arcseconds. -/
noncomputable def lPoly (t : ℝ) : ℝ :=
  485868.249036 + 1717915923.2178 * t + 31.8792 * t ^ 2 + 0.051635 * t ^ 3 - 0.00024470 * t ^ 4
noncomputable def lpPoly (t : ℝ) : ℝ :=
  1287104.793048 + 129596581.0481 * t - 0.5532 * t ^ 2 + 0.000136 * t ^ 3 - 0.00001149 * t ^ 4
noncomputable def fPoly (t : ℝ) : ℝ :=
  335779.526232 + 1739527262.8478 * t - 12.7512 * t ^ 2 - 0.001037 * t ^ 3 + 0.00000417 * t ^ 4
noncomputable def dPoly (t : ℝ) : ℝ :=
  1072260.703692 + 1602961601.2090 * t - 6.3706 * t ^ 2 + 0.006593 * t ^ 3 - 0.00003169 * t ^ 4
noncomputable def omPoly (t : ℝ) : ℝ :=
  450160.398036 - 6962890.5431 * t + 7.4722 * t ^ 2 + 0.007702 * t ^ 3 - 0.00005939 * t ^ 4

end Verif.Fundarg

namespace Verif.Doodson

/-- The linear combination of six angles with the multipliers of a constituent. -/
noncomputable def DC.combine (d : DC) (τ s h p N ps : ℝ) : ℝ :=
  d.i0 * τ + d.i1 * s + d.i2 * h + d.i3 * p + d.i4 * N + d.i5 * ps

end Verif.Doodson
