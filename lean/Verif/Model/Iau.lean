import Verif.Model.Angle
/-
Sidereal time and Earth rotation angle (src/lib/iau/*.cpp, include/iau.hpp).
-/
namespace Verif.Iau
open Verif.Angle

/-- `dso::MjdEpoch` (library `datetime`): an integer Modified Julian Day and the fraction of the day
in [0, 1). -/
structure Epoch where
  mjd : ℤ
  f : ℝ
  f_nonneg : 0 ≤ f
  f_lt : f < 1

/-- Days since J2000 (MJD 51544.5): `diff<FractionalDays>(j2000_mjd())`. -/
noncomputable def Epoch.daysSinceJ2000 (e : Epoch) : ℝ := (e.mjd : ℝ) + e.f - 51544.5

/-- `jcenturies_sinceJ2000()`. -/
noncomputable def Epoch.jcenturies (e : Epoch) : ℝ := e.daysSinceJ2000 / 36525

/-- `era00` (era00.cpp:3-17). -/
noncomputable def era00 (ut1 : Epoch) : ℝ :=
  let tu := ut1.daysSinceJ2000
  anp (D2PI * (ut1.f + 0.7790572732640 + 0.00273781191135448 * tu) + Real.pi)

/-- `gmst` (gmst.cpp:4-21). -/
noncomputable def gmst (tt ut1 : Epoch) : ℝ :=
  let t := tt.jcenturies
  anp (era00 ut1 +
    sec2rad (0.014506 + (4612.156534 + (1.3915817 + (-0.00000044 + (-0.000029956 + (-0.0000000368) * t) * t) *
      t) * t) * t))

/-- `dgmst` (dgmst.cpp:4-17), in radians per day. -/
noncomputable def dgmst (tt : Epoch) : ℝ :=
  let t := tt.jcenturies
  let b := sec2rad (4612.156534 + (1.3915817 + (-0.00000044 + (-0.000029956 + (-0.0000000368) * t) * t) * t) * t) /
    36525
  let a := D2PI * 2 * 1.00273781191135448
  a + b

/-- `gmst82` (gmst82.cpp:4-23). -/
noncomputable def gmst82 (ut1 : Epoch) : ℝ :=
  let halfDaySec : ℝ := 86400 / 2
  let A : ℝ := 24110.54841 - halfDaySec
  let B : ℝ := 8640184.812866
  let C : ℝ := 0.093104
  let D : ℝ := -6.2e-6
  let t := ut1.jcenturies
  let f := ut1.f * 86400
  anp (hsec2rad (((A + (B + (C + D * t) * t) * t) + f) + halfDaySec))

/-- `sp00` (iau.hpp:72-77). -/
noncomputable def sp00 (tt : Epoch) : ℝ := sec2rad (-47e-6 * tt.jcenturies)

end Verif.Iau
