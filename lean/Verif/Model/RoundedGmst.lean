import Verif.Model.Rounded
/-
Greenwich mean sidereal time of the IAU 1982 model and the derivative of that of the IAU 2006 model in floating-point arithmetic, as in
`Model/Rounded`. `dso::hsec2rad` and `dso::sec2rad` of the library `geodesy` are parameters; `t` is `jcenturies_sinceJ2000()` and `f` is
`sec_of_day<seconds>()` of the epoch.
-/
namespace Verif.Rounded

section
variable (fl : Arith) (h2r s2r : ℝ → ℝ)

/-- `gmst82` (gmst82.cpp:4-23). The factors of each product are the other way round than in `horner`, with the same result. -/
noncomputable def gmst82 (t f : ℝ) : ℝ :=
  let A := fl (lit fl 24110.54841 - 43200)
  anp fl (h2r (fl (fl (fl (A + fl.pr 3 (t * horner fl t [8640184.812866, 0.093104, -6.2e-6])) + f) + 43200)))

/-- `dgmst` (dgmst.cpp:4-17). -/
noncomputable def dgmst (t : ℝ) : ℝ :=
  let b := fl (s2r (horner fl t [4612.156534, 1.3915817, -0.00000044, -0.000029956, -0.0000000368]) / 36525)
  let a := fl (fl (D2PI fl * 2) * lit fl 1.00273781191135448)
  fl (a + b)

end

end Verif.Rounded
