import Verif.Model.Rounded
import Verif.Model.PoleTide
import Verif.Model.SolidTide
/-
Pole tide and solid Earth tide in floating-point arithmetic (include/eop.hpp, include/pole_tide.hpp, src/lib/pole_tide,
src/lib/solid_earth_tides): as in `Model/PoleTide` and `Model/SolidTide`, with the rounding `fl` after every operation and every literal, products
fused with a sum excepted (`Model/Arith`). Literals that are doubles (5e0, 0.5e0, ...) stand as they are. `fsin`, `fcos` are the functions of the C
library, `cube x` is `std::pow(x, 3e0)`, `dot` is a row of a matrix times a vector in Eigen, which forms the sum in an order of its own, and `sph` is
`cartesian2spherical` (geodesy/transformations.hpp, not part of the repository).
-/
namespace Verif.RoundedTides
open Verif Verif.Rounded
open Verif.SolidTide (Sph Row2 Step2 Tide table2 assign)

section
variable (fl : Arith)

/-! ### Pole tide -/

/-- `secular_pole` (eop.hpp:37-42); `dt` is the number of years since J2000 as computed by the library `datetime`. -/
noncomputable def secularPole (dt : ℝ) : ℝ × ℝ :=
  (fl (55 + fl.pr 0 (lit fl 1.677 * dt)), fl (320.5 + fl.pr 1 (lit fl 3.460 * dt)))

/-- `mcoeffs` (pole_tide.hpp:35-40). -/
noncomputable def mcoeffs (dt xp yp : ℝ) : ℝ × ℝ :=
  (fl (xp - fl.pr 2 ((secularPole fl dt).1 * lit fl 1e-3)), -fl (yp - fl.pr 3 ((secularPole fl dt).2 * lit fl 1e-3)))

/-- `PoleTide::stokes_coeffs` (pole_tide.hpp:135-143): `dC21`, `dS21`. -/
noncomputable def solid21 (dt xp yp : ℝ) : ℝ × ℝ :=
  let m1 := (mcoeffs fl dt xp yp).1
  let m2 := (mcoeffs fl dt xp yp).2
  (fl (lit fl (-1.333e-9) * fl (m1 + fl.pr 4 (lit fl 0.0115 * m2))), fl (lit fl (-1.333e-9) * fl (m2 - fl.pr 5 (lit fl 0.0115 * m1))))

/-- `OceanPoleTide::stokes_coeffs(t, xp, yp, dC21, dS21)` (pole_tide.hpp:249-257). -/
noncomputable def ocean21 (dt xp yp : ℝ) : ℝ × ℝ :=
  let m1 := (mcoeffs fl dt xp yp).1
  let m2 := (mcoeffs fl dt xp yp).2
  (fl (lit fl (-2.1778e-10) * fl (m1 - fl.pr 4 (lit fl 0.01724 * m2))), fl (lit fl (-1.7232e-10) * fl (m2 - fl.pr 5 (lit fl 0.03365 * m1))))

variable (fsin fcos cube : ℝ → ℝ) (dot : V3 → V3 → ℝ) (sph : V3 → Sph)

/-- `PoleTide::deformation` (pole_tide_deformation.cpp:3-41). -/
noncomputable def deformation (dt xp yp lon lat : ℝ) : V3 :=
  let m1 := (mcoeffs fl dt xp yp).1
  let m2 := (mcoeffs fl dt xp yp).2
  let theta := fl (fl (DPI fl / 2) - lat)
  let sl := fsin lon
  let cl := fcos lon
  let st := fsin theta
  let ct := fcos theta
  let s2t := fl (fl (2 * st) * ct)
  let c2t := fl (fl.pr 4 (fl (2 * ct) * ct) - 1)
  let s0 := fl (fl (-9 * c2t) * fl (fl.pr 5 (m1 * cl) + fl.pr 6 (m2 * sl)))
  let s1 := fl (fl (9 * ct) * fl (fl.pr 7 (m1 * sl) - fl.pr 8 (m2 * cl)))
  let s2 := fl (fl (-33 * s2t) * fl (fl.pr 9 (m1 * cl) + fl.pr 10 (m2 * sl)))
  let s : V3 := ⟨s0, s1, s2⟩
  ⟨fl (dot ⟨fl (ct * cl), -sl, fl (st * cl)⟩ s * lit fl 1e-3),
   fl (dot ⟨fl (ct * sl), cl, fl (st * sl)⟩ s * lit fl 1e-3),
   fl (dot ⟨-st, 0, ct⟩ s * lit fl 1e-3)⟩

/-! ### Solid Earth tide -/

/-- `dCt` and `dSt` of `iers2010_solid_earth_tide_anelastic_tb` (iers2010_geopotential_step1.cpp:36-110); `b` are the spherical coordinates of the
body. The square root is rounded to nearest. -/
noncomputable def bodyCt (Re : ℝ) (b : Sph) : Fin 12 → ℝ :=
  let t := fsin b.lat
  let u := fcos b.lat
  let u2 := fl (u * u)
  let t2 := fl (t * t)
  let P20 := fl (fl (fl (Real.sqrt 5) * 0.5) * fl (fl.pr 0 (3 * t2) - 1))
  let P21 := fl (fl (fl (fl (Real.sqrt (fl (5 / 3))) * 3) * t) * u)
  let P22 := fl (fl (fl (Real.sqrt (fl (5 / 12))) * 3) * u2)
  let P30 := fl (fl (fl (0.5 * t) * fl (Real.sqrt 7)) * fl (fl.pr 1 (5 * t2) - 3))
  let P31 := fl (fl (fl (1.5 * fl (fl.pr 2 (5 * t2) - 1)) * u) * fl (Real.sqrt (fl (7 / 6))))
  let P32 := fl (fl (fl (15 * fl (Real.sqrt (fl (7 / 60)))) * t) * u2)
  let P33 := fl (fl (fl (15 * u2) * u) * fl (Real.sqrt (fl (14 / 720))))
  let cl := fcos b.lon
  let sl := fsin b.lon
  let c2l := fl (fl.pr 3 (cl * cl) - fl.pr 4 (sl * sl))
  let s2l := fl (fl (2 * cl) * sl)
  let c3l := fl (fl.pr 5 (fl (fl (4 * cl) * cl) * cl) - fl.pr 6 (3 * cl))
  let fac2 := lit fl (1 / 5)
  let fac3 := fl (fl (Re / b.r) / 7)
  ![fl (fl (fac2 * P20) * lit fl 0.30190),
    fl (fl (fac2 * P21) * fl (fl.pr 7 (lit fl 0.29830 * cl) + fl.pr 8 (lit fl (-0.00144) * sl))),
    fl (fl (fac2 * P22) * fl (fl.pr 9 (lit fl 0.30102 * c2l) + fl.pr 10 (lit fl (-0.00130) * s2l))),
    fl (fl (fac3 * P30) * lit fl 0.093),
    fl (fl (fl (fac3 * P31) * lit fl 0.093) * cl),
    fl (fl (fl (fac3 * P32) * lit fl 0.093) * c2l),
    fl (fl (fl (fac3 * P33) * lit fl 0.094) * c3l),
    fl (fl (fac2 * P20) * lit fl (-0.00089)),
    fl (fl (fl (fac2 * P21) * lit fl (-0.00080)) * cl),
    fl (fl (fl (fac2 * P22) * lit fl (-0.00057)) * c2l), 0, 0]

/-- The same for the sine coefficients. -/
noncomputable def bodySt (Re : ℝ) (b : Sph) : Fin 12 → ℝ :=
  let t := fsin b.lat
  let u := fcos b.lat
  let u2 := fl (u * u)
  let t2 := fl (t * t)
  let P21 := fl (fl (fl (fl (Real.sqrt (fl (5 / 3))) * 3) * t) * u)
  let P22 := fl (fl (fl (Real.sqrt (fl (5 / 12))) * 3) * u2)
  let P31 := fl (fl (fl (1.5 * fl (fl.pr 2 (5 * t2) - 1)) * u) * fl (Real.sqrt (fl (7 / 6))))
  let P32 := fl (fl (fl (15 * fl (Real.sqrt (fl (7 / 60)))) * t) * u2)
  let P33 := fl (fl (fl (15 * u2) * u) * fl (Real.sqrt (fl (14 / 720))))
  let cl := fcos b.lon
  let sl := fsin b.lon
  let c2l := fl (fl.pr 3 (cl * cl) - fl.pr 4 (sl * sl))
  let s2l := fl (fl (2 * cl) * sl)
  let s3l := fl (fl.pr 11 (fl (fl (-4 * sl) * sl) * sl) + fl.pr 12 (3 * sl))
  let fac2 := lit fl (1 / 5)
  let fac3 := fl (fl (Re / b.r) / 7)
  ![0,
    fl (fl (fac2 * P21) * fl (fl.pr 13 (lit fl 0.29830 * sl) - fl.pr 14 (lit fl (-0.00144) * cl))),
    fl (fl (fac2 * P22) * fl (fl.pr 15 (lit fl 0.30102 * s2l) - fl.pr 16 (lit fl (-0.00130) * c2l))),
    0,
    fl (fl (fl (fac3 * P31) * lit fl 0.093) * sl),
    fl (fl (fl (fac3 * P32) * lit fl 0.093) * s2l),
    fl (fl (fl (fac3 * P33) * lit fl 0.094) * s3l),
    0,
    fl (fl (fl (fac2 * P21) * lit fl (-0.00080)) * sl),
    fl (fl (fl (fac2 * P22) * lit fl (-0.00057)) * s2l), 0, 0]

/-- `iers2010_solid_earth_tide_anelastic_tb` (iers2010_geopotential_step1.cpp:31-119), with the arrays it adds to. -/
noncomputable def addBody (Re ratio : ℝ) (rtb : V3) (a : (Fin 12 → ℝ) × (Fin 12 → ℝ)) : (Fin 12 → ℝ) × (Fin 12 → ℝ) :=
  let b := sph rtb
  let fac := fl (ratio * cube (fl (Re / b.r)))
  (fun i => fl (a.1 i + fl.pr 17 (bodyCt fl fsin fcos Re b i * fac)), fun i => fl (a.2 i + fl.pr 18 (bodySt fl fsin fcos Re b i * fac)))

/-- `potential_step1` (iers2010_geopotential_step1.cpp:236-259): `dC`, `dS`. -/
noncomputable def step1 (Re sunRatio moonRatio : ℝ) (rMoon rSun : V3) : (Fin 12 → ℝ) × (Fin 12 → ℝ) :=
  addBody fl fsin fcos cube sph Re moonRatio rMoon (addBody fl fsin fcos cube sph Re sunRatio rSun (fun _ => 0, fun _ => 0))

/-- One constituent (iers2010_geopotential_step2.cpp:115-132). -/
noncomputable def addRow (f : Fin 6 → ℝ) (s : Step2) (c : Row2) : Step2 :=
  let arg := Rounded.argument fl c.d f
  let carg := fcos arg
  let sarg := fsin arg
  if c.d.i0 = 1 then
    { s with C21 := fl (s.C21 + fl (fl.pr 0 (lit fl c.ip * sarg) + fl.pr 1 (lit fl c.op * carg))),
             S21 := fl (s.S21 + fl (fl.pr 2 (lit fl c.ip * carg) - fl.pr 3 (lit fl c.op * sarg))) }
  else if c.d.i0 = 0 then { s with C20 := fl (s.C20 + fl (fl.pr 4 (lit fl c.ip * carg) - fl.pr 5 (lit fl c.op * sarg))) }
  else if c.d.i0 = 2 then
    { s with C22 := fl (s.C22 + fl (fl.pr 6 (lit fl c.ip * carg) - fl.pr 7 (lit fl c.op * sarg))),
             S22 := fl (s.S22 - fl (fl.pr 8 (lit fl c.ip * sarg) + fl.pr 9 (lit fl c.op * carg))) }
  else s

/-- `potential_step2` (iers2010_geopotential_step2.cpp:97-142); `args` are the Delaunay arguments, `gmst` is the sidereal time. -/
noncomputable def step2 (gmst : ℝ) (args : Fin 5 → ℝ) : Step2 :=
  let f := Rounded.delaunay2doodson fl args gmst
  let s := table2.foldl (addRow fl fsin fcos f) ⟨0, 0, 0, 0, 0⟩
  ⟨fl (s.C20 * lit fl 1e-12), fl (s.C21 * lit fl 1e-12), fl (s.S21 * lit fl 1e-12), fl (s.C22 * lit fl 1e-12), fl (s.S22 * lit fl 1e-12)⟩

/-- The constructor (solid_earth_tide.hpp:199-203); the coefficients are not initialised. -/
noncomputable def make (junkC junkS : Nat → Nat → ℝ) (GMearth Rearth GMsun GMmoon : ℝ) : Tide :=
  ⟨fl (GMsun / GMearth), fl (GMmoon / GMearth), ⟨4, 4, 5, junkC, junkS, GMearth, Rearth, true⟩⟩

/-- The assignments of `stokes_coeffs` (iers2010_stokes_coeffs.cpp:22-49), in order. -/
noncomputable def writes (dC dS : Fin 12 → ℝ) (q : Step2) : List (Bool × Int × Int × ℝ) := [
  (false, 2, 0, fl (dC 0 + q.C20)), (false, 3, 0, dC 3), (false, 4, 0, dC 7), (false, 2, 1, fl (dC 1 + q.C21)), (false, 3, 1, dC 4),
  (false, 4, 1, dC 8), (false, 2, 2, fl (dC 2 + q.C22)), (false, 3, 2, dC 5), (false, 4, 2, dC 9), (false, 3, 3, dC 6), (false, 4, 3, dC 10),
  (false, 4, 4, dC 11), (true, 2, 1, fl (dS 1 + q.S21)), (true, 3, 1, dS 4), (true, 4, 1, dS 8), (true, 2, 2, fl (dS 2 + q.S22)), (true, 3, 2, dS 5),
  (true, 4, 2, dS 9), (true, 3, 3, dS 6), (true, 4, 3, dS 10), (true, 4, 4, dS 11)]

/-- `stokes_coeffs` (iers2010_stokes_coeffs.cpp:4-52); `gmst` is the sidereal time that `potential_step2` computes from the epochs. -/
noncomputable def stokes (o : Tide) (gmst : ℝ) (rMoon rSun : V3) (args : Fin 5 → ℝ) : Res Tide :=
  let p := step1 fl fsin fcos cube sph o.mcs.re o.sunRatio o.moonRatio rMoon rSun
  (assign (writes fl p.1 p.2 (step2 fl fsin fcos gmst args)) o.mcs.clear).bind fun c =>
  .ok { o with mcs := c }

end

end Verif.RoundedTides
