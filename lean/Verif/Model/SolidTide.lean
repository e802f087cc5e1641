import Verif.Model.Vec
import Verif.Model.Coeffs
import Verif.Model.DoodsonArg
import Verif.Model.Iau
import Verif.Model.PoleTide
import Mathlib.Analysis.SpecialFunctions.Complex.Arg
import Mathlib.Analysis.SpecialFunctions.Trigonometric.Inverse
/-
Solid Earth tide (include/solid_earth_tide.hpp, src/lib/solid_earth_tides). `double`s are exact reals. The function with elastic Love
numbers (iers2010_geopotential_step1.cpp:144-233) and `Tables7` (iers2010_displacement_step2.cpp:27-61) are not used by the code and left out.
-/
namespace Verif.SolidTide
open Verif Verif.Doodson Verif.Angle Verif.Iau

/-- Spherical coordinates. -/
structure Sph where
  r : ℝ
  lat : ℝ
  lon : ℝ

/-- `cartesian2spherical` (geodesy/transformations.hpp, not part of the repository): distance, geocentric latitude and longitude. -/
noncomputable def cart2sph (v : V3) : Sph := ⟨v.norm, Real.arcsin (v.z / v.norm), Complex.arg ⟨v.x, v.y⟩⟩

/-- `iers2010_solid_earth_tide_anelastic_tb` (iers2010_geopotential_step1.cpp:31-119): what is added to `dC` and `dS` for one body. -/
noncomputable def anelastic (Re ratio : ℝ) (rtb : V3) : (Fin 12 → ℝ) × (Fin 12 → ℝ) :=
  let b := cart2sph rtb
  let t := Real.sin b.lat
  let u := Real.cos b.lat
  let u2 := u * u
  let t2 := t * t
  let P20 := Real.sqrt 5 * 0.5 * (3 * t2 - 1)
  let P21 := Real.sqrt (5 / 3) * 3 * t * u
  let P22 := Real.sqrt (5 / 12) * 3 * u2
  let P30 := (0.5 * t * Real.sqrt 7) * (5 * t2 - 3)
  let P31 := (3 / 2) * (5 * t2 - 1) * u * Real.sqrt (7 / 6)
  let P32 := 15 * Real.sqrt (7 / 60) * t * u2
  let P33 := 15 * u2 * u * Real.sqrt (14 / 720)
  let cl := Real.cos b.lon
  let sl := Real.sin b.lon
  let c2l := cl * cl - sl * sl
  let s2l := 2 * cl * sl
  let c3l := 4 * cl * cl * cl - 3 * cl
  let s3l := -4 * sl * sl * sl + 3 * sl
  let fac2 := 1 / 5
  let fac3 := Re / b.r / 7
  let dCt : Fin 12 → ℝ := ![
    fac2 * P20 * 0.30190,
    fac2 * P21 * (0.29830 * cl + (-0.00144) * sl),
    fac2 * P22 * (0.30102 * c2l + (-0.00130) * s2l),
    fac3 * P30 * 0.093,
    fac3 * P31 * 0.093 * cl,
    fac3 * P32 * 0.093 * c2l,
    fac3 * P33 * 0.094 * c3l,
    fac2 * P20 * (-0.00089),
    fac2 * P21 * (-0.00080) * cl,
    fac2 * P22 * (-0.00057) * c2l, 0, 0]
  let dSt : Fin 12 → ℝ := ![
    0,
    fac2 * P21 * (0.29830 * sl - (-0.00144) * cl),
    fac2 * P22 * (0.30102 * s2l - (-0.00130) * c2l),
    0,
    fac3 * P31 * 0.093 * sl,
    fac3 * P32 * 0.093 * s2l,
    fac3 * P33 * 0.094 * s3l,
    0,
    fac2 * P21 * (-0.00080) * sl,
    fac2 * P22 * (-0.00057) * s2l, 0, 0]
  let fac := ratio * (Re / b.r) ^ 3
  (fun i => dCt i * fac, fun i => dSt i * fac)

/-- `potential_step1` (iers2010_geopotential_step1.cpp:236-259): `dC`, `dS`. -/
noncomputable def step1 (Re sunRatio moonRatio : ℝ) (rMoon rSun : V3) : (Fin 12 → ℝ) × (Fin 12 → ℝ) :=
  let s := anelastic Re sunRatio rSun
  let m := anelastic Re moonRatio rMoon
  (fun i => 0 + s.1 i + m.1 i, fun i => 0 + s.2 i + m.2 i)

/-- `Step2TidesCoeffs` (iers2010_geopotential_step2.cpp:9-16). -/
structure Row2 where
  d : DC
  ip : ℚ
  op : ℚ
deriving DecidableEq

/-- `Step2` (iers2010_geopotential_step2.cpp:22-94). -/
def table2 : List Row2 := [
  ⟨⟨1, -3, 0, 2, 0, 0, 0⟩, -1/10, 0⟩,
  ⟨⟨1, -3, 2, 0, 0, 0, 0⟩, -1/10, 0⟩,
  ⟨⟨1, -2, 0, 1, -1, 0, 0⟩, -1/10, 0⟩,
  ⟨⟨1, -2, 0, 1, 0, 0, 0⟩, -7/10, 1/10⟩,
  ⟨⟨1, -2, 2, -1, 0, 0, 0⟩, -1/10, 0⟩,
  ⟨⟨1, -1, 0, 0, -1, 0, 0⟩, -13/10, 1/10⟩,
  ⟨⟨1, -1, 0, 0, 0, 0, 0⟩, -34/5, 3/5⟩,
  ⟨⟨1, -1, 2, 0, 0, 0, 0⟩, 1/10, 0⟩,
  ⟨⟨1, 0, -2, 1, 0, 0, 0⟩, 1/10, 0⟩,
  ⟨⟨1, 0, 0, -1, -1, 0, 0⟩, 1/10, 0⟩,
  ⟨⟨1, 0, 0, -1, 0, 0, 0⟩, 2/5, 0⟩,
  ⟨⟨1, 0, 0, 1, 0, 0, 0⟩, 13/10, -1/10⟩,
  ⟨⟨1, 0, 0, 1, 1, 0, 0⟩, 3/10, 0⟩,
  ⟨⟨1, 0, 2, -1, 0, 0, 0⟩, 3/10, 0⟩,
  ⟨⟨1, 0, 2, -1, 1, 0, 0⟩, 1/10, 0⟩,
  ⟨⟨1, 1, -3, 0, 0, 1, 0⟩, -19/10, 1/10⟩,
  ⟨⟨1, 1, -2, 0, -1, 0, 0⟩, 1/2, 0⟩,
  ⟨⟨1, 1, -2, 0, 0, 0, 0⟩, -217/5, 29/10⟩,
  ⟨⟨1, 1, -1, 0, 0, -1, 0⟩, 3/5, 0⟩,
  ⟨⟨1, 1, -1, 0, 0, 1, 0⟩, 8/5, -1/10⟩,
  ⟨⟨1, 1, 0, -2, -1, 0, 0⟩, 1/10, 0⟩,
  ⟨⟨1, 1, 0, 0, -2, 0, 0⟩, 1/10, 0⟩,
  ⟨⟨1, 1, 0, 0, -1, 0, 0⟩, -44/5, 1/2⟩,
  ⟨⟨1, 1, 0, 0, 0, 0, 0⟩, 4709/10, -151/5⟩,
  ⟨⟨1, 1, 0, 0, 1, 0, 0⟩, 681/10, -23/5⟩,
  ⟨⟨1, 1, 0, 0, 2, 0, 0⟩, -8/5, 1/10⟩,
  ⟨⟨1, 1, 1, -1, 0, 0, 0⟩, 1/10, 0⟩,
  ⟨⟨1, 1, 1, 0, -1, -1, 0⟩, -1/10, 0⟩,
  ⟨⟨1, 1, 1, 0, 0, -1, 0⟩, -103/5, -3/10⟩,
  ⟨⟨1, 1, 1, 0, 0, 1, 0⟩, 3/10, 0⟩,
  ⟨⟨1, 1, 1, 0, 1, -1, 0⟩, -3/10, 0⟩,
  ⟨⟨1, 1, 2, -2, 0, 0, 0⟩, -1/5, 0⟩,
  ⟨⟨1, 1, 2, -2, 1, 0, 0⟩, -1/10, 0⟩,
  ⟨⟨1, 1, 2, 0, 0, 0, 0⟩, -5, 3/10⟩,
  ⟨⟨1, 1, 2, 0, 1, 0, 0⟩, 1/5, 0⟩,
  ⟨⟨1, 1, 3, 0, 0, -1, 0⟩, -1/5, 0⟩,
  ⟨⟨1, 2, -2, 1, 0, 0, 0⟩, -1/2, 0⟩,
  ⟨⟨1, 2, -2, 1, 1, 0, 0⟩, -1/10, 0⟩,
  ⟨⟨1, 2, 0, -1, -1, 0, 0⟩, 1/10, 0⟩,
  ⟨⟨1, 2, 0, -1, 0, 0, 0⟩, -21/10, 1/10⟩,
  ⟨⟨1, 2, 0, -1, 1, 0, 0⟩, -2/5, 0⟩,
  ⟨⟨1, 3, -2, 0, 0, 0, 0⟩, -1/5, 0⟩,
  ⟨⟨1, 3, 0, -2, 0, 0, 0⟩, -1/10, 0⟩,
  ⟨⟨1, 3, 0, 0, 0, 0, 0⟩, -3/5, 0⟩,
  ⟨⟨1, 3, 0, 0, 1, 0, 0⟩, -2/5, 0⟩,
  ⟨⟨1, 3, 0, 0, 2, 0, 0⟩, -1/10, 0⟩,
  ⟨⟨1, 4, 0, -1, 0, 0, 0⟩, -1/10, 0⟩,
  ⟨⟨1, 4, 0, -1, 1, 0, 0⟩, -1/10, 0⟩,
  ⟨⟨0, 0, 0, 0, 1, 0, 0⟩, 83/5, -67/10⟩,
  ⟨⟨0, 0, 0, 0, 2, 0, 0⟩, -1/10, 1/10⟩,
  ⟨⟨0, 0, 1, 0, 0, -1, 0⟩, -6/5, 4/5⟩,
  ⟨⟨0, 0, 2, 0, 0, 0, 0⟩, -11/2, 43/10⟩,
  ⟨⟨0, 0, 2, 0, 1, 0, 0⟩, 1/10, -1/10⟩,
  ⟨⟨0, 0, 3, 0, 0, -1, 0⟩, -3/10, 1/5⟩,
  ⟨⟨0, 1, -2, 1, 0, 0, 0⟩, -3/10, 7/10⟩,
  ⟨⟨0, 1, 0, -1, -1, 0, 0⟩, 1/10, -1/5⟩,
  ⟨⟨0, 1, 0, -1, 0, 0, 0⟩, -6/5, 37/10⟩,
  ⟨⟨0, 1, 0, -1, 1, 0, 0⟩, 1/10, -1/5⟩,
  ⟨⟨0, 1, 0, 1, 0, 0, 0⟩, 1/10, -1/5⟩,
  ⟨⟨0, 2, -2, 0, 0, 0, 0⟩, 0, 3/5⟩,
  ⟨⟨0, 2, 0, -2, 0, 0, 0⟩, 0, 3/10⟩,
  ⟨⟨0, 2, 0, 0, 0, 0, 0⟩, 3/5, 63/10⟩,
  ⟨⟨0, 2, 0, 0, 1, 0, 0⟩, 1/5, 13/5⟩,
  ⟨⟨0, 2, 0, 0, 2, 0, 0⟩, 0, 1/5⟩,
  ⟨⟨0, 3, -2, 1, 0, 0, 0⟩, 1/10, 1/5⟩,
  ⟨⟨0, 3, 0, -1, 0, 0, 0⟩, 2/5, 11/10⟩,
  ⟨⟨0, 3, 0, -1, 1, 0, 0⟩, 1/5, 1/2⟩,
  ⟨⟨0, 4, -2, 0, 0, 0, 0⟩, 1/10, 1/5⟩,
  ⟨⟨0, 4, 0, -2, 0, 0, 0⟩, 1/10, 1/10⟩,
  ⟨⟨2, -1, 0, 1, 0, 0, 0⟩, -3/10, 0⟩,
  ⟨⟨2, 0, 0, 0, 0, 0, 0⟩, -6/5, 0⟩]

/-- `dC20`, `dC21`, `dS21`, `dC22`, `dS22`. -/
structure Step2 where
  C20 : ℝ
  C21 : ℝ
  S21 : ℝ
  C22 : ℝ
  S22 : ℝ

/-- One constituent (iers2010_geopotential_step2.cpp:115-132). -/
noncomputable def addRow (f : Fin 6 → ℝ) (s : Step2) (c : Row2) : Step2 :=
  let arg := c.d.argument f
  let carg := Real.cos arg
  let sarg := Real.sin arg
  if c.d.i0 = 1 then
    { s with C21 := s.C21 + (c.ip * sarg + c.op * carg), S21 := s.S21 + (c.ip * carg - c.op * sarg) }
  else if c.d.i0 = 0 then { s with C20 := s.C20 + (c.ip * carg - c.op * sarg) }
  else if c.d.i0 = 2 then
    { s with C22 := s.C22 + (c.ip * carg - c.op * sarg), S22 := s.S22 - (c.ip * sarg + c.op * carg) }
  else s

/-- `potential_step2` (iers2010_geopotential_step2.cpp:97-142); `args` are the Delaunay arguments. -/
noncomputable def step2 (tt ut1 : Epoch) (args : Fin 5 → ℝ) : Step2 :=
  let g := gmst tt ut1
  let f := delaunay2doodson args g
  let s := table2.foldl (addRow f) ⟨0, 0, 0, 0, 0⟩
  ⟨s.C20 * 1e-12, s.C21 * 1e-12, s.S21 * 1e-12, s.C22 * 1e-12, s.S22 * 1e-12⟩

/-- `SolidEarthTide` (solid_earth_tide.hpp:51-55). -/
structure Tide where
  sunRatio : ℝ
  moonRatio : ℝ
  mcs : Coeffs ℝ

/-- The constructor (solid_earth_tide.hpp:199-203); the coefficients are not initialised. -/
noncomputable def Tide.make (junkC junkS : Nat → Nat → ℝ) (GMearth Rearth GMsun GMmoon : ℝ) : Tide :=
  ⟨GMsun / GMearth, GMmoon / GMearth, ⟨4, 4, 5, junkC, junkS, GMearth, Rearth, true⟩⟩

/-- A sequence of assignments to elements of the set. -/
noncomputable def assign : List (Bool × Int × Int × ℝ) → Coeffs ℝ → Res (Coeffs ℝ)
  | [], c => .ok c
  | (false, i, j, v) :: l, c => (c.setC i j v).bind (assign l)
  | (true, i, j, v) :: l, c => (c.setS i j v).bind (assign l)

/-- The assignments of `stokes_coeffs` (iers2010_stokes_coeffs.cpp:22-49), in order. -/
noncomputable def writes (dC dS : Fin 12 → ℝ) (q : Step2) : List (Bool × Int × Int × ℝ) := [
  (false, 2, 0, dC 0 + q.C20), (false, 3, 0, dC 3), (false, 4, 0, dC 7), (false, 2, 1, dC 1 + q.C21), (false, 3, 1, dC 4), (false, 4, 1, dC 8),
  (false, 2, 2, dC 2 + q.C22), (false, 3, 2, dC 5), (false, 4, 2, dC 9), (false, 3, 3, dC 6), (false, 4, 3, dC 10), (false, 4, 4, dC 11),
  (true, 2, 1, dS 1 + q.S21), (true, 3, 1, dS 4), (true, 4, 1, dS 8), (true, 2, 2, dS 2 + q.S22), (true, 3, 2, dS 5), (true, 4, 2, dS 9),
  (true, 3, 3, dS 6), (true, 4, 3, dS 10), (true, 4, 4, dS 11)]

/-- `stokes_coeffs` (iers2010_stokes_coeffs.cpp:4-52). -/
noncomputable def Tide.stokes (o : Tide) (tt ut1 : Epoch) (rMoon rSun : V3) (args : Fin 5 → ℝ) : Res Tide :=
  let p := step1 o.mcs.re o.sunRatio o.moonRatio rMoon rSun
  (assign (writes p.1 p.2 (step2 tt ut1 args)) o.mcs.clear).bind fun c =>
  .ok { o with mcs := c }

/-! ### Displacement -/

/-- `normalized()`. -/
noncomputable def unit (v : V3) : V3 := (1 / v.norm) * v

/-- In-phase part for one body (iers2010_displacement_step1.cpp:240-255 and 256-273), before scaling with `fac`. -/
noncomputable def inPhase (Re : ℝ) (rsta rtb : V3) : V3 :=
  let sf := rsta.z / rsta.norm
  let p := (3 * sf * sf - 1) / 2
  let love2 := 0.6078 + (-0.0006) * p
  let shida2 := 0.0847 + 0.0002 * p
  let ur := unit rtb
  let us := unit rsta
  let R := ur.dot us
  let R2 := R * R
  let R3 := R2 * R
  let dx := ((3 * R2 - 1) / 2) * (love2 * us) + (3 * shida2 * R) * (ur - R * us)
  let scale3 := Re / rtb.norm
  dx + scale3 * ((1 / 2 : ℝ) * ((5 * R3 - 3 * R) * ((0.292 : ℝ) * us)) + (0.015 * (15 * R2 - 3) / 2) * (ur - R * us))

/-- Out-of-phase and latitude dependent part for one body (iers2010_displacement_step1.cpp:283-319 and 321-357), before scaling: east, north,
radial. -/
noncomputable def outPhase (tsta ttb : Sph) : V3 :=
  let sphi := Real.sin tsta.lat
  let cphi := Real.cos tsta.lat
  let s2phi := 2 * sphi * cphi
  let c2phi := cphi * cphi - sphi * sphi
  let sPhi := Real.sin ttb.lat
  let cPhi := Real.cos ttb.lat
  let s2Phi := 2 * sPhi * cPhi
  let slmL := Real.sin (tsta.lon - ttb.lon)
  let clmL := Real.cos (tsta.lon - ttb.lon)
  let s2lmL := 2 * slmL * clmL
  let c2lmL := clmL * clmL - slmL * slmL
  let hI10 := -0.0025
  let hI11 := -0.0022
  let lI10 := -0.0007
  let lI11 := -0.0007
  let P21 := -3 * sPhi * cPhi
  let P22 := 3 * cPhi * cPhi
  let F18 := 0.0012 * sphi * P21
  let F19 := -0.50 * 0.0024 * sphi * cphi * P22
  let cPhi2 := cPhi * cPhi
  let cphi2 := cphi * cphi
  ⟨-1.50 * lI10 * s2Phi * sphi * clmL + -1.50 * lI11 * cPhi2 * cphi * c2lmL + F18 * (-c2phi * slmL) + F19 * (sphi * s2lmL),
   -1.50 * lI10 * s2Phi * c2phi * slmL + 0.75 * lI11 * cPhi2 * s2phi * s2lmL + F18 * (sphi * clmL) + F19 * c2lmL,
   -0.75 * hI10 * s2Phi * s2phi * slmL + -0.75 * hI11 * cPhi2 * cphi2 * s2lmL⟩

/-- `geodetic2lvlh(lat, lon).transpose() * v`. -/
noncomputable def lvlhMulT (lat lon : ℝ) (v : V3) : V3 :=
  let sl := Real.sin lon
  let cl := Real.cos lon
  let sf := Real.sin lat
  let cf := Real.cos lat
  ⟨-sl * v.x + cl * v.y + 0 * v.z,
   -sf * cl * v.x + -sf * sl * v.y + cf * v.z,
   cf * cl * v.x + cf * sl * v.y + sf * v.z⟩

/-- `step1` (iers2010_displacement_step1.cpp:218-364): east, north, radial. -/
noncomputable def dispStep1 (Re sunRatio moonRatio : ℝ) (rsta rSun rMoon : V3) : V3 :=
  let tsta := cart2sph rsta
  let facSun := sunRatio * (Re / rSun.norm) ^ 3 * Re
  let facMon := moonRatio * (Re / rMoon.norm) ^ 3 * Re
  let dx := facSun * inPhase Re rsta rSun + facMon * inPhase Re rsta rMoon
  let dr := facSun * outPhase tsta (cart2sph rSun) + facMon * outPhase tsta (cart2sph rMoon)
  dr + lvlhMulT tsta.lat tsta.lon dx

/-- `Table7` (iers2010_displacement_step2.cpp:9-20): in millimetres. -/
structure Row7 where
  d : DC
  rip : ℚ
  rop : ℚ
  tip : ℚ
  top : ℚ

/-- `Tables7Extended` (iers2010_displacement_step2.cpp:70-144). -/
def table7 : List Row7 := [
  ⟨⟨1, -3, 0, 2, 0, 0, 0⟩, -1/100, -1/100, 0, 0⟩,
  ⟨⟨1, -3, 2, 0, 0, 0, 0⟩, -1/100, -1/100, 0, 0⟩,
  ⟨⟨1, -2, 0, 1, -1, 0, 0⟩, -1/50, -1/100, 0, 0⟩,
  ⟨⟨1, -2, 0, 1, 0, 0, 0⟩, -2/25, 0, 1/100, 1/100⟩,
  ⟨⟨1, -2, 2, -1, 0, 0, 0⟩, -1/50, -1/100, 0, 0⟩,
  ⟨⟨1, -1, 0, 0, -1, 0, 0⟩, -1/10, 0, 0, 0⟩,
  ⟨⟨1, -1, 0, 0, 0, 0, 0⟩, -51/100, 0, -1/50, 3/100⟩,
  ⟨⟨1, -1, 2, 0, 0, 0, 0⟩, 1/100, 0, 0, 0⟩,
  ⟨⟨1, 0, -2, 1, 0, 0, 0⟩, 1/100, 0, 0, 0⟩,
  ⟨⟨1, 0, 0, -1, 0, 0, 0⟩, 1/50, 1/100, 0, 0⟩,
  ⟨⟨1, 0, 0, 1, 0, 0, 0⟩, 3/50, 0, 0, 0⟩,
  ⟨⟨1, 0, 0, 1, 1, 0, 0⟩, 1/100, 0, 0, 0⟩,
  ⟨⟨1, 0, 2, -1, 0, 0, 0⟩, 1/100, 0, 0, 0⟩,
  ⟨⟨1, 1, -3, 0, 0, 1, 0⟩, -3/50, 0, 0, 0⟩,
  ⟨⟨1, 1, -2, 0, 1, 0, 0⟩, 1/100, 0, 0, 0⟩,
  ⟨⟨1, 1, -2, 0, 0, 0, 0⟩, -123/100, -7/100, 3/50, 1/100⟩,
  ⟨⟨1, 1, -1, 0, 0, -1, 0⟩, 1/50, 0, 0, 0⟩,
  ⟨⟨1, 1, -1, 0, 0, 1, 0⟩, 1/25, 0, 0, 0⟩,
  ⟨⟨1, 1, 0, 0, -1, 0, 0⟩, -11/50, 1/100, 1/100, 0⟩,
  ⟨⟨1, 1, 0, 0, 0, 0, 0⟩, 12, -39/50, -67/100, -3/100⟩,
  ⟨⟨1, 1, 0, 0, 1, 0, 0⟩, 173/100, -3/25, -1/10, 0⟩,
  ⟨⟨1, 1, 0, 0, 2, 0, 0⟩, -1/25, 0, 0, 0⟩,
  ⟨⟨1, 1, 1, 0, 0, -1, 0⟩, -1/2, -1/100, 3/100, 0⟩,
  ⟨⟨1, 1, 1, 0, 0, 1, 0⟩, 1/100, 0, 0, 0⟩,
  ⟨⟨1, 1, 1, 0, 1, -1, 0⟩, -1/100, 0, 0, 0⟩,
  ⟨⟨1, 1, 2, -2, 0, 0, 0⟩, -1/100, 0, 0, 0⟩,
  ⟨⟨1, 1, 2, 0, 0, 0, 0⟩, -11/100, 1/100, 1/100, 0⟩,
  ⟨⟨1, 2, -2, 1, 0, 0, 0⟩, -1/100, 0, 0, 0⟩,
  ⟨⟨1, 2, 0, -1, 0, 0, 0⟩, -1/50, 1/50, 0, 1/100⟩,
  ⟨⟨1, 3, 0, 0, 0, 0, 0⟩, 0, 1/100, 0, 1/100⟩,
  ⟨⟨1, 3, 0, 0, 1, 0, 0⟩, 0, 1/100, 0, 0⟩,
  ⟨⟨0, 0, 0, 0, 1, 0, 0⟩, 47/100, 4/25, 23/100, 7/100⟩,
  ⟨⟨0, 0, 2, 0, 0, 0, 0⟩, -1/5, -11/100, -3/25, -1/20⟩,
  ⟨⟨0, 1, 0, -1, 0, 0, 0⟩, -11/100, -9/100, -2/25, -1/25⟩,
  ⟨⟨0, 2, 0, 0, 0, 0, 0⟩, -13/100, -3/20, -11/100, -7/100⟩,
  ⟨⟨0, 2, 0, 0, 1, 0, 0⟩, -1/20, -3/50, -1/20, -3/100⟩]

/-- One constituent (iers2010_displacement_step2.cpp:171-197). -/
noncomputable def addRow7 (f : Fin 6 → ℝ) (sta : Sph) (dr : V3) (c : Row7) : V3 :=
  let sphi := Real.sin sta.lat
  let cphi := Real.cos sta.lat
  let s2phi := 2 * sphi * cphi
  let c2phi := cphi * cphi - sphi * sphi
  let arg := c.d.argument f
  if c.d.i0 = 1 then
    let ang := anp (arg + sta.lon)
    let sa := Real.sin ang
    let ca := Real.cos ang
    ⟨dr.x + (ca * c.tip - sa * c.top) * sphi, dr.y + (sa * c.tip + ca * c.top) * c2phi, dr.z + (sa * c.rip + ca * c.rop) * s2phi⟩
  else
    let sa := Real.sin arg
    let ca := Real.cos arg
    ⟨dr.x + 0, dr.y + (c.tip * ca + c.top * sa) * s2phi, dr.z + (1.50 * sphi * sphi - 0.5) * (c.rip * ca + c.rop * sa)⟩

/-- `step2_displacement` (iers2010_displacement_step2.cpp:147-203). -/
noncomputable def dispStep2 (tt ut1 : Epoch) (sta : Sph) (args : Fin 5 → ℝ) : V3 :=
  let f := delaunay2doodson args (gmst tt ut1)
  (1e-3 : ℝ) * table7.foldl (addRow7 f sta) 0

/-- `displacement` (iers2010_site_displacement.cpp:4-46). -/
noncomputable def Tide.displacement (o : Tide) (tt ut1 : Epoch) (rsta rMoon rSun : V3) (args : Fin 5 → ℝ) : V3 :=
  let sta := cart2sph rsta
  let dr := dispStep1 o.mcs.re o.sunRatio o.moonRatio rsta rSun rMoon + dispStep2 tt ut1 sta args
  PoleTide.lvlhMul sta.lat sta.lon dr

end Verif.SolidTide
