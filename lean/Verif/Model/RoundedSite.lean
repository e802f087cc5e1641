import Verif.Model.Rounded
import Verif.Model.SolidTide
/-
Displacement of a site by the solid Earth tide in double precision. Every operation is rounded by `fl.rd`; a product that is an operand of a sum is rounded
by `fl.pr`, so that the compiler may fuse it. The parameters are `std::sin`, `std::cos` and `std::pow(x, 3)` of the C library (`fsin`, `fcos`, `cube`),
Eigen's `squaredNorm` and products of matrices with vectors (`sq`, `dot`: the order of the sums is Eigen's), and `cartesian2spherical` and `geodetic2lvlh`
of the library `geodesy`, not part of the repository (`sph`, `lv`: the columns of the matrix). Products are written with the constant first. Overflow and
underflow are not modelled.
-/
namespace Verif.RoundedSite
open Verif Verif.Rounded
open Verif.SolidTide (Sph Row7 table7 Tide)

section
variable (fl : Arith) (fsin fcos cube : ℝ → ℝ) (sq : V3 → ℝ) (dot : V3 → V3 → ℝ) (sph : V3 → Sph) (lv : ℝ → ℝ → V3 × V3 × V3)

/-- Eigen's `norm`. -/
noncomputable def nrm (v : V3) : ℝ := fl (Real.sqrt (sq v))

/-- Eigen's `normalized`. -/
noncomputable def normalized (v : V3) : V3 :=
  if 0 < sq v then ⟨fl (v.x / nrm fl sq v), fl (v.y / nrm fl sq v), fl (v.z / nrm fl sq v)⟩ else v

/-- `__3sfm1d2` (iers2010_displacement_step1.cpp:227-228). -/
noncomputable def latP (rsta : V3) : ℝ :=
  let sf := fl (rsta.z / nrm fl sq rsta)
  fl (fl (fl.pr 0 (fl (3 * sf) * sf) - 1) / 2)

/-- `love2` and `shida2` (iers2010_displacement_step1.cpp:229-231). -/
noncomputable def love2 (rsta : V3) : ℝ := fl (lit fl 0.6078 + fl.pr 1 (lit fl (-0.0006) * latP fl sq rsta))
noncomputable def shida2 (rsta : V3) : ℝ := fl (lit fl 0.0847 + fl.pr 2 (lit fl 0.0002 * latP fl sq rsta))

/-- `facSun`, `facMon` (iers2010_displacement_step1.cpp:234-235). -/
noncomputable def fac (Re ratio : ℝ) (r : V3) : ℝ := fl (fl (ratio * cube (fl (Re / nrm fl sq r))) * Re)

/-- A component of the in-phase part for one body (iers2010_displacement_step1.cpp:241-253 and 257-270), before scaling; `us` and `ur` are the components of
the unit vectors to site and body, `R` their product. -/
noncomputable def inComp (love2 shida2 R scale3 us ur : ℝ) : ℝ :=
  let R2 := fl (R * R)
  let R3 := fl (R2 * R)
  let t := fl (ur - fl.pr 3 (R * us))
  let dx := fl (fl.pr 4 (fl (love2 * us) * fl (fl (fl.pr 5 (3 * R2) - 1) / 2)) + fl.pr 6 (fl (fl (3 * shida2) * R) * t))
  fl (dx + fl.pr 7 (fl (fl (fl (fl (lit fl 0.292 * us) * fl (fl.pr 8 (5 * R3) - fl.pr 9 (3 * R))) / 2) +
    fl.pr 10 (fl (fl (lit fl 0.015 * fl (fl.pr 11 (15 * R2) - 3)) / 2) * t)) * scale3))

/-- The in-phase part for one body, before scaling. -/
noncomputable def inPhase (Re : ℝ) (rsta rtb : V3) : V3 :=
  let ur := normalized fl sq rtb
  let us := normalized fl sq rsta
  let c := inComp fl (love2 fl sq rsta) (shida2 fl sq rsta) (dot ur us) (fl (Re / nrm fl sq rtb))
  ⟨c us.x ur.x, c us.y ur.y, c us.z ur.z⟩

/-- Out-of-phase and latitude dependent part for one body (iers2010_displacement_step1.cpp:277-316 and 321-354), before scaling: east, north, radial. -/
noncomputable def outPhase (tsta ttb : Sph) : V3 :=
  let sphi := fsin tsta.lat
  let cphi := fcos tsta.lat
  let s2phi := fl (fl (2 * sphi) * cphi)
  let c2phi := fl (fl.pr 0 (cphi * cphi) - fl.pr 1 (sphi * sphi))
  let sPhi := fsin ttb.lat
  let cPhi := fcos ttb.lat
  let s2Phi := fl (fl (2 * sPhi) * cPhi)
  let slmL := fsin (fl (tsta.lon - ttb.lon))
  let clmL := fcos (fl (tsta.lon - ttb.lon))
  let s2lmL := fl (fl (2 * slmL) * clmL)
  let c2lmL := fl (fl.pr 2 (clmL * clmL) - fl.pr 3 (slmL * slmL))
  let P21 := fl (fl (-3 * sPhi) * cPhi)
  let P22 := fl (fl (3 * cPhi) * cPhi)
  let F18 := fl (fl (lit fl 0.0012 * sphi) * P21)
  let F19 := fl (fl (fl (fl (-0.50 * lit fl 0.0024) * sphi) * cphi) * P22)
  let cPhi2 := fl (cPhi * cPhi)
  let cphi2 := fl (cphi * cphi)
  ⟨fl (fl (fl (fl.pr 4 (fl (fl (fl (-1.50 * lit fl (-0.0007)) * s2Phi) * sphi) * clmL) + fl.pr 5 (fl (fl (fl (-1.50 * lit fl (-0.0007)) * cPhi2) * cphi) * c2lmL)) +
      fl.pr 6 (F18 * fl (-c2phi * slmL))) + fl.pr 7 (F19 * fl (sphi * s2lmL))),
   fl (fl (fl (fl.pr 8 (fl (fl (fl (-1.50 * lit fl (-0.0007)) * s2Phi) * c2phi) * slmL) + fl.pr 9 (fl (fl (fl (0.75 * lit fl (-0.0007)) * cPhi2) * s2phi) * s2lmL)) +
      fl.pr 10 (F18 * fl (sphi * clmL))) + fl.pr 11 (F19 * c2lmL)),
   fl (fl.pr 12 (fl (fl (fl (-0.75 * lit fl (-0.0025)) * s2Phi) * s2phi) * slmL) + fl.pr 13 (fl (fl (fl (-0.75 * lit fl (-0.0022)) * cPhi2) * cphi2) * s2lmL))⟩

/-- `step1` (iers2010_displacement_step1.cpp:218-364): east, north, radial. -/
noncomputable def step1 (Re sunRatio moonRatio : ℝ) (rsta rSun rMoon : V3) : V3 :=
  let tsta := sph rsta
  let fs := fac fl cube sq Re sunRatio rSun
  let fm := fac fl cube sq Re moonRatio rMoon
  let is := inPhase fl sq dot Re rsta rSun
  let im := inPhase fl sq dot Re rsta rMoon
  let dx (s m : ℝ) : ℝ := fl (fl (s * fs) + fl.pr 0 (fm * m))
  let os := outPhase fl fsin fcos tsta (sph rSun)
  let om := outPhase fl fsin fcos tsta (sph rMoon)
  let dr (s m : ℝ) : ℝ := fl (fl (0 + fl.pr 1 (s * fs)) + fl.pr 2 (m * fm))
  let R := lv tsta.lat tsta.lon
  let d : V3 := ⟨dx is.x im.x, dx is.y im.y, dx is.z im.z⟩
  ⟨fl (dr os.x om.x + dot R.1 d), fl (dr os.y om.y + dot R.2.1 d), fl (dr os.z om.z + dot R.2.2 d)⟩

/-- What one constituent adds (iers2010_displacement_step2.cpp:172-197). -/
noncomputable def rowTerm (f : Fin 6 → ℝ) (sta : Sph) (c : Row7) : V3 :=
  let sphi := fsin sta.lat
  let cphi := fcos sta.lat
  let s2phi := fl (fl (2 * sphi) * cphi)
  let c2phi := fl (fl.pr 0 (cphi * cphi) - fl.pr 1 (sphi * sphi))
  let arg := Rounded.argument fl c.d f
  if c.d.i0 = 1 then
    let ang := Rounded.anp fl (fl (arg + sta.lon))
    let sa := fsin ang
    let ca := fcos ang
    ⟨fl.pr 2 (fl (fl.pr 3 (lit fl c.tip * ca) - fl.pr 4 (lit fl c.top * sa)) * sphi),
     fl.pr 5 (fl (fl.pr 6 (lit fl c.tip * sa) + fl.pr 7 (lit fl c.top * ca)) * c2phi),
     fl.pr 8 (fl (fl.pr 9 (lit fl c.rip * sa) + fl.pr 10 (lit fl c.rop * ca)) * s2phi)⟩
  else
    let sa := fsin arg
    let ca := fcos arg
    ⟨0,
     fl.pr 11 (fl (fl.pr 12 (lit fl c.tip * ca) + fl.pr 13 (lit fl c.top * sa)) * s2phi),
     fl.pr 14 (fl (fl.pr 15 (lit fl c.rip * ca) + fl.pr 16 (lit fl c.rop * sa)) * fl (fl.pr 17 (fl (1.50 * sphi) * sphi) - 0.5))⟩

/-- The loop (iers2010_displacement_step2.cpp:171-198). -/
noncomputable def addRow (f : Fin 6 → ℝ) (sta : Sph) (dr : V3) (c : Row7) : V3 :=
  let t := rowTerm fl fsin fcos f sta c
  ⟨fl (dr.x + t.x), fl (dr.y + t.y), fl (dr.z + t.z)⟩

/-- `step2_displacement` (iers2010_displacement_step2.cpp:147-203); `gmst` is the sidereal time it computes from the epochs. -/
noncomputable def step2 (gmst : ℝ) (sta : Sph) (args : Fin 5 → ℝ) : V3 :=
  let s := table7.foldl (addRow fl fsin fcos (Rounded.delaunay2doodson fl args gmst) sta) 0
  ⟨fl (s.x * lit fl 1e-3), fl (s.y * lit fl 1e-3), fl (s.z * lit fl 1e-3)⟩

/-- `displacement` (iers2010_site_displacement.cpp:4-46). -/
noncomputable def displacement (o : Tide) (gmst : ℝ) (rsta rMoon rSun : V3) (args : Fin 5 → ℝ) : V3 :=
  let sta := sph rsta
  let a := step1 fl fsin fcos cube sq dot sph lv o.mcs.re o.sunRatio o.moonRatio rsta rSun rMoon
  let b := step2 fl fsin fcos gmst sta args
  let d : V3 := ⟨fl (a.x + b.x), fl (a.y + b.y), fl (a.z + b.z)⟩
  let R := lv sta.lat sta.lon
  ⟨dot ⟨R.1.x, R.2.1.x, R.2.2.x⟩ d, dot ⟨R.1.y, R.2.1.y, R.2.2.y⟩ d, dot ⟨R.1.z, R.2.1.z, R.2.2.z⟩ d⟩

end

end Verif.RoundedSite
