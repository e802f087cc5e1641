import Verif.Model.Arith
import Verif.Model.Angle
import Verif.Model.Doodson
/-
Angles in floating-point arithmetic: the functions of `Model/Angle`, `Model/Fundarg`, `Model/Iau` and `Model/DoodsonArg` once more, with
the rounding `fl` after every operation and every literal, except for products that are fused with a sum (`Model/Arith`). Nothing over- or
underflows. `std::fmod` is exact in floating-point arithmetic. From the libraries `datetime` and `geodesy`: the days, centuries and
fractions of day of an epoch are arguments, `dso::sec2rad` is a parameter, and `DPI`, `D2PI` are the doubles nearest to π and 2π.
-/
namespace Verif.Rounded
open Verif.Angle (fmod)

section
variable (fl : Arith)

/-- A literal of the source; a sign in front of it is applied after rounding. -/
noncomputable def lit (c : ℝ) : ℝ := if c < 0 then -fl (-c) else fl c

/-- `dso::D2PI`. -/
noncomputable def D2PI : ℝ := fl (2 * Real.pi)

/-- `dso::DPI`. -/
noncomputable def DPI : ℝ := fl Real.pi

/-- `dso::anp` (used in doodson.hpp, iau/*.cpp): `w = fmod(a, 2π); return w < 0 ? w + 2π : w`. -/
noncomputable def anp (a : ℝ) : ℝ :=
  let w := fmod a (D2PI fl)
  if w < 0 then fl (w + D2PI fl) else w

/-- A polynomial coded as `c₀ + t * (c₁ + t * (c₂ + …))` (e.g. fundarg.hpp:62-66), the last coefficient being `cₙ`. -/
noncomputable def horner (t : ℝ) : List ℝ → ℝ
  | [] => 0
  | [c] => lit fl c
  | c :: cs => fl (lit fl c + fl.pr cs.length (t * horner t cs))

/-- `era00` (era00.cpp:3-17); `f` is `ut1.fractional_days()`, `tu` the days since J2000. -/
noncomputable def era00 (f tu : ℝ) : ℝ :=
  anp fl (fl (fl.pr 0 (D2PI fl * fl (fl (f + lit fl 0.7790572732640) + fl.pr 1 (lit fl 0.00273781191135448 * tu))) + DPI fl))

variable (s2r : ℝ → ℝ)

/-- `gmst` (gmst.cpp:4-21); `t` is `tt.jcenturies_sinceJ2000()`. The factors of each product are the other way round than in `horner`, with
the same result. -/
noncomputable def gmst (t f tu : ℝ) : ℝ :=
  anp fl (fl (era00 fl f tu +
    s2r (horner fl t [0.014506, 4612.156534, 1.3915817, -0.00000044, -0.000029956, -0.0000000368])))

/-- A fundamental argument in arcseconds, turned to radians (e.g. fundarg.hpp:61-68). `TURNAS` is a double. -/
noncomputable def delaunay (cs : List ℝ) (t : ℝ) : ℝ := s2r (fmod (horner fl t cs) 1296000)

/-- `fal03` (fundarg.hpp:61-68). -/
noncomputable def fal03 : ℝ → ℝ := delaunay fl s2r [485868.249036, 1717915923.2178, 31.8792, 0.051635, -0.00024470]
/-- `falp03` (fundarg.hpp:91-98). -/
noncomputable def falp03 : ℝ → ℝ := delaunay fl s2r [1287104.793048, 129596581.0481, -0.5532, 0.000136, -0.00001149]
/-- `faf03` (fundarg.hpp:121-128). -/
noncomputable def faf03 : ℝ → ℝ := delaunay fl s2r [335779.526232, 1739527262.8478, -12.7512, -0.001037, 0.00000417]
/-- `fad03` (fundarg.hpp:152-159). -/
noncomputable def fad03 : ℝ → ℝ := delaunay fl s2r [1072260.703692, 1602961601.2090, -6.3706, 0.006593, -0.00003169]
/-- `faom03` (fundarg.hpp:186-193). -/
noncomputable def faom03 : ℝ → ℝ := delaunay fl s2r [450160.398036, -6962890.5431, 7.4722, 0.007702, -0.00005939]

/-- `fundarg` (fundarg.cpp:3-21). -/
noncomputable def fundarg (t : ℝ) : Fin 5 → ℝ :=
  ![fal03 fl s2r t, falp03 fl s2r t, faf03 fl s2r t, fad03 fl s2r t, faom03 fl s2r t]

/-- `delaunay2doodson` (doodson.hpp:340-349). -/
noncomputable def delaunay2doodson (a : Fin 5 → ℝ) (gmst : ℝ) : Fin 6 → ℝ :=
  let d1 := anp fl (fl (a 2 + a 4))
  let d2 := anp fl (fl (fl (a 2 + a 4) - a 3))
  let d3 := anp fl (fl (fl (a 2 + a 4) - a 0))
  let d4 := anp fl (-a 4)
  let d5 := anp fl (fl (fl (fl (a 2 + a 4) - a 3) - a 1))
  let d0 := anp fl (fl (fl (gmst + DPI fl) - d1))
  ![d0, d1, d2, d3, d4, d5]

/-- `DoodsonConstituent::argument` (doodson.hpp:292-296). The multipliers become doubles exactly. -/
noncomputable def argument (d : Doodson.DC) (f : Fin 6 → ℝ) : ℝ :=
  anp fl (fl (fl (fl (fl (fl (fl.pr 0 (f 0 * d.i0) + fl.pr 1 (f 1 * d.i1)) + fl.pr 2 (f 2 * d.i2)) + fl.pr 3 (f 3 * d.i3)) +
    fl.pr 4 (f 4 * d.i4)) + fl.pr 5 (f 5 * d.i5)))

end

end Verif.Rounded
