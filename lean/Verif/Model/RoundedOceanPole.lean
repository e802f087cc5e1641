import Verif.Model.RoundedTides
/-
Ocean pole tide in floating-point arithmetic (src/lib/pole_tide): as in `Model/PoleTide`, with the rounding `fl` after every operation and every
literal, products fused with a sum excepted (`Model/Arith`). `s2r` is `sec2rad` and `lv` is `geodetic2lvlh` of the library `geodesy`, `quart x` is
`std::pow(x, 4)`, `dot` is a row of a matrix times a vector in Eigen. The numbers of the Desai model are doubles.
-/
namespace Verif.RoundedOceanPole
open Verif Verif.Rounded
open Verif.RoundedTides (mcoeffs)
open Verif.PoleTide (Desai Ocean SiteCoeffs kn)

section
variable (fl : Arith) (s2r quart : ℝ → ℝ) (dot : V3 → V3 → ℝ) (lv : ℝ → ℝ → V3 × V3 × V3)

/-- `m1 * g2_real + m2 * g2_imag` (ocean_pole_tide_geopotential.cpp:218, ocean_pole_tide_deformation.cpp:28, 31, 34). -/
noncomputable def freal (i : ℕ) (m1 m2 : ℝ) : ℝ := fl (fl.pr i (m1 * lit fl 0.6870) + fl.pr (i + 1) (m2 * lit fl 0.0036))

/-- `m2 * g2_real - m1 * g2_imag` (ocean_pole_tide_geopotential.cpp:219, ocean_pole_tide_deformation.cpp:29, 32, 35). -/
noncomputable def fimag (i : ℕ) (m1 m2 : ℝ) : ℝ := fl (fl.pr i (m2 * lit fl 0.6870) - fl.pr (i + 1) (m1 * lit fl 0.0036))

/-- `knfac[l]` (ocean_pole_tide_geopotential.cpp:227). -/
noncomputable def knfac (l : ℕ) : ℝ := fl (fl (1 + lit fl (kn l)) / (2 * l + 1))

/-- `knfac[l] * (x * freal + y * fimag)` (ocean_pole_tide_geopotential.cpp:228-231, 237-240). -/
noncomputable def element (i l : ℕ) (x y fr fi : ℝ) : ℝ := fl (knfac fl l * fl (fl.pr i (x * fr) + fl.pr (i + 1) (y * fi)))

/-- One column of coefficients (ocean_pole_tide_geopotential.cpp:221-245), as `PoleTide.column`. -/
noncomputable def column (d : Desai) (fr fi : ℝ) (n : Int) (m : Nat) (cs : Coeffs ℝ) : Res (Coeffs ℝ) :=
  forEach ((List.range (n + 1 - m).toNat).map (m + ·)) (fun l cs =>
    if l ≥ 360 ∨ l ≥ d.rows then .ub
    else
      (cs.setC l m (element fl 10 l (d.ar l m) (d.ai l m) fr fi)).bind fun cs =>
      cs.setS l m (element fl 12 l (d.br l m) (d.bi l m) fr fi)) cs

/-- `fac` (ocean_pole_tide_geopotential.cpp:248-249). -/
noncomputable def facOf (Om re gm G ge : ℝ) : ℝ :=
  fl (fl (fl (fl (fl (Om * Om) * quart re) / gm) * fl (fl (fl (2 * D2PI fl) * G) * 1025)) / ge)

/-- `StokesCoeffs::scale` (stokes_coefficients.hpp:201-206, coeff_matrix_2d.hpp:330-333), as `Coeffs.scale`. -/
noncomputable def scale (c : Coeffs ℝ) (f : ℝ) : Coeffs ℝ :=
  if c.deg ≠ 0 then { c with C := fun i j => fl (c.C i j * f), S := fun i j => fl (c.S i j * f) } else c

/-- `OceanPoleTide::stokes_coeffs` (ocean_pole_tide_geopotential.cpp:190-254): status and object. -/
noncomputable def stokes (o : Ocean) (dt xp yp : ℝ) (n m : Int) (Om G ge : ℝ) : Res (Nat × Ocean) :=
  let n := if n < 0 then o.deg else n
  let m := if m < 0 then o.ord else m
  if n < m ∨ n > o.deg ∨ m > o.ord then .ok (1, o)
  else
    let m1 := s2r (mcoeffs fl dt xp yp).1
    let m2 := s2r (mcoeffs fl dt xp yp).2
    (forEach (List.range (m.toNat + 1)) (column fl o.desai (freal fl 4 m1 m2) (fimag fl 6 m1 m2) n) o.cs).bind fun cs =>
    .ok (0, { o with cs := scale fl cs (facOf fl quart Om cs.re cs.gm G ge) })

/-- `Hp` and `K` (ocean_pole_tide_deformation.cpp:21-23). -/
noncomputable def loadFactor (Re GM Om G ge : ℝ) : ℝ :=
  let Hp := fl (fl (fl (fl (Real.sqrt (fl (fl (4 * D2PI fl) / 15))) * fl (Om * Om)) * quart Re) / GM)
  fl (fl (fl (fl (fl (fl (fl (2 * D2PI fl) * G) * Re) * 1025) * Hp) / 3) / ge)

/-- A component of `s` (ocean_pole_tide_deformation.cpp:28-35). -/
noncomputable def component (i : ℕ) (m1 m2 x y : ℝ) : ℝ := fl (fl.pr i (freal fl (i + 1) m1 m2 * x) + fl.pr (i + 3) (fimag fl (i + 4) m1 m2 * y))

/-- `OceanPoleTide::deformation` (ocean_pole_tide_deformation.cpp:5-42). -/
noncomputable def deformation (dt xp yp lon lat : ℝ) (c : SiteCoeffs ℝ) (Re GM Om G ge : ℝ) : V3 :=
  let m1 := s2r (mcoeffs fl dt xp yp).1
  let m2 := s2r (mcoeffs fl dt xp yp).2
  let K := loadFactor fl quart Re GM Om G ge
  let s : V3 := ⟨component fl 4 m1 m2 c.eR c.eI, component fl 10 m1 m2 c.nR c.nI, component fl 16 m1 m2 c.rR c.rI⟩
  let R := lv lat lon
  ⟨fl (K * dot ⟨R.1.x, R.2.1.x, R.2.2.x⟩ s), fl (K * dot ⟨R.1.y, R.2.1.y, R.2.2.y⟩ s), fl (K * dot ⟨R.1.z, R.2.1.z, R.2.2.z⟩ s)⟩

end

end Verif.RoundedOceanPole
