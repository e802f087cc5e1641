import Verif.Model.Vec
import Verif.Model.Chars
import Verif.Model.Coeffs
import Verif.Model.LoadLove
import Mathlib.Analysis.SpecialFunctions.Trigonometric.Basic
/-
Pole tide and ocean pole tide (include/pole_tide.hpp, include/eop.hpp:27-42, src/lib/pole_tide).

`double`s are exact reals. The date library is left out: an epoch is the number `dt` of years since J2000
(`tt.diff<FractionalYears>(j2000).years()`).
-/
namespace Verif.PoleTide
open Verif Verif.Chars

/-- `secular_pole` (eop.hpp:37-42), in milliarcseconds. -/
noncomputable def secularPole (dt : ℝ) : ℝ × ℝ := (55 + 1.677 * dt, 320.5 + 3.460 * dt)

/-- `mcoeffs` (pole_tide.hpp:35-40), in arcseconds. -/
noncomputable def mcoeffs (dt xp yp : ℝ) : ℝ × ℝ :=
  (xp - (secularPole dt).1 * 1e-3, -(yp - (secularPole dt).2 * 1e-3))

/-- `PoleTide::stokes_coeffs` (pole_tide.hpp:135-143): `dC21`, `dS21`. -/
noncomputable def solid21 (dt xp yp : ℝ) : ℝ × ℝ :=
  let m1 := (mcoeffs dt xp yp).1
  let m2 := (mcoeffs dt xp yp).2
  (-1.333e-9 * (m1 + 0.0115 * m2), -1.333e-9 * (m2 - 0.0115 * m1))

/-- `OceanPoleTide::stokes_coeffs(t, xp, yp, dC21, dS21)` (pole_tide.hpp:249-257). -/
noncomputable def ocean21 (dt xp yp : ℝ) : ℝ × ℝ :=
  let m1 := (mcoeffs dt xp yp).1
  let m2 := (mcoeffs dt xp yp).2
  (-2.1778e-10 * (m1 - 0.01724 * m2), -1.7232e-10 * (m2 - 0.03365 * m1))

/-- `PoleTide::deformation` (pole_tide_deformation.cpp:3-41). -/
noncomputable def deformation (dt xp yp lon lat : ℝ) : V3 :=
  let m1 := (mcoeffs dt xp yp).1
  let m2 := (mcoeffs dt xp yp).2
  let theta := Real.pi / 2 - lat
  let sl := Real.sin lon
  let cl := Real.cos lon
  let st := Real.sin theta
  let ct := Real.cos theta
  let s2t := 2 * st * ct
  let c2t := 2 * ct * ct - 1
  let s0 := -9 * c2t * (m1 * cl + m2 * sl)
  let s1 := 9 * ct * (m1 * sl - m2 * cl)
  let s2 := -33 * s2t * (m1 * cl + m2 * sl)
  ⟨(ct * cl * s0 + -sl * s1 + st * cl * s2) * 1e-3,
   (ct * sl * s0 + cl * s1 + st * sl * s2) * 1e-3,
   (-st * s0 + 0 * s1 + ct * s2) * 1e-3⟩

/-- `sec2rad` (geodesy/units.hpp, not part of the repository). -/
noncomputable def sec2rad (x : ℝ) : ℝ := x * Real.pi / 180 / 3600

/-- `OceanPoleTideDesaiCoeffs` (pole_tide.hpp:115-117). -/
structure SiteCoeffs (α : Type) where
  rR : α
  rI : α
  nR : α
  nI : α
  eR : α
  eI : α

/-- `geodetic2lvlh(lat, lon) * s` (geodesy/core/crd_transformations.hpp, not part of the repository): the columns of the matrix are
the east, north and up directions. -/
noncomputable def lvlhMul (lat lon : ℝ) (s : V3) : V3 :=
  let sl := Real.sin lon
  let cl := Real.cos lon
  let sf := Real.sin lat
  let cf := Real.cos lat
  ⟨-sl * s.x + -sf * cl * s.y + cf * cl * s.z,
   cl * s.x + -sf * sl * s.y + cf * sl * s.z,
   0 * s.x + cf * s.y + sf * s.z⟩

/-- `OceanPoleTide::deformation` (ocean_pole_tide_deformation.cpp:5-42). -/
noncomputable def oceanDeformation (dt xp yp lon lat : ℝ) (c : SiteCoeffs ℝ) (Re GM Om G ge : ℝ) : V3 :=
  let rhow := 1025
  let g2r := 0.6870
  let g2i := 0.0036
  let m1 := sec2rad (mcoeffs dt xp yp).1
  let m2 := sec2rad (mcoeffs dt xp yp).2
  let Hp := Real.sqrt (4 * (2 * Real.pi) / 15) * (Om * Om) * Re ^ 4 / GM
  let K := 2 * (2 * Real.pi) * G * Re * rhow * Hp / 3 / ge
  let s0 := (m1 * g2r + m2 * g2i) * c.eR + (m2 * g2r - m1 * g2i) * c.eI
  let s1 := (m1 * g2r + m2 * g2i) * c.nR + (m2 * g2r - m1 * g2i) * c.nI
  let s2 := (m1 * g2r + m2 * g2i) * c.rR + (m2 * g2r - m1 * g2i) * c.rI
  K * lvlhMul lat lon ⟨s0, s1, s2⟩

/-- The four matrices of the Desai model: `A_real`, `A_imag`, `B_real`, `B_imag` (pole_tide.hpp:167-170), lower triangular with the
given number of rows. -/
structure Desai where
  rows : Nat
  ar : Nat → Nat → ℚ
  ai : Nat → Nat → ℚ
  br : Nat → Nat → ℚ
  bi : Nat → Nat → ℚ

/-- `cmp_nwsc` (parse_desai02_coeffs.cpp:8-24): true if the line is the header, blanks aside. -/
def isHeader (line : List Char) : Bool :=
  line.filter (· ≠ ' ') = "nmAnm(Real)Bnm(Real)Anm(Imaginary)Bnm(Imaginary)".toList

/-- `l`, `m`, `data` (parse_desai02_coeffs.cpp:95-96). -/
structure Row where
  l : Int
  m : Int
  data : List ℚ

/-- `std::from_chars(skipws(from), ..., int &)`: the old value stays on failure. -/
def rowInt (old : Int) (s : List Char) : Int × List Char × Nat :=
  match fromCharsInt (skipWs s) with
  | some (v, r) => (v, r, 0)
  | none => (old, skipWs s, 1)

/-- One line (parse_desai02_coeffs.cpp:98-110): the values and the number of errors. -/
def readRow (r : Row) (line : List Char) : Row × Nat :=
  let (l, s, e1) := rowInt r.l line
  let (m, s, e2) := rowInt r.m s
  let (d, e3) := readFields r.data s
  (⟨l, m, d⟩, e1 + e2 + e3)

/-- Storing a line (parse_desai02_coeffs.cpp:111-116). A pair that is not in the lower triangle is undefined behaviour. -/
def storeRow (n m : Int) (r : Row) (d : Desai) : Res Desai :=
  if r.l ≤ n ∧ r.m ≤ m then
    if 0 ≤ r.m ∧ r.m ≤ r.l ∧ r.l < d.rows then
      .ok { d with ar := Coeffs.put d.ar r.l.toNat r.m.toNat (r.data.getD 0 0),
                   br := Coeffs.put d.br r.l.toNat r.m.toNat (r.data.getD 1 0),
                   ai := Coeffs.put d.ai r.l.toNat r.m.toNat (r.data.getD 2 0),
                   bi := Coeffs.put d.bi r.l.toNat r.m.toNat (r.data.getD 3 0) }
    else .ub
  else .ok d

/-- The loop over the lines (parse_desai02_coeffs.cpp:97-139): status and matrices. A line of 256 characters or more sets `failbit`
without `eofbit`. -/
def desaiLoop (n m : Int) : List (List Char) → Row → Desai → Res (Nat × Desai)
  | [], _, d => .ok (0, d)
  | line :: ls, r, d =>
    if line.length ≥ 256 then .ok (5, d)
    else
      let (r, e) := readRow r line
      (storeRow n m r d).bind fun d =>
      if e ≠ 0 then .ok (1, d) else desaiLoop n m ls r d

/-- `parse_desai02_coeffs` (parse_desai02_coeffs.cpp:33-140). The file is the list of its lines, or `none` if it cannot be opened. `junk`:
what `data` holds before the first line. -/
def parseDesai (junk : List ℚ) (file : Option (List (List Char))) (n m : Int) (d : Desai) : Res (Nat × Desai) :=
  match file with
  | none => .ok (1, d)
  | some lines =>
    if n < m ∨ n > 360 ∨ m > 360 then .ok (1, d)
    else if n < -1 then .ub
    else
      let d : Desai := ⟨(n + 1).toNat, fun _ _ => 0, fun _ _ => 0, fun _ _ => 0, fun _ _ => 0⟩
      match lines with
      | [] => .ok (1, d)
      | h :: ls =>
        if !isHeader (h.take 255) then .ok (1, d)
        else if h.length ≥ 256 then .ok (5, d)
        else desaiLoop n m ls ⟨0, 0, junk⟩ d

/-- `OceanPoleTide` (pole_tide.hpp:151-170). -/
structure Ocean where
  deg : Int
  ord : Int
  cs : Coeffs ℝ
  desai : Desai

/-- `iers2010::Re`, `GMe` (iersconst.hpp:20, 25). -/
noncomputable def cRe : ℝ := 6378136.6
noncomputable def cGM : ℝ := 3.986004418e14

/-- `StokesCoeffs(n, m)` (stokes_coefficients.hpp:134-136); `junk` is what new memory holds. -/
noncomputable def newSet (junk : Nat → Nat → ℝ) (n m : Int) : Coeffs ℝ :=
  ⟨n, if m > 0 then m else n, (n + 1).toNat, junk, junk, cGM, cRe, true⟩

/-- `OceanPoleTide(max_degree, max_order, fn)` (pole_tide.hpp:184-194); also the constructors at 196-206 (`max_order = max_degree`) and
208-226 (both 360). -/
noncomputable def Ocean.make (junk : Nat → Nat → ℝ) (junkRow : List ℚ) (file : Option (List (List Char))) (n m : Int) : Res Ocean :=
  if n < -1 then .ub
  else (parseDesai junkRow file n m ⟨(n + 1).toNat, fun _ _ => 0, fun _ _ => 0, fun _ _ => 0, fun _ _ => 0⟩).bind fun (st, d) =>
    if st ≠ 0 then .throw else .ok ⟨n, m, newSet junk n m, d⟩

/-- `OceanPoleTide()` (pole_tide.hpp:228-230). -/
noncomputable def Ocean.default (junk : Nat → Nat → ℝ) : Ocean :=
  ⟨2, 2, newSet junk 2 (-1), ⟨0, fun _ _ => 0, fun _ _ => 0, fun _ _ => 0, fun _ _ => 0⟩⟩

/-- Element `l` of `kn`. -/
noncomputable def kn (l : Nat) : ℝ := (knTable.getD l 0 : ℝ) * 1e-12

/-- One column of coefficients (ocean_pole_tide_geopotential.cpp:221-244). `knfac` has 360 elements; the matrices can be read
where they have elements. -/
noncomputable def column (d : Desai) (freal fimag : ℝ) (n : Int) (m : Nat) (cs : Coeffs ℝ) : Res (Coeffs ℝ) :=
  forEach ((List.range (n + 1 - m).toNat).map (m + ·)) (fun l cs =>
    if l ≥ 360 ∨ l ≥ d.rows then .ub
    else
      let knfac := (1 + kn l) / (2 * l + 1)
      (cs.setC l m (knfac * (d.ar l m * freal + d.ai l m * fimag))).bind fun cs =>
      cs.setS l m (knfac * (d.br l m * freal + d.bi l m * fimag))) cs

/-- `OceanPoleTide::stokes_coeffs(t, xp, yp, max_degree, max_order, OmegaEarth, G, ge)`
(ocean_pole_tide_geopotential.cpp:190-254): status and object. -/
noncomputable def Ocean.stokes (o : Ocean) (dt xp yp : ℝ) (n m : Int) (Om G ge : ℝ) : Res (Nat × Ocean) :=
  let n := if n < 0 then o.deg else n
  let m := if m < 0 then o.ord else m
  if n < m ∨ n > o.deg ∨ m > o.ord then .ok (1, o)
  else
    let m1 := sec2rad (mcoeffs dt xp yp).1
    let m2 := sec2rad (mcoeffs dt xp yp).2
    let freal := m1 * 0.6870 + m2 * 0.0036
    let fimag := m2 * 0.6870 - m1 * 0.0036
    (forEach (List.range (m.toNat + 1)) (column o.desai freal fimag n) o.cs).bind fun cs =>
    let fac := Om * Om * cs.re ^ 4 / cs.gm * (2 * (2 * Real.pi) * G * 1025) / ge
    .ok (0, { o with cs := cs.scale fac })

end Verif.PoleTide
