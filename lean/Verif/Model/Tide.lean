import Verif.Model.Aod1b
import Verif.Model.DoodsonArg
import Verif.Model.Iau
/-
Tide atlases, ocean and atmospheric tide models (include/tide_atlas.hpp, src/lib/tide_atlas.cpp,
src/lib/tidal_constituent.cpp, include/ocean_tide.hpp, src/lib/ocean_tide/ocean_tide_potential.cpp,
include/atmospheric_tides.hpp, src/lib/atmospheric_tides/*.cpp, include/groops_tide_model.hpp).

Coefficient sets are by value (`Verif.Coeffs`); who owns what is in `Verif.Model.OceanOwn`. Names and texts
printed to stderr are left out, except for the buffer that the Doodson number is written to.
-/
namespace Verif.Tide
open Verif Verif.Doodson Verif.Aod1b

/-- `TidalConstituent` (tide_atlas.hpp:34-66): wave, in-phase and quadrature coefficients. -/
structure Constituent where
  d : DC
  cos : Coeffs ℝ
  sin : Coeffs ℝ

/-- `TideAtlas` (tide_atlas.hpp:70-77) without its name. -/
abbrev Atlas := List Constituent

/-- `StokesCoeffs(n, m)` (stokes_coefficients.hpp:134-136); `junk` is what new memory holds. A negative size is undefined
behaviour. GM and radius are those of the Conventions (iersconst.hpp). -/
noncomputable def newSet (junk : Nat → Nat → ℝ) (n m : Int) : Res (Coeffs ℝ) :=
  if n < -1 then .ub else .ok ⟨n, if m > 0 then m else n, (n + 1).toNat, junk, junk, 3.986004418e14, 6378136.6, true⟩

/-- `StokesCoeffs()` (stokes_coefficients.hpp:129-131). -/
noncomputable def emptySet : Coeffs ℝ := ⟨0, 0, 0, fun _ _ => 0, fun _ _ => 0, 3.986004418e14, 6378136.6, true⟩

/-- `TidalConstituent(wave, max_degree, max_order)` (tidal_constituent.cpp:9-12). -/
noncomputable def Constituent.make (junk : Nat → Nat → ℝ) (d : DC) (n m : Int) : Res Constituent :=
  (newSet junk n m).bind fun c => .ok ⟨d, c, c⟩

/-- `find_tidal_wave` (tide_atlas.cpp:3-21): the position; the length of the vector if there is none. -/
def find : Atlas → DC → Nat
  | [], _ => 0
  | w :: ws, d => if w.d.eq d then 0 else find ws d + 1

/-- `append_wave(wave)` (tide_atlas.cpp:23-36): what is returned or thrown, and the atlas afterwards. -/
def append (a : Atlas) (w : Constituent) : Res Nat × Atlas :=
  if find a w.d ≠ a.length then
    match str w.d 8 true with
    | .ok _ => (.throw, a)
    | _ => (.ub, a)
  else (.ok a.length, a ++ [w])

/-- `append_wave(wave, max_degree, max_order)` (tide_atlas.cpp:38-53). -/
noncomputable def appendNew (junk : Nat → Nat → ℝ) (a : Atlas) (d : DC) (n m : Int) : Res Nat × Atlas :=
  if find a d ≠ a.length then
    match str d 8 true with
    | .ok _ => (.throw, a)
    | _ => (.ub, a)
  else match Constituent.make junk d n m with
    | .ok w => (.ok a.length, a ++ [w])
    | _ => (.ub, a)

/-- `max_atlas_degree()` (tide_atlas.hpp:89-95). -/
def maxDegree : Atlas → Int := List.foldl (fun x w => max x w.cos.deg) 0

/-- The order computed by `max_atlas_degree(max_order)` (tide_atlas.hpp:80-88). -/
def maxOrder : Atlas → Int := List.foldl (fun x w => max x w.cos.ord) 0

/-- The coefficients of a model made from an atlas (ocean_tide.hpp:127-134, 148-156; atmospheric_tides.hpp:104-112). -/
noncomputable def modelSet (junk : Nat → Nat → ℝ) (a : Atlas) : Res (Coeffs ℝ) :=
  (newSet junk (maxDegree a) (-1)).bind fun c =>
  if maxOrder a < maxDegree a then c.resize junk (maxDegree a) (maxOrder a) else .ok c

/-- `mcs.Cnm() += cos.Cnm() * c + sin.Cnm() * s; mcs.Snm() += ...` (ocean_tide_potential.cpp:25-28, 75-78,
atm_tides_geopotential.cpp:26-29). The expression and the assignment assert that all sizes agree
(coeff_matrix_2d.hpp:191, 537; see `Verif.MatrixExpr.addAssign`). -/
def accum (m cos sin : Coeffs ℝ) (c s : ℝ) : Res (Coeffs ℝ) :=
  if cos.rows ≠ sin.rows then .abort
  else if m.rows ≠ cos.rows then .abort
  else .ok { m with C := fun i j => m.C i j + (cos.C i j * c + sin.C i j * s),
                    S := fun i j => m.S i j + (cos.S i j * c + sin.S i j * s) }

/-- `OceanTide::stokes_coeffs_impl` (ocean_tide_potential.cpp:5-32): `mcs` afterwards. -/
noncomputable def oceanCoeffs (a : Atlas) (mcs : Coeffs ℝ) (tt ut1 : Iau.Epoch) (args : Fin 5 → ℝ) : Res (Coeffs ℝ) :=
  let f := delaunay2doodson args (Iau.gmst tt ut1)
  forEach a (fun w m => accum m w.cos w.sin (Real.cos (w.d.argument f)) (Real.sin (w.d.argument f))) mcs.clear

/-- `AtmosphericTide::stokes_coeffs` (atm_tides_geopotential.cpp:4-33): `mcs` afterwards. -/
noncomputable def atmCoeffs (a : Atlas) (mcs : Coeffs ℝ) (tt ut1 : Iau.Epoch) (args : Fin 5 → ℝ) : Res (Coeffs ℝ) :=
  let f := delaunay2doodson args (Iau.gmst tt ut1)
  forEach a (fun w m =>
    let arg := w.d.argument f + w.d.pifac * Real.pi / 2
    accum m w.cos w.sin (Real.cos arg) (Real.sin arg)) mcs.clear

/-- `GroopsTideModel` (groops_tide_model.hpp:11-19): the rows of the Doodson matrix, and the admittance matrix with its
dimensions. -/
structure Admittance where
  dood : List DC
  rows : Nat
  cols : Nat
  A : Nat → Nat → ℝ

/-- An element of `admittance_matrix() * thetaf.unaryExpr(...)` (ocean_tide_potential.cpp:63-68). -/
noncomputable def Admittance.factor (g : Admittance) (θ : DC → ℝ) (tri : ℝ → ℝ) (k : Nat) : ℝ :=
  ((List.range g.dood.length).map fun i => g.A k i * ((g.dood[i]?).elim 0 fun d => tri (θ d))).sum

/-- The loop over the waves (ocean_tide_potential.cpp:72-83); `k` is the position of the pointers `fcos` and `fsin`. -/
noncomputable def admLoop (g : Admittance) (θ : DC → ℝ) : Nat → Atlas → Coeffs ℝ → Res (Coeffs ℝ)
  | _, [], m => .ok m
  | k, w :: ws, m =>
    if k < g.rows then
      (accum m w.cos w.sin (g.factor θ Real.cos k) (g.factor θ Real.sin k)).bind (admLoop g θ (k + 1) ws)
    else .ub

/-- `OceanTide::stokes_coeffs_with_admittance_impl` (ocean_tide_potential.cpp:34-87). The product asserts that the matrix
has as many columns as there are angles. A `DoodsonConstituent` made from six integers has no π factor, and the angle
does not use it. -/
noncomputable def oceanCoeffsAdm (a : Atlas) (g : Admittance) (mcs : Coeffs ℝ) (tt ut1 : Iau.Epoch) (args : Fin 5 → ℝ) :
    Res (Coeffs ℝ) :=
  let f := delaunay2doodson args (Iau.gmst tt ut1)
  if g.cols ≠ g.dood.length then .abort
  else admLoop g (fun d => d.argument f) 0 a mcs.clear

/-- `OceanTide` (ocean_tide.hpp:51-63). -/
structure Ocean where
  atlas : Atlas
  mcs : Coeffs ℝ
  adm : Option Admittance

/-- `OceanTide(atlas)` and `OceanTide(atlas, model)` (ocean_tide.hpp:127-134, 148-156). -/
noncomputable def Ocean.make (junk : Nat → Nat → ℝ) (a : Atlas) (g : Option Admittance) : Res Ocean :=
  (modelSet junk a).bind fun c => .ok ⟨a, c, g⟩

/-- `stokes_coeffs(mjdtt, mjdut1, delaunay_args)` (ocean_tide.hpp:224-229). -/
noncomputable def Ocean.coeffs (o : Ocean) (tt ut1 : Iau.Epoch) (args : Fin 5 → ℝ) : Res Ocean :=
  (match o.adm with
    | some g => oceanCoeffsAdm o.atlas g o.mcs tt ut1 args
    | none => oceanCoeffs o.atlas o.mcs tt ut1 args).bind fun c => .ok { o with mcs := c }

/-- `AtmosphericTide` (atmospheric_tides.hpp:76-82). -/
structure Atm where
  atlas : Atlas
  mcs : Coeffs ℝ

/-- `AtmosphericTide()` (atmospheric_tides.hpp:98-101). -/
noncomputable def Atm.new : Atm := ⟨[], emptySet⟩

/-- `AtmosphericTide(atlas)` (atmospheric_tides.hpp:104-112). -/
noncomputable def Atm.make (junk : Nat → Nat → ℝ) (a : Atlas) : Res Atm := (modelSet junk a).bind fun c => .ok ⟨a, c⟩

/-- The test and `cresize` (atm_tides_append_wave.cpp:45-47 and again 48-50). -/
def grow (junk : Nat → Nat → ℝ) (c : Coeffs ℝ) (d o : Int) : Res (Coeffs ℝ) :=
  if d > c.deg ∨ o > c.ord then c.cresize junk d o else .ok c

variable {T : Type}

/-- `AtmosphericTide::append_wave` (atm_tides_append_wave.cpp:4-53). `file` is the open AOD1B file with the wave named in
its header; `none` if the constructor of `Aod1bIn` throws. -/
noncomputable def Atm.append (junk : Nat → Nat → ℝ) (x : Atm) (file : Option (Aod T × DC)) (maxDegree maxOrder : Int) : Res (Nat × Atm) :=
  match file with
  | none => .ok (1, x)
  | some (a, d) =>
    let n := if maxDegree < 0 then a.maxDegree else maxDegree
    let m := if maxOrder < 0 then a.maxDegree else maxOrder
    (Constituent.make junk d n m).bind fun w =>
    (getTidal a w.cos w.sin n m).bind fun (st, c, s) =>
    if st ≠ 0 then .ok (1, x)
    else
      let w : Constituent := ⟨d, c, s⟩
      (grow junk x.mcs w.cos.deg w.cos.ord).bind fun mcs =>
      (grow junk mcs w.cos.deg w.cos.ord).bind fun mcs =>
      .ok (0, ⟨x.atlas ++ [w], mcs⟩)

/-- `AtmosphericTide::stokes_coeffs`, on the object. -/
noncomputable def Atm.coeffs (x : Atm) (tt ut1 : Iau.Epoch) (args : Fin 5 → ℝ) : Res Atm :=
  (atmCoeffs x.atlas x.mcs tt ut1 args).bind fun c => .ok { x with mcs := c }

end Verif.Tide
