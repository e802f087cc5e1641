import Verif.Model.Rounded
import Verif.Model.Tide
/-
Ocean and atmospheric tide models in double precision (src/lib/ocean_tide/ocean_tide_potential.cpp,
src/lib/atmospheric_tides/atm_tides_geopotential.cpp). `fl` rounds the result of an operation, `fl.pr` a product that goes into a sum (see
`Verif.Model.Arith`); `fsin` and `fcos` are the functions of the C library; `mv` is the inner product with which Eigen forms an element of a
matrix times a vector. The sidereal time `gmst` and the Delaunay arguments are those of `Verif.Model.Rounded`.
-/
namespace Verif.RoundedAtlas
open Verif Verif.Doodson Verif.Tide Verif.Rounded

section
variable (fl : Arith) (fsin fcos : ℝ → ℝ)

/-- `mcs.Cnm() += cos.Cnm() * c + sin.Cnm() * s; mcs.Snm() += ...` (ocean_tide_potential.cpp:25-28, 78-81,
atm_tides_geopotential.cpp:25-28), element by element (coeff_matrix_2d.hpp:189, 535-545). -/
noncomputable def accum (m cos sin : Coeffs ℝ) (c s : ℝ) : Res (Coeffs ℝ) :=
  if cos.rows ≠ sin.rows then .abort
  else if m.rows ≠ cos.rows then .abort
  else .ok { m with C := fun i j => fl (m.C i j + fl (fl.pr 0 (cos.C i j * c) + fl.pr 1 (sin.C i j * s))),
                    S := fun i j => fl (m.S i j + fl (fl.pr 2 (cos.S i j * c) + fl.pr 3 (sin.S i j * s))) }

/-- `OceanTide::stokes_coeffs_impl` (ocean_tide_potential.cpp:5-32). -/
noncomputable def oceanCoeffs (a : Atlas) (mcs : Coeffs ℝ) (gmst : ℝ) (args : Fin 5 → ℝ) : Res (Coeffs ℝ) :=
  let f := Rounded.delaunay2doodson fl args gmst
  forEach a (fun w m =>
    let arg := Rounded.argument fl w.d f
    accum fl m w.cos w.sin (fcos arg) (fsin arg)) mcs.clear

/-- `AtmosphericTide::stokes_coeffs` (atm_tides_geopotential.cpp:4-32). -/
noncomputable def atmCoeffs (a : Atlas) (mcs : Coeffs ℝ) (gmst : ℝ) (args : Fin 5 → ℝ) : Res (Coeffs ℝ) :=
  let f := Rounded.delaunay2doodson fl args gmst
  forEach a (fun w m =>
    let arg := fl (Rounded.argument fl w.d f + fl (fl (w.d.pifac * DPI fl) / 2))
    accum fl m w.cos w.sin (fcos arg) (fsin arg)) mcs.clear

/-- An element of `admittance_matrix() * thetaf.unaryExpr(...)` (ocean_tide_potential.cpp:66-71). -/
noncomputable def factor (mv : (n : ℕ) → (Fin n → ℝ) → (Fin n → ℝ) → ℝ) (g : Admittance) (θ : DC → ℝ) (tri : ℝ → ℝ) (k : Nat) : ℝ :=
  mv g.dood.length (fun f => g.A k f) (fun f => tri (θ g.dood[f]))

/-- The loop over the waves (ocean_tide_potential.cpp:75-85). -/
noncomputable def admLoop (mv : (n : ℕ) → (Fin n → ℝ) → (Fin n → ℝ) → ℝ) (g : Admittance) (θ : DC → ℝ) : Nat → Atlas → Coeffs ℝ → Res (Coeffs ℝ)
  | _, [], m => .ok m
  | k, w :: ws, m =>
    if k < g.rows then
      (accum fl m w.cos w.sin (factor mv g θ fcos k) (factor mv g θ fsin k)).bind (admLoop mv g θ (k + 1) ws)
    else .ub

/-- `OceanTide::stokes_coeffs_with_admittance_impl` (ocean_tide_potential.cpp:34-88). -/
noncomputable def oceanCoeffsAdm (mv : (n : ℕ) → (Fin n → ℝ) → (Fin n → ℝ) → ℝ) (a : Atlas) (g : Admittance) (mcs : Coeffs ℝ) (gmst : ℝ)
    (args : Fin 5 → ℝ) : Res (Coeffs ℝ) :=
  let f := Rounded.delaunay2doodson fl args gmst
  if g.cols ≠ g.dood.length then .abort
  else admLoop fl fsin fcos mv g (fun d => Rounded.argument fl d f) 0 a mcs.clear

/-- An inner product summed from left to right. -/
noncomputable def sequential (n : ℕ) (a b : Fin n → ℝ) : ℝ := (List.finRange n).foldl (fun s (i : Fin n) => fl (s + fl.pr i.val (a i * b i))) 0

end

end Verif.RoundedAtlas
