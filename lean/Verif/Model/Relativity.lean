import Verif.Model.Vec
/-
Relativistic acceleration (src/lib/relativity/iers12010_relativistic_correction.cpp), in exact reals.
-/
namespace Verif.Relativity

/-- A state vector (`Matrix<double,6,1>`): `head<3>` and `tail<3>`. -/
structure State where
  r : V3
  v : V3

/-- Multiplication of a 6-vector by a number. -/
noncomputable def State.scale (k : ℝ) (s : State) : State := ⟨k * s.r, k * s.v⟩

/-- `schwarzschild` (iers12010_relativistic_correction.cpp:5-14). -/
noncomputable def schwarzschild (sat : State) (GMe beta gamma : ℝ) : V3 :=
  let r := sat.r
  let v := sat.v
  let s := r.norm
  (2 * (beta + gamma) * (GMe / s) - gamma * v.dot v) * r + (2 * (1 + gamma) * (r.dot v)) * v

/-- `lens_thirring` (iers12010_relativistic_correction.cpp:17-30). -/
noncomputable def lensThirring (sat : State) (J gamma : ℝ) : V3 :=
  let r := sat.r
  let v := sat.v
  let s := r.norm
  let j : V3 := ⟨0, 0, J⟩
  (1 + gamma) * ((3 / s / s * r.dot j) * r.cross v + v.cross j)

/-- `geodesic` (iers12010_relativistic_correction.cpp:33-46). -/
noncomputable def geodesic (rsat rersn : State) (GMe GMs gamma : ℝ) : V3 :=
  let v := rsat.v
  let re := rersn.r
  let ve := rersn.v
  let s := rsat.r.norm
  let R := rersn.r.norm
  ((1 + 2 * gamma) * (GMs / GMe) * (s ^ 3 / R ^ 3)) * (ve.cross re).cross v

/-- `iers2010_relativistic_acceleration` (iers12010_relativistic_correction.cpp:49-70). -/
noncomputable def acceleration (rsatin rsunin : State) (GMe GMs J c beta gamma : ℝ) : V3 :=
  let rsat := rsatin.scale 1e-3
  let rsun := rsunin.scale 1e-3
  let GMe := GMe * 1e-9
  let GMs := GMs * 1e-9
  let J := J * 1e-6
  let c := c * 1e-3
  let s := rsat.r.norm
  let f := GMe / (c * c * s * s * s)
  (f * 1e3) * (schwarzschild rsat GMe beta gamma + lensThirring rsat J gamma -
    geodesic rsat (rsun.scale (-1)) GMe GMs gamma)

end Verif.Relativity
