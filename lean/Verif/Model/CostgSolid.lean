import Verif.Model.CostgTide
import Verif.Model.SolidTide
/-
The check of the solid Earth tide against the benchmark (test/costg_benchmark/check_04solidEarthTide_icrf.cpp).

Simplifications: numbers are exact; the number of arguments is right; kernels are loaded beforehand; messages are not modelled.
-/
namespace Verif.Costg
open Verif

/-- The loop over the orbit (check_04solidEarthTide_icrf.cpp:88-156): exit status. `f` computes the acceleration in the celestial frame with the
rotation of the epoch, or gives an exit status, with objects that it may change. Neither iterator is compared with the end; an epoch that
differs in the rotations and a component that differs by the tolerance or more violate an assertion. -/
noncomputable def acceptRot {σ : Type} (f : σ → Orbit → M3 → Res (σ × (Int ⊕ V3))) (tol : ℝ) : σ → List Orbit → List (Epoch × M3) → List Acc → Res Int
  | _, [], _, _ => .ok 0
  | s, o :: os, rots, accs =>
    match rots with
    | [] => .ub
    | q :: qs =>
      if q.1 ≠ o.epoch then .abort else
      (f s o q.2).bind fun
        | (_, .inl st) => .ok st
        | (s', .inr v) =>
          match accs with
          | [] => .ub
          | r :: rs =>
            if r.epoch ≠ o.epoch then .ok 1
            else if ¬ |r.axyz.x - v.x| < tol then .abort
            else if ¬ |r.axyz.y - v.y| < tol then .abort
            else if ¬ |r.axyz.z - v.z| < tol then .abort
            else acceptRot f tol s' os qs rs

/-- What the program keeps from epoch to epoch (check_04solidEarthTide_icrf.cpp:50, 63, 82-83). -/
structure SolidState where
  tide : SolidTide.Tide
  eop : Eop.Series ℚ
  sun : V3
  moon : V3
  a : V3

/-- The acceleration at one epoch (check_04solidEarthTide_icrf.cpp:93-127). The status of `approx_dut1` and of `sh2gradient_cunningham` is
not looked at: if the latter fails the vector keeps what it held. -/
noncomputable def solidStep (sp : Planets.Spice) (dat : ℚ → ℚ) (W M : Epoch → Int → ℝ) (s : SolidState) (o : Orbit) (R : M3) :
    Res (SolidState × (Int ⊕ V3)) :=
  (Planets.planetPos sp .sun (ttOf o.epoch) s.sun).bind fun (st, sun) =>
  if st ≠ 0 then .ok (s, .inl 2) else
  (Planets.planetPos sp .moon (ttOf o.epoch) s.moon).bind fun (st, moon) =>
  if st ≠ 0 then .ok (s, .inl 2) else
  let sun := R * sun
  let moon := R * moon
  (s.eop.approxDut1 dat (ttDays o.epoch)).bind fun (_, dut1, eop) =>
  (s.tide.stokes (ttOf o.epoch) (ut1Of dat o.epoch dut1) moon sun (argsAt (ttOf o.epoch))).bind fun t =>
  (Tide.attraction t.mcs o.xyz (-1) ⟨7, W o.epoch⟩ ⟨7, M o.epoch⟩).bind fun r =>
  let a := R.transpose * r.getD s.a
  .ok (⟨t, eop, sun, moon, a⟩, .inr a)

/-- check_04solidEarthTide_icrf.cpp:23-157. `junkS` are the uninitialised coefficients, `v` the uninitialised vectors. -/
noncomputable def checkSolid (sp : Planets.Spice) (tt dat : ℚ → ℚ) (junkS : (Nat → Nat → ℝ) × (Nat → Nat → ℝ)) (v : V3 × V3 × V3)
    (W M : Epoch → Int → ℝ) (junkO junkR : Fin 10 → ℚ) (junkA : Fin 4 → ℚ) (junkE : List ℚ) (orbit acc rot : Option (List Char))
    (eop : Option (List (List Char))) : Res Int :=
  (parseOrbit junkO orbit).bind fun os => (parseAcc junkA acc).bind fun as => (parseRotary junkR rot).bind fun qs =>
    match os with
    | [] => .ub
    | o :: _ =>
      (Eop.parseC04 tt dat junkE eop (o.epoch.1 - 2) (o.epoch.1 + 3) Eop.Series.new).bind fun (st, eops) =>
        if st ≠ 0 then .ok 1
        else acceptRot (solidStep sp dat W M) 1e-11
          ⟨SolidTide.Tide.make junkS.1 junkS.2 3.986004418e14 6378136.6 gmSun gmMoon, eops, v.1, v.2.1, v.2.2⟩ os qs as

end Verif.Costg
