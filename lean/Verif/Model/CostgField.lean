import Verif.Model.CostgTide
import Verif.Model.IcgemHeader
/-
The checks of the gravity field against the benchmark (test/costg_benchmark): check_02gravityfield_icrf.cpp and
check_02gravityfield_itrf.cpp. Lines below are those of the first unless the file is named.

Simplifications: numbers are exact; the number of arguments is right; messages are not modelled.
-/
namespace Verif.Costg
open Verif

variable {T : Type} [LinearOrder T]

/-- The default constructor of a set of coefficients (stokes_coefficients.hpp:129-131). -/
noncomputable def noCoeffs : Coeffs ℝ := ⟨0, 0, 0, fun _ _ => 0, fun _ _ => 0, 3.986004418e14, 6378136.6, true⟩

/-- The acceleration at one epoch (lines 62-71; check_02gravityfield_itrf.cpp:65-74): the elements of degree 0 and 1 are set to zero; the gravity
field up to degree 180 with work arrays of 183 rows. -/
noncomputable def fieldStep (W M : Epoch → Int → ℝ) (c : Coeffs ℝ) (o : Orbit) : Res (Coeffs ℝ × Option V3) :=
  (c.setC 0 0 0).bind fun c => (c.setS 1 1 0).bind fun c => (c.setC 1 1 0).bind fun c => (c.setC 1 0 0).bind fun c =>
  (Tide.attraction c o.xyz 180 ⟨183, W o.epoch⟩ ⟨183, M o.epoch⟩).bind fun r => .ok (c, r)

/-- The gravity model at the first epoch of the orbit, of which the first element is taken without a check (lines 36-48; check_02gravityfield_itrf.cpp:33-45): `.inl` is the exit
status. `at_` is `from_mjdepoch`; the epoch of the orbit is taken as it is. -/
noncomputable def fieldModel (cal : Icgem.Cal T) (at_ : Epoch → T) (junkErr : Icgem.ErrorModel) (junkG : Icgem.Entry T × (Nat → Nat → ℝ))
    (model : Option (List Char)) : List Orbit → Res (Int ⊕ Coeffs ℝ)
  | [] => .ub
  | o :: _ =>
    (Icgem.Head.readFile cal model junkErr junkG 180 180 (at_ o.epoch) noCoeffs).bind fun (st, c) =>
      if st ≠ 0 then .ok (.inl 1)
      else if c.deg ≠ 180 then .abort
      else if c.ord ≠ 180 then .abort
      else .ok (.inr c)

/-- check_02gravityfield_icrf.cpp:17-96. -/
noncomputable def checkField (cal : Icgem.Cal T) (at_ : Epoch → T) (junkErr : Icgem.ErrorModel) (junkG : Icgem.Entry T × (Nat → Nat → ℝ))
    (W M : Epoch → Int → ℝ) (junkO junkR : Fin 10 → ℚ) (junkA : Fin 4 → ℚ) (orbit rot model acc : Option (List Char)) : Res Int :=
  (parseOrbit junkO orbit).bind fun os => (parseRotary junkR rot).bind fun qs => (parseAcc junkA acc).bind fun as =>
    (fieldModel cal at_ junkErr junkG model os).bind fun
      | .inl st => .ok st
      | .inr c => accept (fieldStep W M) 1e-13 c os qs as

/-- The loop over the orbit without rotation (check_02gravityfield_itrf.cpp:64-100). -/
noncomputable def acceptItrf {σ : Type} (f : σ → Orbit → Res (σ × Option V3)) (tol : ℝ) : σ → List Orbit → List Acc → Res Int
  | _, [], _ => .ok 0
  | s, o :: os, accs =>
    (f s o).bind fun
      | (_, none) => .ok 1
      | (s', some a) =>
        match accs with
        | [] => .ub
        | r :: rs =>
          if r.epoch ≠ o.epoch then .ok 1
          else if ¬ |r.axyz.x - a.x| < tol then .abort
          else if ¬ |r.axyz.y - a.y| < tol then .abort
          else if ¬ |r.axyz.z - a.z| < tol then .abort
          else acceptItrf f tol s' os rs

/-- check_02gravityfield_itrf.cpp:18-103. -/
noncomputable def checkFieldItrf (cal : Icgem.Cal T) (at_ : Epoch → T) (junkErr : Icgem.ErrorModel) (junkG : Icgem.Entry T × (Nat → Nat → ℝ))
    (W M : Epoch → Int → ℝ) (junkO : Fin 10 → ℚ) (junkA : Fin 4 → ℚ) (orbit model acc : Option (List Char)) : Res Int :=
  (parseOrbit junkO orbit).bind fun os => (parseAcc junkA acc).bind fun as =>
    (fieldModel cal at_ junkErr junkG model os).bind fun
      | .inl st => .ok st
      | .inr c => acceptItrf (fieldStep W M) 1e-11 c os as

end Verif.Costg
