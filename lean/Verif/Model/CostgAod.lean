import Verif.Model.CostgTide
import Verif.Model.Aod1bFiles
/-
The check of the dealiasing products against the benchmark (test/costg_benchmark/check_08aod1b_RL06_icrf.cpp).

Simplifications: numbers are exact; the number of arguments is right; messages are not modelled.
-/
namespace Verif.Costg
open Verif

variable {T : Type} [LinearOrder T]

/-- The acceleration at one epoch (check_08aod1b_RL06_icrf.cpp:71-92): the coefficients at TT from the stream; those of degree 0 and 1 set to zero; the
gravity field up to degree 180 with work arrays of 183 rows. `none`: exit status 1. `at_` is `from_mjdepoch` and `gps2tt`. -/
noncomputable def aodStep (E : Aod1b.Env T) (at_ : Epoch → T) (W M : Epoch → Int → ℝ) (s : Aod1b.Ds T × Coeffs ℝ) (o : Orbit) :
    Res ((Aod1b.Ds T × Coeffs ℝ) × Option V3) :=
  (Aod1b.Ds.coeffsAt E (at_ o.epoch) s.1 s.2).bind fun (st, d, c) =>
  if st ≠ 0 then .ok ((d, c), none) else
  (c.setC 0 0 0).bind fun c => (c.setC 1 1 0).bind fun c => (c.setC 1 0 0).bind fun c => (c.setS 1 1 0).bind fun c =>
  (Tide.attraction c o.xyz 180 ⟨183, W o.epoch⟩ ⟨183, M o.epoch⟩).bind fun r => .ok ((d, c), r)

/-- check_08aod1b_RL06_icrf.cpp:19-122. The status of the initialisation is not looked at; the constants of the set are those of the header that the
constructor of the stream has read, which is here read once more. -/
noncomputable def checkAod (D : Aod1b.World T) (at_ : Epoch → T) (W M : Epoch → Int → ℝ) (junkO junkR : Fin 10 → ℚ) (junkA : Fin 4 → ℚ)
    (orbit : Option (List Char)) (fn : List Char) (acc rot : Option (List Char)) (dir : List Char) : Res Int :=
  (parseOrbit junkO orbit).bind fun os => (parseAcc junkA acc).bind fun as => (parseRotary junkR rot).bind fun qs =>
  (D.newStream fn dir).bind fun d => (Aod1b.Ds.init (D.env .glo dir) d).bind fun (_, d) =>
  (D.openFile fn).bind fun (h, _) =>
  match h.gm, h.re with
  | some gm, some re => (D.newSet 180 gm re).bind fun c => accept (aodStep (D.env .glo dir) at_ W M) 1e-11 (d, c) os qs as
  | _, _ => .ub

end Verif.Costg
