import Verif.Model.Costg
import Verif.Model.TideForce
import Verif.Model.EopFile
import Verif.Model.Fundarg
/-
The checks of ocean tides against the benchmark (test/costg_benchmark): check_10oceanTide_eot11a_M2_icrf.cpp,
check_10oceanTide_eot11a_with256Admittance_icrf.cpp, check_11oceanTide_fes2014b_34major_icrf.cpp,
check_11oceanTide_fes2014b_with361Admittance_icrf.cpp. Lines below are those of check_11oceanTide_fes2014b_34major_icrf.cpp.

Simplifications: numbers are exact; the number of arguments is right; messages are not modelled.
-/
namespace Verif.Costg
open Verif

/-- The loop over the orbit (lines 67-111): exit status. `f` computes the acceleration in the terrestrial frame (`none`: it failed)
with objects that it may change. Neither iterator is compared with the end; an epoch that differs in the rotations and a component that
differs by the tolerance or more violate an assertion. -/
noncomputable def accept {σ : Type} (f : σ → Orbit → Res (σ × Option V3)) (tol : ℝ) : σ → List Orbit → List (Epoch × M3) → List Acc → Res Int
  | _, [], _, _ => .ok 0
  | s, o :: os, rots, accs =>
    (f s o).bind fun
      | (_, none) => .ok 1
      | (s', some a) =>
        match rots with
        | [] => .ub
        | q :: qs =>
          if q.1 ≠ o.epoch then .abort else
          match accs with
          | [] => .ub
          | r :: rs =>
            let v := q.2.transpose * a
            if r.epoch ≠ o.epoch then .ok 1
            else if ¬ |r.axyz.x - v.x| < tol then .abort
            else if ¬ |r.axyz.y - v.y| < tol then .abort
            else if ¬ |r.axyz.z - v.z| < tol then .abort
            else accept f tol s' os qs rs

/-- `gps2tai().tai2tt()` in days. -/
def ttDays (e : Epoch) : ℚ := e.1 + (e.2 + 51.184) / 86400

/-- `gps2tai().tai2ut1(dut1)` and `gps2tai().tai2tt().tt2ut1(dut1)` (library `datetime`): UT1 is UTC plus `dut1`, UTC is TAI minus ΔAT, GPS
time is 19 s behind TAI. `dat` is ΔAT on the UTC day of a TT epoch, as in `approx_dut1`. -/
noncomputable def ut1Of (dat : ℚ → ℚ) (e : Epoch) (dut1 : ℚ) : Iau.Epoch :=
  let t : ℝ := (e.1 : ℝ) + (((e.2 + 19 - dat (ttDays e) + dut1 : ℚ)) : ℝ) / 86400
  ⟨⌊t⌋, Int.fract t, Int.fract_nonneg _, Int.fract_lt_one _⟩

/-- `fundarg` at TT (fundarg.cpp:3-21). -/
noncomputable def argsAt (tt : Iau.Epoch) : Fin 5 → ℝ :=
  ![Fundarg.fal03 tt.jcenturies, Fundarg.falp03 tt.jcenturies, Fundarg.faf03 tt.jcenturies, Fundarg.fad03 tt.jcenturies,
    Fundarg.faom03 tt.jcenturies]

/-- What the programs use of an object for tides: `stokes_coeffs(tt, ut1, fargs)` and the access to the coefficients. -/
structure TideObj (σ : Type) where
  coeffs : σ → Iau.Epoch → Iau.Epoch → (Fin 5 → ℝ) → Res σ
  get : σ → Coeffs ℝ
  put : σ → Coeffs ℝ → σ

/-- `OceanTide`. -/
noncomputable def oceanObj : TideObj Tide.Ocean := ⟨Tide.Ocean.coeffs, Tide.Ocean.mcs, fun o c => { o with mcs := c }⟩

variable {σ : Type}

/-- The acceleration at one epoch (lines 68-91): UT1 from the Earth orientation, the status of which is not looked at; the coefficients; those
of degree 0 and 1 set to zero; the gravity field up to degree `n` with work arrays of 183 rows. -/
noncomputable def tideStep (K : TideObj σ) (dat : ℚ → ℚ) (n : Int) (W M : Epoch → Int → ℝ) (s : σ × Eop.Series ℚ) (o : Orbit) :
    Res ((σ × Eop.Series ℚ) × Option V3) :=
  (s.2.approxDut1 dat (ttDays o.epoch)).bind fun (_, dut1, eop) =>
  (K.coeffs s.1 (ttOf o.epoch) (ut1Of dat o.epoch dut1) (argsAt (ttOf o.epoch))).bind fun oc =>
  ((K.get oc).setC 1 1 0).bind fun c => (c.setC 1 0 0).bind fun c => (c.setC 0 0 0).bind fun c => (c.setS 1 1 0).bind fun c =>
  (Tide.attraction c o.xyz n ⟨183, W o.epoch⟩ ⟨183, M o.epoch⟩).bind fun r => .ok ((K.put oc c, eop), r)

/-- The program (lines 20-112) with the object made by `make` (none: exit status 1). `eop` are the lines of the Earth orientation file; its epochs
are read from two days before to three days after the first day of the orbit, of which the first element is taken without a check. -/
noncomputable def checkTide (K : TideObj σ) (tt dat : ℚ → ℚ) (make : Res (Option σ)) (n : Int) (W M : Epoch → Int → ℝ) (junkO junkR : Fin 10 → ℚ)
    (junkA : Fin 4 → ℚ) (junkE : List ℚ) (orbit acc rot : Option (List Char)) (eop : Option (List (List Char))) : Res Int :=
  (parseOrbit junkO orbit).bind fun os => (parseAcc junkA acc).bind fun as => (parseRotary junkR rot).bind fun qs =>
    match os with
    | [] => .ub
    | o :: _ =>
      (Eop.parseC04 tt dat junkE eop (o.epoch.1 - 2) (o.epoch.1 + 3) Eop.Series.new).bind fun (st, eops) =>
        if st ≠ 0 then .ok 1
        else make.bind fun
          | none => .ok 1
          | some oc => accept (tideStep K dat n W M) 1e-11 (oc, eops) os qs as

/-- The check of an ocean tide: a model that cannot be made throws. -/
noncomputable def checkOcean (tt dat : ℚ → ℚ) (make : Res Tide.Ocean) :=
  checkTide oceanObj tt dat (make.bind fun o => .ok (some o))

variable {T : Type} [LinearOrder T]

/-- check_11oceanTide_fes2014b_34major_icrf.cpp:20-112. -/
noncomputable def checkFes (cal : Icgem.Cal T) (disk : List Int → Option (List Char)) (junkErr : Icgem.ErrorModel) (junkG : Icgem.Entry T)
    (junkC : Nat → Nat → ℝ) (list : Option (List (List Int))) (dir : List Int) (tt dat : ℚ → ℚ) :=
  checkOcean tt dat (Groops.oceanModel cal disk junkErr junkG junkC list dir 180 180) 180

/-- check_10oceanTide_eot11a_M2_icrf.cpp:21-135: all degrees of the files, and of the model made. -/
noncomputable def checkEot (cal : Icgem.Cal T) (disk : List Int → Option (List Char)) (junkErr : Icgem.ErrorModel) (junkG : Icgem.Entry T)
    (junkC : Nat → Nat → ℝ) (list : Option (List (List Int))) (dir : List Int) (tt dat : ℚ → ℚ) :=
  checkOcean tt dat (Groops.oceanModel cal disk junkErr junkG junkC list dir (-1) (-1)) (-1)

/-- check_11oceanTide_fes2014b_with361Admittance_icrf.cpp:21-134. -/
noncomputable def checkFesAdm (cal : Icgem.Cal T) (disk : List Int → Option (List Char)) (junkErr : Icgem.ErrorModel) (junkG : Icgem.Entry T)
    (junkC : Nat → Nat → ℝ) (junkI : List Int) (junkM : Nat → Nat → ℚ) (list : Option (List (List Int))) (f2 f3 : Option (List (List Char)))
    (dir : List Int) (tt dat : ℚ → ℚ) :=
  checkOcean tt dat (Groops.oceanModelAdm cal disk junkErr junkG junkC junkI junkM list f2 f3 dir 180 180) 180

/-- check_10oceanTide_eot11a_with256Admittance_icrf.cpp:21-135. -/
noncomputable def checkEotAdm (cal : Icgem.Cal T) (disk : List Int → Option (List Char)) (junkErr : Icgem.ErrorModel) (junkG : Icgem.Entry T)
    (junkC : Nat → Nat → ℝ) (junkI : List Int) (junkM : Nat → Nat → ℚ) (list : Option (List (List Int))) (f2 f3 : Option (List (List Char)))
    (dir : List Int) (tt dat : ℚ → ℚ) :=
  checkOcean tt dat (Groops.oceanModelAdm cal disk junkErr junkG junkC junkI junkM list f2 f3 dir (-1) (-1)) (-1)

end Verif.Costg
