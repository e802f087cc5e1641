import Verif.Model.Costg
/-
The tests among the benchmark programs for Sun, Moon, pole tide, ocean pole tide and relativity
(test/costg_benchmark/check_03directTideSun_icrf.cpp, check_03directTideMoon_icrf.cpp, check_05poleTide_icrf.cpp,
check_06oceanPoleTide_icrf.cpp, check_07relativistic_icrf.cpp). They differ from the programs of costg-benchmark/bin (Model/Costg) in that they
print nothing and assert that every component is within a tolerance of the benchmark. `assert` is active: the files undefine NDEBUG.
-/
namespace Verif.Costg
open Verif

/-- The three assertions at an epoch (check_03directTideSun_icrf.cpp:77-79, check_03directTideMoon_icrf.cpp:77-79, check_05poleTide_icrf.cpp:112-114,
check_06oceanPoleTide_icrf.cpp:124-126, check_07relativistic_icrf.cpp:84-86), before what follows. -/
noncomputable def asserts (tol : ℝ) (r a : V3) (next : Res Int) : Res Int :=
  if ¬ |r.x - a.x| < tol then .abort
  else if ¬ |r.y - a.y| < tol then .abort
  else if ¬ |r.z - a.z| < tol then .abort
  else next

/-- The loop over the orbit (check_03directTideSun_icrf.cpp:47-84, check_03directTideMoon_icrf.cpp:47-84, check_07relativistic_icrf.cpp:47-91):
exit status. -/
noncomputable def compareTol (tol : ℝ) (f : Orbit → Res (Int ⊕ V3)) : List Orbit → List Acc → Res Int
  | [], _ => .ok 0
  | o :: os, accs =>
    (f o).bind fun
      | .inl st => .ok st
      | .inr a =>
        match accs with
        | [] => .ub
        | r :: rs => if r.epoch ≠ o.epoch then .ok 1 else asserts tol r.axyz a (compareTol tol f os rs)

/-- The tolerance (line 15 or 19 of the programs). -/
noncomputable def tolerance : ℝ := 1e-11

/-- check_03directTideSun_icrf.cpp:17-85, after the kernels are loaded (with `GM` of line 13) and check_03directTideMoon_icrf.cpp:17-85. -/
noncomputable def acceptBody (s : Planets.Spice) (p : Planets.Planet) (GM : ℝ) (junkO : Fin 10 → ℚ) (junkA : Fin 4 → ℚ) (old : V3)
    (orbit acc : Option (List Char)) : Res Int :=
  (parseOrbit junkO orbit).bind fun os => (parseAcc junkA acc).bind fun as => compareTol tolerance (thirdBody s p GM old) os as

/-- check_03directTideSun_icrf.cpp:13-85. -/
noncomputable def acceptSun (s : Planets.Spice) := acceptBody s .sun 1.32712442076e20

/-- check_03directTideMoon_icrf.cpp:13-85. -/
noncomputable def acceptMoon (s : Planets.Spice) := acceptBody s .moon 0.49028010560e13

/-- check_07relativistic_icrf.cpp:17-92, after the kernels are loaded. -/
noncomputable def acceptRelativity (s : Planets.Spice) (junk : List Nat) (junkO : Fin 10 → ℚ) (junkA : Fin 4 → ℚ) (old : V3 × V3)
    (orbit acc : Option (List Char)) : Res Int :=
  (parseOrbit junkO orbit).bind fun os => (parseAcc junkA acc).bind fun as => compareTol tolerance (relativistic s junk old) os as

/-- The loop over the orbit with rotations and Earth orientation (check_05poleTide_icrf.cpp:65-121, check_06oceanPoleTide_icrf.cpp:66-133). -/
noncomputable def compareRotTol {σ : Type} (tol : ℝ) (f : σ → Orbit → Eops → Res (σ × Option V3)) :
    σ → List Orbit → List Eops → List (Epoch × M3) → List Acc → Res Int
  | _, [], _, _, _ => .ok 0
  | s, o :: os, eops, rots, accs =>
    match eops with
    | [] => .ub
    | e :: es =>
      if e.epoch ≠ o.epoch then .abort else
      (f s o e).bind fun
        | (_, none) => .ok 1
        | (s', some a) =>
          match rots with
          | [] => .ub
          | q :: qs =>
            if q.1 ≠ o.epoch then .abort else
            match accs with
            | [] => .ub
            | r :: rs =>
              if r.epoch ≠ o.epoch then .ok 1
              else asserts tol r.axyz (q.2.transpose * a) (compareRotTol tol f s' os es qs rs)

/-- check_05poleTide_icrf.cpp:23-122. -/
noncomputable def acceptPole (W M : Epoch → Int → ℝ) (junkO junkR : Fin 10 → ℚ) (junkA : Fin 4 → ℚ) (junkE : Fin 9 → ℚ)
    (orbit rot eop acc : Option (List Char)) : Res Int :=
  (parseOrbit junkO orbit).bind fun os => (parseAcc junkA acc).bind fun as => (parseRotary junkR rot).bind fun qs =>
    (parseEops junkE eop).bind fun es => compareRotTol tolerance (poleTide W M) () os es qs as

/-- check_06oceanPoleTide_icrf.cpp:23-134. -/
noncomputable def acceptOceanPole (W M : Epoch → Int → ℝ) (junkO junkR : Fin 10 → ℚ) (junkA : Fin 4 → ℚ) (junkE : Fin 9 → ℚ)
    (junkC : Nat → Nat → ℝ) (junkD : List ℚ) (orbit rot eop acc : Option (List Char)) (desai : Option (List (List Char))) : Res Int :=
  (parseOrbit junkO orbit).bind fun os => (parseAcc junkA acc).bind fun as => (parseRotary junkR rot).bind fun qs =>
    (parseEops junkE eop).bind fun es => (PoleTide.Ocean.make junkC junkD desai 360 360).bind fun s =>
    compareRotTol tolerance (oceanPole W M) s os es qs as

end Verif.Costg
