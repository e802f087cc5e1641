import Verif.Model.Chars
import Verif.Model.Stream
import Verif.Model.PlanetState
import Verif.Model.PointMass
import Verif.Model.Relativity
import Verif.Model.Cunningham
import Verif.Model.PoleTide
import Mathlib.Algebra.Order.Floor.Ring
import Mathlib.Algebra.Order.Archimedean.Real.Basic
import Mathlib.Data.Rat.Floor
/-
The benchmark programs (costg-benchmark/bin): the readers of orbits, accelerations, rotations and Earth orientation (costg_utils.cpp)
and the comparison of five effects with the benchmark (check_03directTideSun_icrf.cpp, check_03directTideMoon_icrf.cpp,
check_05poleTide_icrf.cpp, check_06oceanPoleTide_icrf.cpp, check_07relativistic_icrf.cpp).

Simplifications: numbers are exact; what is printed is the list of numbers, not its formatting; kernels are loaded beforehand; messages are
not modelled.
-/
namespace Verif.Costg
open Verif Verif.Chars

/-- An epoch as the files have it (`MjdEpoch`, GPS time): day and seconds of day. -/
abbrev Epoch := Int × ℚ

/-- `(int)td[0]` and the seconds (costg_utils.cpp:40-42, 81-83, 122-124, 163-165). -/
def epochOf (t : ℚ) : Res Epoch :=
  let n := if t < 0 then ⌈t⌉ else ⌊t⌋
  if -2147483648 ≤ n ∧ n ≤ 2147483647 then .ok (n, (t - n) * 86400) else .ub

theorem getline_lt {max : Nat} {s s' : In} {l : List Char} (h : s.getline max = (l, true, s')) : s'.rest.length < s.rest.length := by
  unfold In.getline at h
  split at h
  · simp at h
  · have hsplit := List.takeWhile_append_dropWhile (p := fun c => decide (c ≠ '\n')) (l := s.rest)
    have hlen := congrArg List.length hsplit
    rw [List.length_append] at hlen
    simp only at h
    split at h
    · split at h
      · rename_i c r hr
        rw [hr] at hlen
        simp only [Prod.mk.injEq, true_and] at h
        rw [← h.2]
        simp only [List.length_cons] at hlen
        show r.length < _
        omega
      · rename_i hr
        rw [hr] at hlen
        split at h
        · simp at h
        · rename_i hne
          simp only [Prod.mk.injEq, true_and] at h
          rw [← h.2]
          show 0 < _
          have := List.length_pos_iff.mpr hne
          omega
    · simp at h

/-- The loop over the lines (costg_utils.cpp:28-46, 69-87, 110-128, 151-169): the numbers of the lines that have all of them, with their
epoch. `junk` are the uninitialised numbers. -/
def rowsLoop (max : Nat) (junk : List ℚ) (s : In) : Res (List (Epoch × List ℚ) × In) :=
  match h : s.getline max with
  | (_, false, s') => .ok ([], s')
  | (line, true, s') =>
    match readFields junk line with
    | (t :: v, 0) => (epochOf t).bind fun e => (rowsLoop max junk s').bind fun (rs, f) => .ok ((e, v) :: rs, f)
    | _ => rowsLoop max junk s'
termination_by s.rest.length
decreasing_by all_goals exact getline_lt h

/-- A reader (costg_utils.cpp:15-54, 56-95, 97-136, 138-177): it throws if the file cannot be opened or reading stopped before the end. -/
def parse (max : Nat) (junk : List ℚ) (file : Option (List Char)) : Res (List (Epoch × List ℚ)) :=
  match file with
  | none => .throw
  | some t => (rowsLoop max junk (In.start t)).bind fun (rs, s) => if s.eof then .ok rs else .throw

/-- `BmAcceleration` (costg_utils.hpp:23-30). -/
structure Acc where
  epoch : Epoch
  axyz : V3

/-- `BmOrbit` (costg_utils.hpp:11-21). -/
structure Orbit where
  epoch : Epoch
  xyz : V3
  vxyz : V3
  axyz : V3

/-- Three numbers from position `i` of the buffer. -/
def vec (v : List ℚ) (i : Nat) : V3 := ⟨(v.getD i 0 : ℚ), (v.getD (i + 1) 0 : ℚ), (v.getD (i + 2) 0 : ℚ)⟩

/-- `parse_acceleration` (costg_utils.cpp:15-54). -/
noncomputable def parseAcc (junk : Fin 4 → ℚ) (file : Option (List Char)) : Res (List Acc) :=
  (parse 256 (List.ofFn junk) file).bind fun rs => .ok (rs.map fun r => ⟨r.1, vec r.2 0⟩)

/-- `parse_orbit` (costg_utils.cpp:56-95). -/
noncomputable def parseOrbit (junk : Fin 10 → ℚ) (file : Option (List Char)) : Res (List Orbit) :=
  (parse 512 (List.ofFn junk) file).bind fun rs => .ok (rs.map fun r => ⟨r.1, vec r.2 0, vec r.2 3, vec r.2 6⟩)

/-- `parse_rotary` (costg_utils.cpp:97-136, costg_utils.hpp:32-39): the nine elements by rows. -/
noncomputable def parseRotary (junk : Fin 10 → ℚ) (file : Option (List Char)) : Res (List (Epoch × M3)) :=
  (parse 1024 (List.ofFn junk) file).bind fun rs => .ok (rs.map fun r =>
    (r.1, ⟨(vec r.2 0).x, (vec r.2 0).y, (vec r.2 0).z, (vec r.2 3).x, (vec r.2 3).y, (vec r.2 3).z, (vec r.2 6).x, (vec r.2 6).y,
      (vec r.2 6).z⟩))

/-- `BmEops` (costg_utils.hpp:41-47). -/
structure Eops where
  epoch : Epoch
  xp : ℚ
  yp : ℚ
  sp : ℚ
  dUT1 : ℚ
  lod : ℚ
  X : ℚ
  Y : ℚ
  s : ℚ

/-- `parse_eops` (costg_utils.cpp:138-177); the buffer has ten numbers, of which nine are read. -/
def parseEops (junk : Fin 9 → ℚ) (file : Option (List Char)) : Res (List Eops) :=
  (parse 1024 (List.ofFn junk) file).bind fun rs => .ok (rs.map fun r =>
    ⟨r.1, r.2.getD 0 0, r.2.getD 1 0, r.2.getD 2 0, r.2.getD 3 0, r.2.getD 4 0, r.2.getD 5 0, r.2.getD 6 0, r.2.getD 7 0⟩)

/-- The loop of `basename` (costg_utils.cpp:182-184): the position after the last slash found, or the start; `i` is the position of `c`. -/
def lastSplit : List Char → Nat → Nat → Nat
  | [], _, p => p
  | c :: s, i, p => lastSplit s (i + 1) (if c = '/' then i else p)

/-- `basename` (costg_utils.cpp:179-186). The first character is never looked at; on an empty string the loop starts behind the zero. -/
def basename (fn : List Char) : Res (List Char) :=
  match fn with
  | [] => .ub
  | _ :: s => .ok (fn.drop (lastSplit s 1 0 + 1))

/-- `gps2tai().tai2tt()` (library `datetime`): 19 s and 32.184 s later. -/
noncomputable def ttOf (e : Epoch) : Iau.Epoch :=
  ⟨⌊(e.1 : ℝ) + ((e.2 : ℝ) + 51.184) / 86400⌋, Int.fract ((e.1 : ℝ) + ((e.2 : ℝ) + 51.184) / 86400), Int.fract_nonneg _, Int.fract_lt_one _⟩

/-- A line printed: epoch, reference, computed. -/
structure Line where
  epoch : Epoch
  ref : V3
  val : V3

/-- The loop over the orbit (check_03directTideSun_icrf.cpp:43-73, check_03directTideMoon_icrf.cpp:43-73,
check_07relativistic_icrf.cpp:43-80): exit status and lines printed. `f` computes the acceleration or gives the exit status; the
iterator over the accelerations is not compared with the end. -/
def compare (f : Orbit → Res (Int ⊕ V3)) : List Orbit → List Acc → Res (Int × List Line)
  | [], _ => .ok (0, [])
  | o :: os, accs =>
    (f o).bind fun
      | .inl st => .ok (st, [])
      | .inr a =>
        match accs with
        | [] => .ub
        | r :: rs =>
          if r.epoch ≠ o.epoch then .ok (1, [])
          else (compare f os rs).bind fun (st, ls) => .ok (st, ⟨o.epoch, r.axyz, a⟩ :: ls)

/-- The acceleration by a body (check_03directTideSun_icrf.cpp:44-52, check_03directTideMoon_icrf.cpp:44-52); `old` is what the vector held. -/
noncomputable def thirdBody (s : Planets.Spice) (p : Planets.Planet) (GM : ℝ) (old : V3) (o : Orbit) : Res (Int ⊕ V3) :=
  (Planets.planetPos s p (ttOf o.epoch) old).bind fun (st, r) =>
    if st ≠ 0 then .ok (.inl 2) else .ok (.inr (PointMass.accJ o.xyz r GM).1)

/-- check_03directTideSun_icrf.cpp:12-74 and check_03directTideMoon_icrf.cpp:12-77, after the kernels are loaded. -/
noncomputable def checkBody (s : Planets.Spice) (p : Planets.Planet) (GM : ℝ) (junkO : Fin 10 → ℚ) (junkA : Fin 4 → ℚ) (old : V3)
    (orbit acc : Option (List Char)) : Res (Int × List Line) :=
  (parseOrbit junkO orbit).bind fun os => (parseAcc junkA acc).bind fun as => compare (thirdBody s p GM old) os as

/-- The constants (check_03directTideSun_icrf.cpp:9, check_03directTideMoon_icrf.cpp:9). -/
noncomputable def gmSun : ℝ := 1.32712442076e20
noncomputable def gmMoon : ℝ := 0.49028010560e13

/-- check_03directTideSun_icrf.cpp:12-74. -/
noncomputable def checkSun (s : Planets.Spice) := checkBody s .sun gmSun

/-- check_03directTideMoon_icrf.cpp:12-77. -/
noncomputable def checkMoon (s : Planets.Spice) := checkBody s .moon gmMoon

/-- The relativistic acceleration (check_07relativistic_icrf.cpp:44-60) with the default constants (relativity.hpp:36-43). -/
noncomputable def relativistic (s : Planets.Spice) (junk : List Nat) (old : V3 × V3) (o : Orbit) : Res (Int ⊕ V3) :=
  (Planets.planetState s junk .sun (ttOf o.epoch) old).bind fun (st, r, v) =>
    if st ≠ 0 then .ok (.inl 2)
    else .ok (.inr (Relativity.acceleration ⟨o.xyz, o.vxyz⟩ ⟨r, v⟩ 3.986004418e14 1.32712442099e20 9.8e8 299792458 1 1))

/-- check_07relativistic_icrf.cpp:12-81, after the kernels are loaded. -/
noncomputable def checkRelativity (s : Planets.Spice) (junk : List Nat) (junkO : Fin 10 → ℚ) (junkA : Fin 4 → ℚ) (old : V3 × V3)
    (orbit acc : Option (List Char)) : Res (Int × List Line) :=
  (parseOrbit junkO orbit).bind fun os => (parseAcc junkA acc).bind fun as => compare (relativistic s junk old) os as

/-- The loop over the orbit with rotations and Earth orientation (check_05poleTide_icrf.cpp:60-110, check_06oceanPoleTide_icrf.cpp:61-122):
exit status and lines printed. `f` computes the acceleration in the terrestrial frame (`none`: it failed) with an object that it may change.
None of the iterators is compared with the end; an epoch that differs in the rotations or the Earth orientation violates an assertion. -/
noncomputable def compareRot {σ : Type} (f : σ → Orbit → Eops → Res (σ × Option V3)) :
    σ → List Orbit → List Eops → List (Epoch × M3) → List Acc → Res (Int × List Line)
  | _, [], _, _, _ => .ok (0, [])
  | s, o :: os, eops, rots, accs =>
    match eops with
    | [] => .ub
    | e :: es =>
      if e.epoch ≠ o.epoch then .abort else
      (f s o e).bind fun
        | (_, none) => .ok (1, [])
        | (s', some a) =>
          match rots with
          | [] => .ub
          | q :: qs =>
            if q.1 ≠ o.epoch then .abort else
            match accs with
            | [] => .ub
            | r :: rs =>
              if r.epoch ≠ o.epoch then .ok (1, [])
              else (compareRot f s' os es qs rs).bind fun (st, ls) => .ok (st, ⟨o.epoch, r.axyz, q.2.transpose * a⟩ :: ls)

/-- `rad2sec` (geodesy/units.hpp, not part of the repository). -/
noncomputable def rad2sec (x : ℝ) : ℝ := x * 180 * 3600 / Real.pi

/-- `tt.diff<FractionalYears>(j2000).years()` (library `datetime`): Julian years since J2000. -/
noncomputable def yearsSince (tt : Iau.Epoch) : ℝ := ((tt.mjd : ℝ) + tt.f - 51544.5) / 365.25

/-- The acceleration by the pole tide (check_05poleTide_icrf.cpp:61-81). The work arrays keep what earlier epochs left in them: `W` and `M`
are what they hold at this epoch. -/
noncomputable def poleTide (W M : Epoch → Int → ℝ) (u : Unit) (o : Orbit) (e : Eops) : Res (Unit × Option V3) :=
  let c := PoleTide.solid21 (yearsSince (ttOf o.epoch)) (rad2sec (e.xp : ℚ)) (rad2sec (e.yp : ℚ))
  (Cunningham.gradient ⟨2, 2, fun n m => if n = 2 ∧ m = 1 then c.1 else 0, fun n m => if n = 2 ∧ m = 1 then c.2 else 0, 3.986004418e14, 6378136.6⟩
    o.xyz 2 2 (-1) (-1) (some ⟨5, W o.epoch⟩) (some ⟨5, M o.epoch⟩) (fun _ => 0)).bind fun r => .ok (u, r.map (·.a))

/-- check_05poleTide_icrf.cpp:17-113. -/
noncomputable def checkPole (W M : Epoch → Int → ℝ) (junkO junkR : Fin 10 → ℚ) (junkA : Fin 4 → ℚ) (junkE : Fin 9 → ℚ)
    (orbit rot eop acc : Option (List Char)) : Res (Int × List Line) :=
  (parseOrbit junkO orbit).bind fun os => (parseAcc junkA acc).bind fun as => (parseRotary junkR rot).bind fun qs =>
    (parseEops junkE eop).bind fun es => compareRot (poleTide W M) () os es qs as

/-- `tt.diff<FractionalYears>(j2000).years()` for an epoch that is not converted. -/
noncomputable def yearsRaw (e : Epoch) : ℝ := ((e.1 : ℝ) + ((e.2 : ℚ) : ℝ) / 86400 - 51544.5) / 365.25

/-- The acceleration by the ocean pole tide (check_06oceanPoleTide_icrf.cpp:63-86): the epoch is handed over without conversion to TT; the
constants are the defaults (pole_tide.hpp:294-299, iersconst.hpp). -/
noncomputable def oceanPole (W M : Epoch → Int → ℝ) (s : PoleTide.Ocean) (o : Orbit) (e : Eops) : Res (PoleTide.Ocean × Option V3) :=
  (s.stokes (yearsRaw o.epoch) (rad2sec (e.xp : ℚ)) (rad2sec (e.yp : ℚ)) 180 180 7.2921151467064e-5 6.67428e-11 9.7803278).bind fun (st, s) =>
  if st ≠ 0 then .ok (s, none) else
  (s.cs.setC 1 1 0).bind fun c => (c.setC 1 0 0).bind fun c => (c.setC 0 0 0).bind fun c =>
  (c.setS 1 1 0).bind fun c => (c.setS 1 0 0).bind fun c => (c.setS 0 0 0).bind fun c =>
  (Cunningham.gradient ⟨c.deg, c.ord, fun n m => c.C n.toNat m.toNat, fun n m => c.S n.toNat m.toNat, c.gm, c.re⟩
    o.xyz 180 180 (-1) (-1) (some ⟨183, W o.epoch⟩) (some ⟨183, M o.epoch⟩) (fun _ => 0)).bind fun r => .ok ({ s with cs := c }, r.map (·.a))

/-- check_06oceanPoleTide_icrf.cpp:16-125; the object is made with degree and order 360 (pole_tide.hpp:208-226). -/
noncomputable def checkOceanPole (W M : Epoch → Int → ℝ) (junkO junkR : Fin 10 → ℚ) (junkA : Fin 4 → ℚ) (junkE : Fin 9 → ℚ)
    (junkC : Nat → Nat → ℝ) (junkD : List ℚ) (orbit rot eop acc : Option (List Char)) (desai : Option (List (List Char))) : Res (Int × List Line) :=
  (parseOrbit junkO orbit).bind fun os => (parseAcc junkA acc).bind fun as => (parseRotary junkR rot).bind fun qs =>
    (parseEops junkE eop).bind fun es => (PoleTide.Ocean.make junkC junkD desai 360 360).bind fun s =>
    compareRot (oceanPole W M) s os es qs as

end Verif.Costg
