import Verif.Spec.PlanetState
import Verif.Props.Planets
import Mathlib.Analysis.Calculus.Deriv.Mul
import Mathlib.Analysis.Calculus.Deriv.Add
/-
C83, C84: positions and states of the planets, gravitational constants of Sun and Moon.
-/
namespace Verif.Planets
open Verif

theorem decimal_earth : IsDecimal earthStr ∧ decimal earthStr = 399 := ⟨⟨by decide, by decide, by decide⟩, by decide⟩

theorem epoch_jd (tt : Iau.Epoch) : julianDate tt = jd tt := by unfold julianDate jd; ring

theorem scale_metres (v : V3) : (⟨v.x * 1e3, v.y * 1e3, v.z * 1e3⟩ : V3) = metres v := by
  unfold metres; ext <;> simp <;> ring

/-! ### C83 -/

/-- C83: where the ephemeris has the planet and the Earth, the position returned is the geometric position
of the planet relative to the Earth, in metres, whatever the caller's vector held. -/
theorem planet_position (s : Spice) (e : Ephemeris) (tdb : ℝ → ℝ) (hs : Documented s e tdb) (p : Planet)
    (tt : Iau.Epoch) (old rp vp re ve : V3) (hp : e (naif p) (tdb (jd tt)) = some (rp, vp))
    (he : e (naif .earth) (tdb (jd tt)) = some (re, ve)) :
    planetPos s p tt old = .ok (0, metres (rp - re)) := by
  obtain ⟨lt, h⟩ := hs.pos _ _ _ _ _ _ _ hp he
  unfold planetPos
  rw [planet_id]
  simp only [ne_eq, not_true_eq_false, if_false]
  unfold j2planetPosFrom mjdtt2et
  rw [hs.time, epoch_jd]
  have h' : s.spkezp (naif p) (tdb (jd tt)) "J2000" "NONE" 399 = some (rp - re, lt) := h
  rw [h']
  simp only [Spice.outputs, Res.bind_ok]
  rw [scale_metres]

/-- C83: likewise for position and velocity together. -/
theorem planet_position_velocity (s : Spice) (e : Ephemeris) (tdb : ℝ → ℝ) (hs : Documented s e tdb)
    (p : Planet) (tt : Iau.Epoch) (junk : List Nat) (old : V3 × V3) (rp vp re ve : V3)
    (hp : e (naif p) (tdb (jd tt)) = some (rp, vp))
    (he : e (naif .earth) (tdb (jd tt)) = some (re, ve)) :
    planetState s junk p tt old = .ok (0, metres (rp - re), metres (vp - ve)) := by
  obtain ⟨buf, t, h1, -, h3, h4, h5⟩ := planet_idstr junk p 8 (by decide)
  have hp' : e (decimal t : Int) (tdb (jd tt)) = some (rp, vp) := by rw [h5]; exact hp
  have he' : e (decimal earthStr : Int) (tdb (jd tt)) = some (re, ve) := by
    rw [decimal_earth.2]; exact he
  obtain ⟨lt, h⟩ := hs.state _ _ _ _ _ _ _ h4 decimal_earth.1 hp' he'
  unfold planetState
  rw [h1]
  simp only [Res.bind_ok, ne_eq, not_true_eq_false, if_false, h3]
  unfold j2planetStateFrom mjdtt2et
  rw [hs.time, epoch_jd, h]
  simp only [Spice.outputs, Res.bind_ok]
  rw [scale_metres, scale_metres]

/-- C83: the two functions agree on the position. -/
theorem planet_pos_state (s : Spice) (e : Ephemeris) (tdb : ℝ → ℝ) (hs : Documented s e tdb) (p : Planet)
    (tt : Iau.Epoch) (junk : List Nat) (old : V3) (old2 : V3 × V3) (st : Int) (r v : V3)
    (h : planetState s junk p tt old2 = .ok (st, r, v)) : planetPos s p tt old = .ok (st, r) := by
  cases hp : e (naif p) (tdb (jd tt)) with
  | some a =>
    cases he : e (naif .earth) (tdb (jd tt)) with
    | some b =>
      rw [planet_position_velocity s e tdb hs p tt junk old2 _ _ _ _ hp he] at h
      rw [planet_position s e tdb hs p tt old _ _ _ _ hp he]
      injection h with h; injection h with ha hb; injection hb with hb _
      rw [ha, hb]
    | none =>
      exfalso
      obtain ⟨buf, t, h1, -, h3, h4, h5⟩ := planet_idstr junk p 8 (by decide)
      have hn := hs.state_none t earthStr (tdb (jd tt)) h4 decimal_earth.1
        (Or.inr (by rw [decimal_earth.2]; exact he))
      unfold planetState at h
      rw [h1] at h
      simp only [Res.bind_ok, ne_eq, not_true_eq_false, if_false, h3] at h
      unfold j2planetStateFrom mjdtt2et at h
      rw [hs.time, epoch_jd, hn] at h
      unfold Spice.outputs at h
      cases ha : s.action <;> rw [ha] at h <;> simp at h
  | none =>
    exfalso
    obtain ⟨buf, t, h1, -, h3, h4, h5⟩ := planet_idstr junk p 8 (by decide)
    have hn := hs.state_none t earthStr (tdb (jd tt)) h4 decimal_earth.1 (Or.inl (by rw [h5]; exact hp))
    unfold planetState at h
    rw [h1] at h
    simp only [Res.bind_ok, ne_eq, not_true_eq_false, if_false, h3] at h
    unfold j2planetStateFrom mjdtt2et at h
    rw [hs.time, epoch_jd, hn] at h
    unfold Spice.outputs at h
    cases ha : s.action <;> rw [ha] at h <;> simp at h

/-- C83: the Earth's own position and velocity are zero. -/
theorem earth_at_origin (s : Spice) (e : Ephemeris) (tdb : ℝ → ℝ) (hs : Documented s e tdb)
    (tt : Iau.Epoch) (junk : List Nat) (old : V3 × V3) (re ve : V3)
    (he : e (naif .earth) (tdb (jd tt)) = some (re, ve)) :
    planetState s junk .earth tt old = .ok (0, ⟨0, 0, 0⟩, ⟨0, 0, 0⟩) := by
  rw [planet_position_velocity s e tdb hs .earth tt junk old _ _ _ _ he he]
  have z : ∀ a : V3, metres (a - a) = ⟨0, 0, 0⟩ := by intro a; unfold metres; ext <;> simp
  rw [z, z]

/-- C83: if the ephemeris' velocities are the derivatives of its positions, so is the velocity returned
of the position returned, per second of TDB. `at' τ` is an epoch at TDB time `τ`. -/
theorem planet_velocity_is_rate (s : Spice) (e : Ephemeris) (tdb : ℝ → ℝ) (hs : Documented s e tdb)
    (p : Planet) (junk : List Nat) (old : V3 × V3) (at' : ℝ → Iau.Epoch) (hat : ∀ τ, tdb (jd (at' τ)) = τ)
    (r v : Planet → ℝ → V3)
    (hp : ∀ q τ, e (naif q) τ = some (r q τ, v q τ))
    (hd : ∀ q τ, HasDerivAt (fun t => (r q t).x) (v q τ).x τ ∧ HasDerivAt (fun t => (r q t).y) (v q τ).y τ ∧
      HasDerivAt (fun t => (r q t).z) (v q τ).z τ) :
    ∃ R V : ℝ → V3, (∀ τ, planetState s junk p (at' τ) old = .ok (0, R τ, V τ)) ∧
      ∀ τ, HasDerivAt (fun t => (R t).x) (V τ).x τ ∧ HasDerivAt (fun t => (R t).y) (V τ).y τ ∧
        HasDerivAt (fun t => (R t).z) (V τ).z τ := by
  refine ⟨fun τ => metres (r p τ - r .earth τ), fun τ => metres (v p τ - v .earth τ), fun τ => ?_, fun τ => ?_⟩
  · exact planet_position_velocity s e tdb hs p _ junk old _ _ _ _ (by rw [hat]; exact hp p τ)
      (by rw [hat]; exact hp .earth τ)
  · obtain ⟨a1, a2, a3⟩ := hd p τ
    obtain ⟨b1, b2, b3⟩ := hd .earth τ
    refine ⟨?_, ?_, ?_⟩
    · simpa [metres] using (a1.fun_sub b1).const_mul (1000 : ℝ)
    · simpa [metres] using (a2.fun_sub b2).const_mul (1000 : ℝ)
    · simpa [metres] using (a3.fun_sub b3).const_mul (1000 : ℝ)

/-- C83: without ephemeris data the caller never gets a position: with CSPICE's default error action the
program ends. -/
theorem planet_no_data_partial (s : Spice) (e : Ephemeris) (tdb : ℝ → ℝ) (hs : Documented s e tdb)
    (p : Planet) (tt : Iau.Epoch) (old : V3) (ha : s.action = .abort)
    (h : e (naif p) (tdb (jd tt)) = none ∨ e (naif .earth) (tdb (jd tt)) = none) :
    planetPos s p tt old = .abort := by
  have hn : s.spkezp (naif p) (tdb (jd tt)) "J2000" "NONE" 399 = none := hs.pos_none _ _ _ h
  unfold planetPos
  rw [planet_id]
  simp only [ne_eq, not_true_eq_false, if_false]
  unfold j2planetPosFrom mjdtt2et
  rw [hs.time, epoch_jd, hn]
  simp [Spice.outputs, ha]

/-- An ephemeris with every planet on a straight line, and the CSPICE that computes from it. -/
noncomputable def line : Ephemeris := fun i t => if i < 0 then none else some (⟨i * t, i, 2 * t⟩, ⟨i, 0, 2⟩)

open Classical in
/-- CSPICE on a given ephemeris. -/
noncomputable def spiceOf (e : Ephemeris) (tdb : ℝ → ℝ) (a : ErrorAction) : Spice where
  unitim := fun x f t => if f = "JDTDT" ∧ t = "ET" then tdb x else x
  spkezp := fun i t _ _ j => match e i t, e j t with
    | some x, some y => some (x.1 - y.1, 0)
    | _, _ => none
  spkezr := fun i t _ _ j => match e (decimal i) t, e (decimal j) t with
    | some x, some y => some ((x.1 - y.1, x.2 - y.2), 0)
    | _, _ => none
  action := a

theorem documented_spiceOf (e : Ephemeris) (tdb : ℝ → ℝ) (a : ErrorAction) :
    Documented (spiceOf e tdb a) e tdb where
  time := by intro jd; simp [spiceOf]
  pos := by intro a b t ra va rb vb h1 h2; exact ⟨0, by simp [spiceOf, h1, h2]⟩
  state := by intro a b t ra va rb vb _ _ h1 h2; exact ⟨0, by simp [spiceOf, h1, h2]⟩
  pos_none := by
    rintro a b t (h | h)
    · simp [spiceOf, h]
    · simp only [spiceOf, h]; cases e a t <;> rfl
  state_none := by
    rintro a b t _ _ (h | h)
    · simp [spiceOf, h]
    · simp only [spiceOf, h]; cases e (decimal a) t <;> rfl

/-- Hypotheses of `planet_position`, `planet_position_velocity`. -/
example : ∃ (s : Spice) (e : Ephemeris) (tdb : ℝ → ℝ), Documented s e tdb ∧
    (∀ p t, ∃ x, e (naif p) t = some x) ∧ s.action = .abort :=
  ⟨spiceOf line (fun x => (x - 2451545) * 86400) .abort, line, _, documented_spiceOf _ _ _,
    by intro p t; cases p <;> exact ⟨_, if_neg (by decide)⟩, rfl⟩

/-- Hypotheses of `planet_velocity_is_rate`: the derivatives of `line`. -/
example (q : Planet) (τ : ℝ) :
    HasDerivAt (fun t : ℝ => (naif q : ℝ) * t) (naif q : ℝ) τ ∧ HasDerivAt (fun _ : ℝ => (naif q : ℝ)) 0 τ ∧
      HasDerivAt (fun t : ℝ => 2 * t) 2 τ := by
  refine ⟨?_, hasDerivAt_const _ _, ?_⟩
  · simpa using (hasDerivAt_id τ).const_mul (naif q : ℝ)
  · simpa using (hasDerivAt_id τ).const_mul (2 : ℝ)

/-- With CSPICE's error action RETURN, a request the ephemeris cannot answer (no kernel loaded, epoch not
covered) reads uninitialised numbers; the function has no way to report it, its status is the constant 0. -/
theorem planet_no_data_fails : ∃ (s : Spice) (e : Ephemeris) (tdb : ℝ → ℝ), Documented s e tdb ∧
    ∀ p tt old, planetPos s p tt old = .ub := by
  refine ⟨spiceOf (fun _ _ => none) id .return, _, _, documented_spiceOf _ _ _, fun p tt old => ?_⟩
  unfold planetPos
  rw [planet_id]
  simp [j2planetPosFrom, spiceOf, Spice.outputs]

/-! ### C84 -/

theorem bodvrd_append (disk : Disk) (pool : Pool) (k : List Nat) (body item : String) :
    bodvrd disk (pool ++ [k]) body item =
      match (disk k).bind (fun c => c body item) with
      | some v => some v
      | none => bodvrd disk pool body item := by
  induction pool with
  | nil =>
    simp only [List.nil_append, bodvrd]
    cases hk : disk k with
    | none => rfl
    | some c => simp only [Option.bind_some]; cases c body item <;> rfl
  | cons f fs ih =>
    simp only [List.cons_append, bodvrd, ih]
    cases (disk k).bind (fun c => c body item) with
    | none => rfl
    | some v => rfl

/-- C84 (partial): a kernel that is not loaded yet, exists, defines the constants, and whose name is not
the beginning of a loaded name, is loaded, and its own constants are returned: in km³/s² or, on request,
in m³/s². Missing: kernels loaded before (`gm_overridden_fails`), names beginning other names
(`gm_prefix_fails`), kernels without the constants (`gm_missing_fails`). -/
theorem gm_of_kernel_partial (disk : Disk) (a : ErrorAction) (pool : Pool) (sun0 moon0 : ℝ) (si : Int)
    (k : List Nat) (c : String → String → Option ℝ) (sun moon : ℝ) (hk : disk k = some c)
    (hs : c "SUN" "GM" = some sun) (hm : c "MOON" "GM" = some moon) (hnew : ∀ f ∈ pool, ¬ k <+: f) :
    ∃ u : ℝ, u = (if si = 0 then 1 else 1000 * 1000 * 1000) ∧
      sunMoonGm disk a pool sun0 moon0 si (some k) = .ok (0, pool ++ [k], u * sun, u * moon) := by
  have hl : loadIfUnloaded pool k = pool ++ [k] := by
    unfold loadIfUnloaded
    rw [if_neg]
    rw [List.any_eq_true]
    rintro ⟨f, hf, h⟩
    rw [strncmpEq_iff] at h
    exact hnew f hf (h.trans (List.take_prefix _ _))
  have hload : loadKernel disk a pool k = .ok (pool ++ [k]) := by
    unfold loadKernel
    rw [hl, if_neg (by simp), hk]; rfl
  have h1 : bodvrd disk (pool ++ [k]) "SUN" "GM" = some sun := by rw [bodvrd_append, hk]; simp [hs]
  have h2 : bodvrd disk (pool ++ [k]) "MOON" "GM" = some moon := by rw [bodvrd_append, hk]; simp [hm]
  refine ⟨_, rfl, ?_⟩
  unfold sunMoonGm
  simp only [hload, Res.bind_ok, h1, h2, assigned]
  by_cases h : si = 0
  · simp [h]
  · rw [if_pos h, if_neg h]
    norm_num [mul_comm]

/-- C84: with a null file name nothing is loaded, and the constants are those of the last loaded file that
defines them. -/
theorem gm_of_pool (disk : Disk) (a : ErrorAction) (pre post : Pool) (sun0 moon0 : ℝ) (si : Int)
    (k : List Nat) (c : String → String → Option ℝ) (sun moon : ℝ) (hk : disk k = some c)
    (hs : c "SUN" "GM" = some sun) (hm : c "MOON" "GM" = some moon)
    (hlast : ∀ f ∈ post, ∀ d, disk f = some d → ∀ body, d body "GM" = none) :
    ∃ u : ℝ, u = (if si = 0 then 1 else 1000 * 1000 * 1000) ∧
      sunMoonGm disk a (pre ++ [k] ++ post) sun0 moon0 si none =
        .ok (0, pre ++ [k] ++ post, u * sun, u * moon) := by
  have hpost : ∀ (q : Pool) (body : String), (∀ f ∈ q, ∀ d, disk f = some d → ∀ body, d body "GM" = none) →
      bodvrd disk q body "GM" = none := by
    intro q body hq
    induction q with
    | nil => rfl
    | cons f fs ih =>
      simp only [bodvrd, ih (fun g hg => hq g (List.mem_cons_of_mem _ hg))]
      cases hf : disk f with
      | none => rfl
      | some d => exact hq f List.mem_cons_self d hf body
  have key : ∀ (body : String) (x : ℝ), c body "GM" = some x →
      bodvrd disk (pre ++ [k] ++ post) body "GM" = some x := by
    intro body x hx
    induction pre with
    | nil => simp only [List.nil_append, List.cons_append, bodvrd, hpost post body hlast, hk, hx]
    | cons f fs ih => simp only [List.cons_append, bodvrd]; simp only [List.append_assoc, List.cons_append, List.nil_append] at ih ⊢; rw [ih]
  refine ⟨_, rfl, ?_⟩
  unfold sunMoonGm
  simp only [Res.bind_ok, key _ _ hs, key _ _ hm, assigned]
  by_cases h : si = 0
  · simp [h]
  · rw [if_pos h, if_neg h]
    norm_num [mul_comm]

/-- Two kernel files, "a" and "ab", with different constants. -/
def disk2 : Disk := fun k =>
  if k = [97] then some (fun b _ => if b = "SUN" then some 1 else some 2)
  else if k = [97, 98] then some (fun b _ => if b = "SUN" then some 3 else some 4)
  else if k = [99] then some (fun _ _ => none)
  else none

/-- Hypotheses of `gm_of_kernel_partial`: "ab" after "c". -/
example : disk2 [97, 98] = some (fun b _ => if b = "SUN" then some 3 else some 4) ∧
    ∀ f ∈ [[99]], ¬ ([97, 98] : List Nat) <+: f := by
  refine ⟨rfl, ?_⟩
  intro f hf; simp at hf; subst hf; decide

/-- C84 fails: naming a kernel that is loaded already does not bring its constants back when another file
has been loaded since ("a", then "b...", here "ab"): the constants returned are the other file's. -/
theorem gm_overridden_fails : ∃ (disk : Disk) (pool : Pool) (k : List Nat) (c : String → String → Option ℝ),
    disk k = some c ∧ c "SUN" "GM" = some 1 ∧
    sunMoonGm disk .abort pool 0 0 0 (some k) = .ok (0, pool, 3, 4) := by
  refine ⟨disk2, [[97], [97, 98]], [97], _, rfl, rfl, ?_⟩
  have h : loadKernel disk2 .abort [[97], [97, 98]] [97] = .ok [[97], [97, 98]] := by
    unfold loadKernel
    have : loadIfUnloaded [[97], [97, 98]] [97] = [[97], [97, 98]] := by decide
    rw [this, if_pos rfl]
  unfold sunMoonGm
  simp [h, bodvrd, disk2, assigned]

/-- C84 fails: a kernel whose name begins the name of a loaded one is not loaded, and the constants are the
other file's. -/
theorem gm_prefix_fails : ∃ (disk : Disk) (pool : Pool) (k : List Nat) (c : String → String → Option ℝ),
    disk k = some c ∧ c "SUN" "GM" = some 1 ∧ k ∉ pool ∧
    sunMoonGm disk .abort pool 0 0 0 (some k) = .ok (0, pool, 3, 4) := by
  refine ⟨disk2, [[97, 98]], [97], _, rfl, rfl, by decide, ?_⟩
  have h : loadKernel disk2 .abort [[97, 98]] [97] = .ok [[97, 98]] := by
    unfold loadKernel
    have : loadIfUnloaded [[97, 98]] [97] = [[97, 98]] := by decide
    rw [this, if_pos rfl]
  unfold sunMoonGm
  simp [h, bodvrd, disk2, assigned]

/-- C84 fails: with the error action RETURN, constants no file defines leave the caller's variables
unchanged, scaled, and the status is 0. -/
theorem gm_missing_fails (sun0 moon0 : ℝ) :
    sunMoonGm disk2 .return [] sun0 moon0 1 (some [99]) = .ok (0, [[99]], sun0 * 1e9, moon0 * 1e9) := by
  have h : loadKernel disk2 .return [] [99] = .ok [[99]] := by
    unfold loadKernel
    have : loadIfUnloaded [] [99] = [[99]] := by decide
    rw [this, if_neg (by decide)]
    rfl
  unfold sunMoonGm
  simp [h, bodvrd, disk2, assigned]

end Verif.Planets
