import Verif.Model.CostgAccept
import Verif.Spec.CostgAccept
import Verif.Props.Costg
/-
C90: the tests against the benchmark accept exactly the benchmarks within the tolerance.
-/
namespace Verif.Costg
open Verif Verif.Chars

theorem asserts_eq (tol : ℝ) (r a : V3) (next : Res Int) :
    (Agrees tol r a → asserts tol r a next = next) ∧ (¬ Agrees tol r a → asserts tol r a next = .abort) := by
  unfold asserts Agrees
  by_cases h1 : |r.x - a.x| < tol <;> by_cases h2 : |r.y - a.y| < tol <;> by_cases h3 : |r.z - a.z| < tol <;> simp [h1, h2, h3]

/-- A loop that asserts succeeds where the loop that prints prints agreeing lines only. -/
theorem compareTol_of_compare (tol : ℝ) (f : Orbit → Res (Int ⊕ V3)) : ∀ (os : List Orbit) (accs : List Acc) (ls : List Line),
    compare f os accs = .ok (0, ls) →
    ((∀ l ∈ ls, Agrees tol l.ref l.val) → compareTol tol f os accs = .ok 0) ∧
    (¬ (∀ l ∈ ls, Agrees tol l.ref l.val) → compareTol tol f os accs = .abort)
  | [], accs, ls, h => by
    simp only [compare, Res.ok.injEq, Prod.mk.injEq, true_and] at h
    subst h
    simp [compareTol]
  | o :: os, accs, ls, h => by
    unfold compare at h
    unfold compareTol
    cases hf : f o with
    | ub => rw [hf] at h; cases h
    | abort => rw [hf] at h; cases h
    | throw => rw [hf] at h; cases h
    | ok x =>
      rw [hf] at h
      simp only [rb] at h ⊢
      cases x with
      | inl st =>
        simp only [Res.ok.injEq, Prod.mk.injEq] at h
        obtain ⟨rfl, rfl⟩ := h
        simp
      | inr a =>
        cases accs with
        | nil => cases h
        | cons r rs =>
          simp only at h ⊢
          by_cases he : r.epoch = o.epoch
          · rw [if_neg (not_not.mpr he)] at h ⊢
            cases hc : compare f os rs with
            | ub => rw [hc] at h; cases h
            | abort => rw [hc] at h; cases h
            | throw => rw [hc] at h; cases h
            | ok y =>
              obtain ⟨st, ls'⟩ := y
              rw [hc] at h
              simp only [rb, Res.ok.injEq, Prod.mk.injEq] at h
              obtain ⟨rfl, rfl⟩ := h
              obtain ⟨i1, i2⟩ := compareTol_of_compare tol f os rs ls' hc
              obtain ⟨a1, a2⟩ := asserts_eq tol r.axyz a (compareTol tol f os rs)
              constructor
              · intro hall
                rw [a1 (hall _ List.mem_cons_self), i1 (fun l hl => hall l (by simp [hl]))]
              · intro hn
                by_cases ha : Agrees tol r.axyz a
                · rw [a1 ha, i2 (fun hall => hn (by simpa [ha] using hall))]
                · exact a2 ha
          · rw [if_pos he] at h
            simp at h

theorem compareRotTol_of_compareRot {σ : Type} (tol : ℝ) (f : σ → Orbit → Eops → Res (σ × Option V3)) :
    ∀ (os : List Orbit) (s : σ) (es : List Eops) (qs : List (Epoch × M3)) (accs : List Acc) (ls : List Line),
    compareRot f s os es qs accs = .ok (0, ls) →
    ((∀ l ∈ ls, Agrees tol l.ref l.val) → compareRotTol tol f s os es qs accs = .ok 0) ∧
    (¬ (∀ l ∈ ls, Agrees tol l.ref l.val) → compareRotTol tol f s os es qs accs = .abort)
  | [], s, es, qs, accs, ls, h => by
    simp only [compareRot, Res.ok.injEq, Prod.mk.injEq, true_and] at h
    subst h
    simp [compareRotTol]
  | o :: os, s, [], qs, accs, ls, h => by simp [compareRot] at h
  | o :: os, s, e :: es, qs, accs, ls, h => by
    unfold compareRot at h
    unfold compareRotTol
    simp only at h ⊢
    by_cases h1 : e.epoch = o.epoch
    · rw [if_neg (not_not.mpr h1)] at h ⊢
      cases hf : f s o e with
      | ub => rw [hf] at h; cases h
      | abort => rw [hf] at h; cases h
      | throw => rw [hf] at h; cases h
      | ok x =>
        obtain ⟨s', x⟩ := x
        rw [hf] at h
        simp only [rb] at h ⊢
        cases x with
        | none => simp at h
        | some a =>
          cases qs with
          | nil => cases h
          | cons q qs =>
            simp only at h ⊢
            by_cases h2 : q.1 = o.epoch
            · rw [if_neg (not_not.mpr h2)] at h ⊢
              cases accs with
              | nil => cases h
              | cons r rs =>
                simp only at h ⊢
                by_cases he : r.epoch = o.epoch
                · rw [if_neg (not_not.mpr he)] at h ⊢
                  cases hc : compareRot f s' os es qs rs with
                  | ub => rw [hc] at h; cases h
                  | abort => rw [hc] at h; cases h
                  | throw => rw [hc] at h; cases h
                  | ok y =>
                    obtain ⟨st, ls'⟩ := y
                    rw [hc] at h
                    simp only [rb, Res.ok.injEq, Prod.mk.injEq] at h
                    obtain ⟨rfl, rfl⟩ := h
                    obtain ⟨i1, i2⟩ := compareRotTol_of_compareRot tol f os s' es qs rs ls' hc
                    obtain ⟨a1, a2⟩ := asserts_eq tol r.axyz (q.2.transpose * a) (compareRotTol tol f s' os es qs rs)
                    constructor
                    · intro hall
                      rw [a1 (hall _ List.mem_cons_self), i1 (fun l hl => hall l (by simp [hl]))]
                    · intro hn
                      by_cases ha : Agrees tol r.axyz (q.2.transpose * a)
                      · rw [a1 ha, i2 (fun hall => hn (by simpa [ha] using hall))]
                      · exact a2 ha
                · rw [if_pos he] at h
                  simp at h
            · rw [if_pos h2] at h
              cases h
    · rw [if_pos h1] at h
      cases h

/-! ### Sun, Moon, relativity -/

theorem agree_zip (tol : ℝ) (val : ℚ × List ℚ → V3) (os as : List (ℚ × List ℚ)) :
    (∀ l ∈ List.zipWith (fun o a => (⟨epochAt o.1, three a.2 0, val o⟩ : Line)) os as, Agrees tol l.ref l.val) ↔ AllAgree tol val os as := by
  induction os generalizing as with
  | nil => simp [AllAgree]
  | cons o os ih =>
    cases as with
    | nil => simp [AllAgree]
    | cons a as =>
      simp only [List.zipWith_cons_cons, List.mem_cons, forall_eq_or_imp, ih as]
      constructor
      · rintro ⟨h1, h2⟩ i o' a' k1 k2
        cases i with
        | zero =>
          simp only [List.getElem?_cons_zero, Option.some.injEq] at k1 k2
          subst k1 k2
          exact h1
        | succ i => exact h2 i o' a' (by simpa using k1) (by simpa using k2)
      · intro h
        exact ⟨h 0 o a rfl rfl, fun i o' a' k1 k2 => h (i + 1) o' a' (by simpa using k1) (by simpa using k2)⟩

theorem accept_body {s : Planets.Spice} {p : Planets.Planet} {GM : ℝ} {junkO : Fin 10 → ℚ} {junkA : Fin 4 → ℚ} {old : V3}
    {orbit acc : Option (List Char)} {ls : List Line} (h : checkBody s p GM junkO junkA old orbit acc = .ok (0, ls)) :
    ((∀ l ∈ ls, Agrees 1e-11 l.ref l.val) → acceptBody s p GM junkO junkA old orbit acc = .ok 0) ∧
    (¬ (∀ l ∈ ls, Agrees 1e-11 l.ref l.val) → acceptBody s p GM junkO junkA old orbit acc = .abort) := by
  unfold checkBody at h
  unfold acceptBody
  cases h1 : parseOrbit junkO orbit with
  | ub => rw [h1] at h; cases h
  | abort => rw [h1] at h; cases h
  | throw => rw [h1] at h; cases h
  | ok os =>
    rw [h1] at h
    cases h2 : parseAcc junkA acc with
    | ub => rw [h2] at h; cases h
    | abort => rw [h2] at h; cases h
    | throw => rw [h2] at h; cases h
    | ok as =>
      rw [h2] at h
      simp only [rb] at h ⊢
      exact compareTol_of_compare _ _ _ _ _ h

/-- C90: the test for the Sun. From an orbit and a benchmark with the same epochs and an ephemeris it succeeds if every component of the
benchmark is within 1e-11 m/s² of the tidal acceleration by the Sun, and is aborted otherwise. -/
theorem accept_sun_partial (s : Planets.Spice) (e : Planets.Ephemeris) (tdb : ℝ → ℝ) (hs : Planets.Documented s e tdb)
    {orbit acc : List Char} {os as : List (ℚ × List ℚ)} (ho : Table 512 9 orbit os) (ha : Table 256 3 acc as)
    (hep : os.map (·.1) <+: as.map (·.1)) (sun earth : ℚ → V3 × V3)
    (hb : ∀ o ∈ os, e 10 (tdb (jdTT o.1)) = some (sun o.1) ∧ e 399 (tdb (jdTT o.1)) = some (earth o.1))
    (junkO : Fin 10 → ℚ) (junkA : Fin 4 → ℚ) (old : V3) :
    (AllAgree 1e-11 (fun o => tide 1.32712442076e20 (three o.2 0) (Planets.metres ((sun o.1).1 - (earth o.1).1))) os as →
      acceptSun s junkO junkA old (some orbit) (some acc) = .ok 0) ∧
    (¬ AllAgree 1e-11 (fun o => tide 1.32712442076e20 (three o.2 0) (Planets.metres ((sun o.1).1 - (earth o.1).1))) os as →
      acceptSun s junkO junkA old (some orbit) (some acc) = .abort) := by
  simp only [← agree_zip]
  exact accept_body (check_sun_partial s e tdb hs ho ha hep sun earth hb junkO junkA old)

/-- C90: the test for the Moon. -/
theorem accept_moon_partial (s : Planets.Spice) (e : Planets.Ephemeris) (tdb : ℝ → ℝ) (hs : Planets.Documented s e tdb)
    {orbit acc : List Char} {os as : List (ℚ × List ℚ)} (ho : Table 512 9 orbit os) (ha : Table 256 3 acc as)
    (hep : os.map (·.1) <+: as.map (·.1)) (moon earth : ℚ → V3 × V3)
    (hb : ∀ o ∈ os, e 301 (tdb (jdTT o.1)) = some (moon o.1) ∧ e 399 (tdb (jdTT o.1)) = some (earth o.1))
    (junkO : Fin 10 → ℚ) (junkA : Fin 4 → ℚ) (old : V3) :
    (AllAgree 1e-11 (fun o => tide 0.49028010560e13 (three o.2 0) (Planets.metres ((moon o.1).1 - (earth o.1).1))) os as →
      acceptMoon s junkO junkA old (some orbit) (some acc) = .ok 0) ∧
    (¬ AllAgree 1e-11 (fun o => tide 0.49028010560e13 (three o.2 0) (Planets.metres ((moon o.1).1 - (earth o.1).1))) os as →
      acceptMoon s junkO junkA old (some orbit) (some acc) = .abort) := by
  simp only [← agree_zip]
  exact accept_body (check_moon_partial s e tdb hs ho ha hep moon earth hb junkO junkA old)

/-- C90: the test for the relativistic acceleration. -/
theorem accept_relativity_partial (s : Planets.Spice) (e : Planets.Ephemeris) (tdb : ℝ → ℝ) (hs : Planets.Documented s e tdb)
    {orbit acc : List Char} {os as : List (ℚ × List ℚ)} (ho : Table 512 9 orbit os) (ha : Table 256 3 acc as)
    (hep : os.map (·.1) <+: as.map (·.1)) (sun earth : ℚ → V3 × V3)
    (hb : ∀ o ∈ os, e 10 (tdb (jdTT o.1)) = some (sun o.1) ∧ e 399 (tdb (jdTT o.1)) = some (earth o.1))
    (hne : ∀ o ∈ os, three o.2 0 ≠ 0 ∧ Planets.metres ((sun o.1).1 - (earth o.1).1) ≠ 0)
    (junk : List Nat) (junkO : Fin 10 → ℚ) (junkA : Fin 4 → ℚ) (old : V3 × V3) :
    (AllAgree 1e-11 (fun o => conventional (three o.2 0) (three o.2 3) (Planets.metres ((sun o.1).1 - (earth o.1).1))
        (Planets.metres ((sun o.1).2 - (earth o.1).2))) os as →
      acceptRelativity s junk junkO junkA old (some orbit) (some acc) = .ok 0) ∧
    (¬ AllAgree 1e-11 (fun o => conventional (three o.2 0) (three o.2 3) (Planets.metres ((sun o.1).1 - (earth o.1).1))
        (Planets.metres ((sun o.1).2 - (earth o.1).2))) os as →
      acceptRelativity s junk junkO junkA old (some orbit) (some acc) = .abort) := by
  simp only [← agree_zip]
  have h := check_relativity_partial s e tdb hs ho ha hep sun earth hb hne junk junkO junkA old
  unfold checkRelativity at h
  unfold acceptRelativity
  rw [bench_orbit ho, bench_accelerations ha] at h ⊢
  simp only [rb] at h ⊢
  exact compareTol_of_compare _ _ _ _ _ h

/-! ### Pole tide and ocean pole tide -/

theorem agree_lines {V : ℚ → List ℚ → V3 → ℝ} {os es qs as : List (ℚ × List ℚ)} {ls : List Line} (hlen : ls.length = os.length)
    (h1 : os.map (·.1) <+: es.map (·.1)) (h2 : os.map (·.1) <+: qs.map (·.1)) (h3 : os.map (·.1) <+: as.map (·.1))
    (h : ∀ (i : Nat) o e q a l, os[i]? = some o → es[i]? = some e → qs[i]? = some q → as[i]? = some a → ls[i]? = some l → LineFor V o e q a l)
    (tol : ℝ) :
    ∃ gs, Gradients V os es gs ∧ ((∀ l ∈ ls, Agrees tol l.ref l.val) ↔ AllWithin tol qs as gs) := by
  have l1 : os.length ≤ es.length := by simpa using h1.length_le
  have l2 : os.length ≤ qs.length := by simpa using h2.length_le
  have l3 : os.length ≤ as.length := by simpa using h3.length_le
  have hex : ∀ i : Fin os.length, ∃ g, Harmonic.IsGradient (V os[i].1 (es[(i : Nat)]'(by omega)).2) (three os[i].2 0) g ∧
      (ls[(i : Nat)]'(by omega)).ref = three (as[(i : Nat)]'(by omega)).2 0 ∧
      (ls[(i : Nat)]'(by omega)).val = toCelestial (qs[(i : Nat)]'(by omega)).2 g := by
    intro i
    obtain ⟨_, hr, g, hg, hv⟩ := h i os[i] (es[(i : Nat)]'(by omega)) (qs[(i : Nat)]'(by omega)) (as[(i : Nat)]'(by omega))
      (ls[(i : Nat)]'(by omega)) (by simp) (by simp) (by simp) (by simp) (by simp)
    exact ⟨g, hg, hr, hv⟩
  choose gf hgf using hex
  refine ⟨List.ofFn gf, ⟨by simp, ?_⟩, ?_⟩
  · intro i o e g k1 k2 k3
    rw [List.getElem?_eq_some_iff] at k1 k2 k3
    obtain ⟨b1, rfl⟩ := k1
    obtain ⟨b2, rfl⟩ := k2
    obtain ⟨b3, rfl⟩ := k3
    rw [List.getElem_ofFn]
    exact (hgf ⟨i, b1⟩).1
  · constructor
    · intro hall i q a g k1 k2 k3
      rw [List.getElem?_eq_some_iff] at k1 k2 k3
      obtain ⟨b1, rfl⟩ := k1
      obtain ⟨b2, rfl⟩ := k2
      obtain ⟨b3, rfl⟩ := k3
      have b0 : i < os.length := by simpa using b3
      obtain ⟨-, hr, hv⟩ := hgf ⟨i, b0⟩
      have := hall (ls[i]'(by omega)) (List.getElem_mem _)
      rw [hr, hv] at this
      rw [List.getElem_ofFn]
      exact this
    · intro hall l hl
      obtain ⟨i, b, rfl⟩ := List.getElem_of_mem hl
      have b0 : i < os.length := by omega
      obtain ⟨-, hr, hv⟩ := hgf ⟨i, b0⟩
      have := hall i (qs[i]'(by omega)) (as[i]'(by omega)) (gf ⟨i, b0⟩) (by simp) (by simp) (by simp [b0])
      rw [hr, hv]
      exact this

/-- C90: the test for the pole tide. From an orbit, rotations, Earth orientation and a benchmark with the same epochs, with satellites off the
geocentre, it succeeds if every component of the benchmark is within 1e-11 m/s² of the gradient of the potential of the pole tide, turned to
the celestial frame, and is aborted otherwise. -/
theorem accept_pole_partial {orbit rot eop acc : List Char} {os qs es as : List (ℚ × List ℚ)} (ho : Table 512 9 orbit os)
    (hq : Table 1024 9 rot qs) (he : Table 1024 8 eop es) (ha : Table 256 3 acc as) (h1 : os.map (·.1) <+: es.map (·.1))
    (h2 : os.map (·.1) <+: qs.map (·.1)) (h3 : os.map (·.1) <+: as.map (·.1)) (hne : ∀ o ∈ os, three o.2 0 ≠ 0)
    (W M : Epoch → Int → ℝ) (junkO junkR : Fin 10 → ℚ) (junkA : Fin 4 → ℚ) (junkE : Fin 9 → ℚ) :
    ∃ gs, Gradients polePotential os es gs ∧
      (AllWithin 1e-11 qs as gs → acceptPole W M junkO junkR junkA junkE (some orbit) (some rot) (some eop) (some acc) = .ok 0) ∧
      (¬ AllWithin 1e-11 qs as gs → acceptPole W M junkO junkR junkA junkE (some orbit) (some rot) (some eop) (some acc) = .abort) := by
  obtain ⟨ls, h, hlen, hls⟩ := check_pole_partial ho hq he ha h1 h2 h3 hne W M junkO junkR junkA junkE
  obtain ⟨gs, hg, hiff⟩ := agree_lines hlen h1 h2 h3 hls 1e-11
  refine ⟨gs, hg, ?_⟩
  rw [← hiff]
  unfold checkPole at h
  unfold acceptPole
  rw [bench_orbit ho, bench_accelerations ha, parseRotary_rows hq, parseEops_rows he] at h ⊢
  simp only [rb] at h ⊢
  exact compareRotTol_of_compareRot _ _ _ _ _ _ _ _ h

/-- C90: the test for the ocean pole tide, likewise; the secular pole is that of the date in GPS time (`check_ocean_pole_time_fails`). -/
theorem accept_ocean_pole_partial {orbit rot eop acc : List Char} {os qs es as : List (ℚ × List ℚ)} (ho : Table 512 9 orbit os)
    (hq : Table 1024 9 rot qs) (he : Table 1024 8 eop es) (ha : Table 256 3 acc as) (h1 : os.map (·.1) <+: es.map (·.1))
    (h2 : os.map (·.1) <+: qs.map (·.1)) (h3 : os.map (·.1) <+: as.map (·.1)) (hne : ∀ o ∈ os, three o.2 0 ≠ 0)
    (head : List Char) (lines : List (List Char)) (ds : List PoleTide.Entry)
    (hh : head.filter (· ≠ ' ') = "nmAnm(Real)Bnm(Real)Anm(Imaginary)Bnm(Imaginary)".toList) (hl : head.length < 256)
    (h : List.Forall₂ (fun l e => l.length < 256 ∧ PoleTide.Entry.Line e l ∧ 0 ≤ e.m ∧ e.m ≤ e.l) lines ds)
    (W M : Epoch → Int → ℝ) (junkO junkR : Fin 10 → ℚ) (junkA : Fin 4 → ℚ) (junkE : Fin 9 → ℚ) (junkC : Nat → Nat → ℝ) (junkD : List ℚ)
    (hj : junkD.length = 4) :
    ∃ gs, Gradients (fun t => oceanPotential ds (((t : ℝ) - 51544.5) / 365.25)) os es gs ∧
      (AllWithin 1e-11 qs as gs → acceptOceanPole W M junkO junkR junkA junkE junkC junkD (some orbit) (some rot) (some eop) (some acc)
        (some (head :: lines)) = .ok 0) ∧
      (¬ AllWithin 1e-11 qs as gs → acceptOceanPole W M junkO junkR junkA junkE junkC junkD (some orbit) (some rot) (some eop) (some acc)
        (some (head :: lines)) = .abort) := by
  obtain ⟨ls, hc, hlen, hls⟩ := check_ocean_pole_partial ho hq he ha h1 h2 h3 hne head lines ds hh hl h W M junkO junkR junkA junkE junkC junkD hj
  obtain ⟨gs, hg, hiff⟩ := agree_lines hlen h1 h2 h3 hls 1e-11
  refine ⟨gs, hg, ?_⟩
  rw [← hiff]
  obtain ⟨s, hs, -⟩ := ocean_make junkC junkD hj head lines ds hh hl h
  unfold checkOceanPole at hc
  unfold acceptOceanPole
  rw [bench_orbit ho, bench_accelerations ha, parseRotary_rows hq, parseEops_rows he, hs] at hc ⊢
  simp only [rb] at hc ⊢
  exact compareRotTol_of_compareRot _ _ _ _ _ _ _ _ hc

/-- C90: an epoch of the benchmark that differs is noticed: whatever succeeded, the epochs of the orbit are the first of the benchmark and
every component agrees with what was computed. -/
theorem compareTol_success (tol : ℝ) (f : Orbit → Res (Int ⊕ V3)) (hf : ∀ o, f o ≠ .ok (.inl 0)) : ∀ (os : List Orbit) (accs : List Acc),
    compareTol tol f os accs = .ok 0 →
    os.map (·.epoch) <+: accs.map (·.epoch) ∧
      ∀ (i : Nat) o r, os[i]? = some o → accs[i]? = some r → ∃ a, f o = .ok (.inr a) ∧ Agrees tol r.axyz a
  | [], accs, _ => by simp
  | o :: os, accs, h => by
    unfold compareTol at h
    cases hfo : f o with
    | ub => rw [hfo] at h; cases h
    | abort => rw [hfo] at h; cases h
    | throw => rw [hfo] at h; cases h
    | ok x =>
      rw [hfo] at h
      simp only [rb] at h
      cases x with
      | inl st =>
        simp only [Res.ok.injEq] at h
        subst h
        exact absurd hfo (hf o)
      | inr a =>
        cases accs with
        | nil => cases h
        | cons r rs =>
          simp only at h
          by_cases he : r.epoch = o.epoch
          · rw [if_neg (not_not.mpr he)] at h
            obtain ⟨a1, a2⟩ := asserts_eq tol r.axyz a (compareTol tol f os rs)
            by_cases ha : Agrees tol r.axyz a
            · rw [a1 ha] at h
              obtain ⟨i1, i2⟩ := compareTol_success tol f hf os rs h
              refine ⟨?_, ?_⟩
              · simp only [List.map_cons, List.cons_prefix_cons]
                exact ⟨he.symm, i1⟩
              · intro i o' r' k1 k2
                cases i with
                | zero =>
                  simp only [List.getElem?_cons_zero, Option.some.injEq] at k1 k2
                  subst k1 k2
                  exact ⟨a, hfo, ha⟩
                | succ i => exact i2 i o' r' (by simpa using k1) (by simpa using k2)
            · rw [a2 ha] at h
              cases h
          · rw [if_pos he] at h
            simp at h

/-! ### Examples -/

def dRest1 : List Dec := [num "58119" "25", num "0" "", num "0" "", num "0" "", num "0" "", num "7" "5", num "0" "", num "8" "", num "0" "0", num "0" "1"]
def dRest2 : List Dec := [num "58119" "75", num "0" "", num "0" "", num "0" "", num "1" "", num "7" "5", num "0" "", num "8" "", num "0" "0", num "0" "1"]
def dNone1 : List Dec := [num "58119" "25", num "0" "000000000009", num "0" "", num "0" ""]
def dNone2 : List Dec := [num "58119" "75", num "0" "", num "0" "", num "0" "000000000001"]

/-- An orbit through the geocentre, where no body has a tide, and a benchmark within the tolerance of zero. -/
def exRest : List Char := "# mjd x y z\n".toList ++ (joined dRest1 ++ '\n' :: joined dRest2)
def exNone : List Char := "# mjd ax ay az\n".toList ++ (joined dNone1 ++ '\n' :: (joined dNone2 ++ ['\n']))

theorem exRest_table : Table 512 9 exRest [rowOf dRest1, rowOf dRest2] where
  lines := ⟨["# mjd x y z".toList, joined dRest1, joined dRest2],
    ⟨by decide +kernel, Or.inr ⟨["# mjd x y z".toList, joined dRest1], joined dRest2, rfl, by decide +kernel, by decide +kernel⟩⟩,
    by decide +kernel,
    .skip (comment_skipped (c := '#') (l := " mjd x y z".toList) (by decide)) (.row (t := (rowOf dRest1).1) (v := (rowOf dRest1).2) (joined_is dRest1 (by
      intro d hd; simp only [dRest1, List.mem_cons, List.not_mem_nil, or_false] at hd
      rcases hd with rfl | rfl | rfl | rfl | rfl | rfl | rfl | rfl | rfl | rfl <;> exact Dec.ok_of (by decide))) rfl
      (.row (t := (rowOf dRest2).1) (v := (rowOf dRest2).2) (joined_is dRest2 (by
      intro d hd; simp only [dRest2, List.mem_cons, List.not_mem_nil, or_false] at hd
      rcases hd with rfl | rfl | rfl | rfl | rfl | rfl | rfl | rfl | rfl | rfl <;> exact Dec.ok_of (by decide))) rfl .nil))⟩
  dates := by
    intro r hr
    simp only [List.mem_cons, List.not_mem_nil, or_false] at hr
    rcases hr with rfl | rfl <;> exact ⟨by decide +kernel, by decide +kernel⟩

theorem exNone_table : Table 256 3 exNone [rowOf dNone1, rowOf dNone2] where
  lines := ⟨["# mjd ax ay az".toList, joined dNone1, joined dNone2],
    ⟨by decide +kernel, Or.inl (by decide +kernel)⟩,
    by decide +kernel,
    .skip (comment_skipped (c := '#') (l := " mjd ax ay az".toList) (by decide)) (.row (t := (rowOf dNone1).1) (v := (rowOf dNone1).2) (joined_is dNone1 (by
      intro d hd; simp only [dNone1, List.mem_cons, List.not_mem_nil, or_false] at hd
      rcases hd with rfl | rfl | rfl | rfl <;> exact Dec.ok_of (by decide))) rfl
      (.row (t := (rowOf dNone2).1) (v := (rowOf dNone2).2) (joined_is dNone2 (by
      intro d hd; simp only [dNone2, List.mem_cons, List.not_mem_nil, or_false] at hd
      rcases hd with rfl | rfl | rfl | rfl <;> exact Dec.ok_of (by decide))) rfl .nil))⟩
  dates := by
    intro r hr
    simp only [List.mem_cons, List.not_mem_nil, or_false] at hr
    rcases hr with rfl | rfl <;> exact ⟨by decide +kernel, by decide +kernel⟩

theorem tide_rest (GM : ℝ) (s : V3) : tide GM 0 s = 0 := by
  have h : s - 0 = s := by ext <;> simp
  unfold tide
  rw [h]
  ext <;> simp

theorem rest_zero : ∀ o ∈ [rowOf dRest1, rowOf dRest2], three o.2 0 = 0 := by
  intro o ho
  simp only [List.mem_cons, List.not_mem_nil, or_false] at ho
  have e : ∀ v : List ℚ, v.getD 0 0 = 0 → v.getD 1 0 = 0 → v.getD 2 0 = 0 → three v 0 = 0 := by
    intro v a b c
    unfold three
    ext <;> simp <;> simp_all
  rcases ho with rfl | rfl <;> exact e _ (by decide +kernel) (by decide +kernel) (by decide +kernel)

/-- The test for the Sun accepts the benchmark within the tolerance of zero. -/
example : acceptSun (Planets.spiceOf Planets.line id .abort) (fun _ => 3) (fun _ => 4) ⟨1, 2, 3⟩ (some exRest) (some exNone) = .ok 0 := by
  refine (accept_sun_partial _ Planets.line id (Planets.documented_spiceOf _ _ .abort) exRest_table exNone_table (by decide +kernel)
    (fun t => (⟨10 * jdTT t, 10, 2 * jdTT t⟩, ⟨10, 0, 2⟩)) (fun t => (⟨399 * jdTT t, 399, 2 * jdTT t⟩, ⟨399, 0, 2⟩))
    (by intro o _; constructor <;> norm_num [Planets.line]) _ _ _).1 ?_
  intro i o a k1 k2
  beta_reduce
  rw [rest_zero o (List.mem_of_getElem? k1), tide_rest]
  have e : ∀ v : List ℚ, (|v.getD 0 0| < 1e-11 ∧ |v.getD 1 0| < 1e-11 ∧ |v.getD 2 0| < 1e-11) → Agrees 1e-11 (three v 0) 0 := by
    rintro v ⟨h1, h2, h3⟩
    unfold Agrees three
    have k : ∀ q : ℚ, |q| < 1e-11 → |((q : ℚ) : ℝ) - 0| < 1e-11 := by
      intro q hq
      have := (Rat.cast_lt (K := ℝ)).mpr hq
      push_cast at this
      rw [sub_zero]
      refine this.trans_le (by norm_num)
    exact ⟨k _ h1, k _ h2, k _ h3⟩
  have hm := List.mem_of_getElem? k2
  simp only [List.mem_cons, List.not_mem_nil, or_false] at hm
  rcases hm with rfl | rfl <;> exact e _ (by decide +kernel)

/-- The test for the Sun is aborted with the benchmark of the other example. -/
example : acceptSun (Planets.spiceOf Planets.line id .abort) (fun _ => 3) (fun _ => 4) ⟨1, 2, 3⟩ (some exRest) (some exAcc) = .abort := by
  refine (accept_sun_partial _ Planets.line id (Planets.documented_spiceOf _ _ .abort) exRest_table exAcc_table (by decide +kernel)
    (fun t => (⟨10 * jdTT t, 10, 2 * jdTT t⟩, ⟨10, 0, 2⟩)) (fun t => (⟨399 * jdTT t, 399, 2 * jdTT t⟩, ⟨399, 0, 2⟩))
    (by intro o _; constructor <;> norm_num [Planets.line]) _ _ _).2 ?_
  intro h
  have h1 := (h 0 (rowOf dRest1) (rowOf dAcc1) rfl rfl).1
  beta_reduce at h1
  rw [rest_zero (rowOf dRest1) (by simp), tide_rest] at h1
  have h2 : (three (rowOf dAcc1).2 0).x = 0.01 := by
    have : (rowOf dAcc1).2.getD 0 0 = 0.01 := by decide +kernel
    show (((rowOf dAcc1).2.getD 0 0 : ℚ) : ℝ) = 0.01
    rw [this]; norm_num
  rw [h2] at h1
  norm_num at h1

/-- The test for the pole tide on the example. -/
example : ∃ gs, Gradients polePotential [rowOf dOrbit1, rowOf dOrbit2] [rowOf dEop1, rowOf dEop2] gs ∧
    (AllWithin 1e-11 [rowOf dRot1, rowOf dRot2] [rowOf dAcc1, rowOf dAcc2] gs →
      acceptPole (fun _ _ => 7) (fun _ _ => 8) (fun _ => 3) (fun _ => 5) (fun _ => 4) (fun _ => 6) (some exOrbit) (some exRot) (some exEop)
        (some exAcc) = .ok 0) := by
  obtain ⟨gs, h1, h2, -⟩ := accept_pole_partial exOrbit_table exRot_table exEop_table exAcc_table (by decide +kernel) (by decide +kernel) (by decide +kernel)
    (by intro o ho; simp only [List.mem_cons, List.not_mem_nil, or_false] at ho; rcases ho with rfl | rfl <;> exact three_ne (by decide +kernel))
    (fun _ _ => 7) (fun _ _ => 8) (fun _ => 3) (fun _ => 5) (fun _ => 4) (fun _ => 6)
  exact ⟨gs, h1, h2⟩

/-- The same for the moon. -/
example : acceptMoon (Planets.spiceOf Planets.line id .abort) (fun _ => 3) (fun _ => 4) ⟨1, 2, 3⟩ (some exRest) (some exAcc) = .abort := by
  refine (accept_moon_partial _ Planets.line id (Planets.documented_spiceOf _ _ .abort) exRest_table exAcc_table (by decide +kernel)
    (fun t => (⟨301 * jdTT t, 301, 2 * jdTT t⟩, ⟨301, 0, 2⟩)) (fun t => (⟨399 * jdTT t, 399, 2 * jdTT t⟩, ⟨399, 0, 2⟩))
    (by intro o _; constructor <;> norm_num [Planets.line]) _ _ _).2 ?_
  intro h
  have h1 := (h 0 (rowOf dRest1) (rowOf dAcc1) rfl rfl).1
  beta_reduce at h1
  rw [rest_zero (rowOf dRest1) (by simp), tide_rest] at h1
  have h2 : (three (rowOf dAcc1).2 0).x = 0.01 := by
    have : (rowOf dAcc1).2.getD 0 0 = 0.01 := by decide +kernel
    show (((rowOf dAcc1).2.getD 0 0 : ℚ) : ℝ) = 0.01
    rw [this]; norm_num
  rw [h2] at h1
  norm_num at h1

/-- Relativity: one of the two, on the orbit and accelerations of the example. -/
example : acceptRelativity (Planets.spiceOf Planets.line id .abort) [] (fun _ => 3) (fun _ => 4) (0, 0) (some exOrbit) (some exAcc) = .ok 0 ∨
    acceptRelativity (Planets.spiceOf Planets.line id .abort) [] (fun _ => 3) (fun _ => 4) (0, 0) (some exOrbit) (some exAcc) = .abort := by
  have h := accept_relativity_partial _ Planets.line id (Planets.documented_spiceOf _ _ .abort) exOrbit_table exAcc_table (by decide +kernel)
    (fun t => (⟨10 * jdTT t, 10, 2 * jdTT t⟩, ⟨10, 0, 2⟩)) (fun t => (⟨399 * jdTT t, 399, 2 * jdTT t⟩, ⟨399, 0, 2⟩))
    (by intro o _; constructor <;> norm_num [Planets.line])
    (by
      intro o ho
      refine ⟨?_, ?_⟩
      · simp only [List.mem_cons, List.not_mem_nil, or_false] at ho
        rcases ho with rfl | rfl <;> exact three_ne (by decide +kernel)
      · intro h
        have := congrArg V3.y h
        norm_num [Planets.metres] at this) [] (fun _ => 3) (fun _ => 4) (0, 0)
  by_cases a : AllAgree 1e-11 (fun o => conventional (three o.2 0) (three o.2 3)
      (Planets.metres ((⟨10 * jdTT o.1, 10, 2 * jdTT o.1⟩ : V3) - ⟨399 * jdTT o.1, 399, 2 * jdTT o.1⟩))
      (Planets.metres ((⟨10, 0, 2⟩ : V3) - ⟨399, 0, 2⟩))) [rowOf dOrbit1, rowOf dOrbit2] [rowOf dAcc1, rowOf dAcc2]
  · exact Or.inl (h.1 a)
  · exact Or.inr (h.2 a)

/-- The ocean pole tide with one entry. -/
example : ∃ gs, Gradients (fun t => oceanPotential [⟨2, 1, 1 / 2, -3, 25, 0⟩] (((t : ℝ) - 51544.5) / 365.25)) [rowOf dOrbit1, rowOf dOrbit2]
      [rowOf dEop1, rowOf dEop2] gs ∧
    (AllWithin 1e-11 [rowOf dRot1, rowOf dRot2] [rowOf dAcc1, rowOf dAcc2] gs →
      acceptOceanPole (fun _ _ => 7) (fun _ _ => 8) (fun _ => 3) (fun _ => 5) (fun _ => 4) (fun _ => 6) (fun _ _ => 9) [1, 2, 3, 4]
        (some exOrbit) (some exRot) (some exEop) (some exAcc)
        (some ["   n    m   Anm(Real)          Bnm(Real)          Anm(Imaginary)     Bnm(Imaginary)".toList, "   2    1  0.5 -3  2.5E+01 0".toList]) =
        .ok 0) := by
  obtain ⟨gs, h1, h2, -⟩ := accept_ocean_pole_partial exOrbit_table exRot_table exEop_table exAcc_table (by decide +kernel) (by decide +kernel) (by decide +kernel)
    (by
      intro o ho
      simp only [List.mem_cons, List.not_mem_nil, or_false] at ho
      rcases ho with rfl | rfl <;> exact three_ne (by decide +kernel)) _ _ [⟨2, 1, 1 / 2, -3, 25, 0⟩] PoleTide.ex_header.1 (by decide +kernel)
      (.cons ⟨by decide +kernel, PoleTide.ex_header.2, by decide, by decide⟩ .nil)
      (fun _ _ => 7) (fun _ _ => 8) (fun _ => 3) (fun _ => 5) (fun _ => 4) (fun _ => 6) (fun _ _ => 9) [1, 2, 3, 4] rfl
  exact ⟨gs, h1, h2⟩

end Verif.Costg
