import Verif.Model.CostgField
import Verif.Spec.CostgField
import Verif.Props.CostgTide
import Verif.Props.IcgemHeader
/-
C95: the checks of the gravity field against the benchmark.
-/
namespace Verif.Costg
open Verif Verif.Tide Verif.Groops Verif.Icgem Verif.Icgem.Head

variable {T : Type} [LinearOrder T] {cal : Cal T} {at_ : Epoch → T}

/-! ### The model -/

/-- What has been read from the file. -/
structure ReadAt (g : Gfc T) (cal : Cal T) (t : T) (n : Nat) (c : Coeffs ℝ) : Prop where
  rows : c.rows = n + 1
  C : ∀ a b : Nat, b ≤ a → a ≤ n → c.C a b = g.coeffAt cal t Record.C a b
  S : ∀ a b : Nat, b ≤ a → a ≤ n → c.S a b = g.coeffAt cal t Record.S a b
  deg : Largest (g.UsedAt t n) Record.n g.records c.deg
  ord : Largest (g.UsedAt t n) Record.m g.records c.ord
  gm : c.gm = (g.gm : ℚ)
  re : c.re = (g.radius : ℚ)

theorem readAt_of {g : Gfc T} {t : T} {n : Nat} {h : Header} {fac : List (Record T) → Record T → ℝ} {used : Record T → Prop} {c : Coeffs ℝ}
    (hf : fac = if g.isV2 then fun _ r => factor2 cal.years t r else factor1 cal.years t) (hu : ∀ r, used r ↔ g.UsedAt t n r)
    (hr : Result h n n fac used g.records c) (hgm : h.gm = (g.gm : ℚ)) (hre : h.re = (g.radius : ℚ)) : ReadAt g cal t n c := by
  have hu' : used = g.UsedAt t n := funext fun r => propext (hu r)
  subst hf hu'
  refine ⟨by have := hr.rows; omega, ?_, ?_, hr.deg, hr.ord, hr.gm.trans hgm, hr.re.trans hre⟩
  · intro a b hb ha; exact getC_C (hr.C a b hb (by omega) (by omega))
  · intro a b hb ha; exact getS_S (hr.S a b hb (by omega) (by omega))

theorem read_field {g : Gfc T} {t : T} {n : Nat} (hg : g.OkAt cal t n) (junkErr : ErrorModel) (junk : Entry T × (Nat → Nat → ℝ)) (co : Coeffs ℝ) :
    ∃ c, readFile cal (some g.text) junkErr junk n n t co = .ok (0, c) ∧ ReadAt g cal t n c := by
  have hreq : asked (said g.settings g.errors) n n = ((n : Int), (n : Int)) := by
    have hn : ¬ (n : Int) < 0 := by omega
    simp only [asked, if_neg hn]
  by_cases hv : g.isV2 = true
  · have hl := hg.lines
    rw [if_pos hv] at hl
    obtain ⟨c1, c2⟩ := hg.calendar hv
    obtain ⟨c, e1, e2⟩ := file_read2_partial cal junkErr junk t co hg.header hg.short hg.errors hg.one g.tail hg.tail.1
      hg.tail.2 hv c1 c2 hreq (by omega) le_rfl hg.degree hl (fun r hr hw => hg.triangle r hr hw.1 hw.2) hg.periods
    refine ⟨c, e1, readAt_of (by rw [if_pos hv]) (fun r => ?_) e2 rfl rfl⟩
    unfold Used2 Gfc.UsedAt Icgem.Within
    simp only [hv, true_imp_iff, and_assoc]
  · have hl := hg.lines
    rw [if_neg hv] at hl
    have hv' : g.isV2 = false := by simpa using hv
    obtain ⟨c, e1, e2⟩ := file_read1_partial cal junkErr junk t co hg.header hg.short hg.errors hg.one g.tail hg.tail.1
      hg.tail.2 hv' hreq (by omega) le_rfl hg.degree hl (fun r hr hw => hg.triangle r hr hw.1 hw.2) hg.periods (hg.grouped hv')
    refine ⟨c, e1, readAt_of (by rw [if_neg hv]) (fun r => ?_) e2 rfl rfl⟩
    unfold Gfc.UsedAt Icgem.Within
    simp only [hv', Bool.false_eq_true, false_imp_iff, and_true]

omit [LinearOrder T] in
theorem largest_eq {used : Record T → Prop} {f : Record T → Int} {rs : List (Record T)} {d : Int} (h : Largest used f rs d) {n : Nat}
    (hle : ∀ r, used r → f r ≤ n) : (∃ r ∈ rs, used r ∧ f r = n) → d = n := by
  rintro ⟨r, hr, hu, e⟩
  rcases h with ⟨h1, ⟨r', hr', hu', e'⟩ | ⟨-, h2⟩⟩
  · have a := h1 r hr hu
    have b := hle r' hu'
    omega
  · exact absurd hu (h2 r hr)

omit [LinearOrder T] in
theorem largest_ne {used : Record T → Prop} {f : Record T → Int} {rs : List (Record T)} {d : Int} (h : Largest used f rs d) {n : Nat} (h0 : n ≠ 0)
    (hn : ¬ ∃ r ∈ rs, used r ∧ f r = n) : d ≠ n := by
  rintro rfl
  rcases h with ⟨-, ⟨r', hr', hu', e'⟩ | ⟨h1, -⟩⟩
  · exact hn ⟨r', hr', hu', e'⟩
  · omega

/-- The model is read if its coefficients reach degree and order 180. -/
theorem field_model {g : Gfc T} {o : Orbit} {os : List Orbit} (hg : g.OkAt cal (at_ o.epoch) 180) (hf : g.FullAt (at_ o.epoch) 180)
    (junkErr : ErrorModel) (junk : Entry T × (Nat → Nat → ℝ)) :
    ∃ c, fieldModel cal at_ junkErr junk (some g.text) (o :: os) = .ok (.inr c) ∧ ReadAt g cal (at_ o.epoch) 180 c ∧ c.deg = 180 ∧ c.ord = 180 := by
  obtain ⟨c, e, hc⟩ := read_field hg junkErr junk noCoeffs
  have d1 := largest_eq hc.deg (fun r hr => hr.1) hf.1
  have d2 := largest_eq hc.ord (fun r hr => hr.2.1) hf.2
  refine ⟨c, ?_, hc, d1, d2⟩
  unfold fieldModel
  simp only
  rw [show (180 : Int) = ((180 : Nat) : Int) from rfl, e]
  simp only [rb, ne_eq, not_true_eq_false, if_false, d1, d2]

/-- The model is not accepted otherwise. -/
theorem field_model_short {g : Gfc T} {o : Orbit} {os : List Orbit} (hg : g.OkAt cal (at_ o.epoch) 180) (hf : ¬ g.FullAt (at_ o.epoch) 180)
    (junkErr : ErrorModel) (junk : Entry T × (Nat → Nat → ℝ)) :
    fieldModel cal at_ junkErr junk (some g.text) (o :: os) = .abort := by
  obtain ⟨c, e, hc⟩ := read_field hg junkErr junk noCoeffs
  unfold fieldModel
  simp only
  rw [show (180 : Int) = ((180 : Nat) : Int) from rfl, e]
  simp only [rb, ne_eq, not_true_eq_false, if_false]
  by_cases h1 : ∃ r ∈ g.records, g.UsedAt (at_ o.epoch) 180 r ∧ r.n = (180 : Nat)
  · have h2 : ¬ ∃ r ∈ g.records, g.UsedAt (at_ o.epoch) 180 r ∧ r.m = (180 : Nat) := fun h2 => hf ⟨h1, h2⟩
    rw [if_pos (largest_ne hc.ord (by norm_num) h2)]
    split_ifs <;> rfl
  · rw [if_pos (largest_ne hc.deg (by norm_num) h1)]

/-! ### One epoch -/

/-- What the program keeps from epoch to epoch: everything but the elements of degree 0 and 1, which are set before they are used. -/
structure KeepsField (g : Gfc T) (cal : Cal T) (t : T) (c : Coeffs ℝ) : Prop where
  deg : c.deg = 180
  ord : c.ord = 180
  rows : c.rows = 181
  C : ∀ a b : Nat, b ≤ a → 2 ≤ a → a ≤ 180 → c.C a b = g.coeffAt cal t Record.C a b
  S : ∀ a b : Nat, b ≤ a → 2 ≤ a → a ≤ 180 → c.S a b = g.coeffAt cal t Record.S a b
  gm : c.gm = (g.gm : ℚ)
  re : c.re = (g.radius : ℚ)

theorem four_field {c : Coeffs ℝ} (hr : 2 ≤ c.rows) :
    ∃ c', (∀ {β : Type} (k : Coeffs ℝ → Res β), ((c.setC 0 0 0).bind fun c => (c.setS 1 1 0).bind fun c => (c.setC 1 1 0).bind fun c =>
      (c.setC 1 0 0).bind k) = k c') ∧ c'.clear = c.clear ∧
      ∀ l k : Nat, k ≤ l → c'.C l k = (if l < 2 then 0 else c.C l k) ∧ (0 < k → c'.S l k = if l < 2 then 0 else c.S l k) ∧ (2 ≤ l → c'.S l k = c.S l k) := by
  have eC : ∀ (d : Coeffs ℝ) (i j : Int), d.Has i j → d.setC i j 0 = .ok { d with C := Coeffs.put d.C i.toNat j.toNat 0 } :=
    fun d i j h => if_pos h
  have eS : ∀ (d : Coeffs ℝ) (i j : Int), d.Has i j → d.setS i j 0 = .ok { d with S := Coeffs.put d.S i.toNat j.toNat 0 } :=
    fun d i j h => if_pos h
  refine ⟨{ c with C := Coeffs.put (Coeffs.put (Coeffs.put c.C 0 0 0) 1 1 0) 1 0 0, S := Coeffs.put c.S 1 1 0 }, ?_, rfl, ?_⟩
  · intro β k
    rw [eC _ 0 0 (by unfold Coeffs.Has; omega), rb, eS _ 1 1 (by unfold Coeffs.Has; dsimp only; omega), rb,
      eC _ 1 1 (by unfold Coeffs.Has; (try dsimp only); omega), rb, eC _ 1 0 (by unfold Coeffs.Has; dsimp only; omega), rb]
    rfl
  · intro l k hk
    simp only [Coeffs.put]
    rcases Nat.lt_or_ge l 2 with hl | hl
    · have : (l = 0 ∧ k = 0) ∨ (l = 1 ∧ k = 0) ∨ (l = 1 ∧ k = 1) := by omega
      rcases this with ⟨rfl, rfl⟩ | ⟨rfl, rfl⟩ | ⟨rfl, rfl⟩ <;> simp
    · rw [if_neg (by omega), if_neg (by omega), if_neg (by omega), if_neg (by omega), if_neg (by omega), if_neg (by omega)]
      exact ⟨rfl, fun _ => rfl, fun _ => rfl⟩

theorem field_step {g : Gfc T} {t : T} (hgm : 0 ≤ g.gm) (hre : 0 < g.radius) (W M : Epoch → Int → ℝ) {c : Coeffs ℝ} (hc : KeepsField g cal t c)
    (o : ℚ × List ℚ) (h0 : three o.2 0 ≠ 0) :
    ∃ c' a, fieldStep W M c (orbitOf o) = .ok (c', some a) ∧ KeepsField g cal t c' ∧ Harmonic.IsGradient (g.fieldAt cal t 180) (three o.2 0) a := by
  obtain ⟨c', e1, e2, e3⟩ := four_field (c := c) (by have := hc.rows; omega)
  have hd : c'.deg = 180 := (congrArg Coeffs.deg e2).trans hc.deg
  have ho : c'.ord = 180 := (congrArg Coeffs.ord e2).trans hc.ord
  have hg' : c'.gm = (g.gm : ℚ) := (congrArg Coeffs.gm e2).trans hc.gm
  have hr' : c'.re = (g.radius : ℚ) := (congrArg Coeffs.re e2).trans hc.re
  have hk : KeepsField g cal t c' := by
    refine ⟨hd, ho, (congrArg Coeffs.rows e2).trans hc.rows, ?_, ?_, hg', hr'⟩
    · intro a b hb h2 ha
      rw [(e3 a b hb).1, if_neg (by omega)]
      exact hc.C a b hb h2 ha
    · intro a b hb h2 ha
      rw [(e3 a b hb).2.2 h2]
      exact hc.S a b hb h2 ha
  obtain ⟨a, ea, ha⟩ := attraction_gradient c' (r := three o.2 0) (n := 180) h0 (by norm_num) (by norm_num) (by rw [hd]; rfl) (by rw [ho]; rfl)
    (by rw [hg']; exact_mod_cast hgm) (by rw [hr']; exact_mod_cast hre) (W := ⟨183, W (epochAt o.1)⟩) (M := ⟨183, M (epochAt o.1)⟩) (by norm_num) (by norm_num)
  refine ⟨c', a, ?_, hk, ?_⟩
  · unfold fieldStep
    rw [e1, show (orbitOf o).epoch = epochAt o.1 from rfl, show (orbitOf o).xyz = three o.2 0 from rfl,
      show (180 : Int) = ((180 : Nat) : Int) from rfl, ea]
    rfl
  · refine (congrArg (fun V => Harmonic.IsGradient V (three o.2 0) a) (funext fun v => ?_)).mpr ha
    rw [hg', hr']
    unfold Gfc.fieldAt
    simp only
    refine (Harmonic.potential_above _ _ (C := g.coeffAt cal t Record.C) (S := g.coeffAt cal t Record.S) (by norm_num) (fun l k hk hl => ?_) v).symm
    obtain ⟨p1, p2, p3⟩ := e3 l k hk
    refine ⟨?_, fun h => ?_, fun h => ?_⟩
    · rw [p1]
      split_ifs with h2
      · rfl
      · exact hc.C l k hk (by omega) hl
    · rw [p2 h]
      split_ifs with h2
      · rfl
      · exact hc.S l k hk (by omega) hl
    · rw [p3 h]
      exact hc.S l k hk h hl

/-! ### The loop in the terrestrial frame -/

open Classical in
theorem acceptItrf_rows {σ : Type} {I : σ → Prop} {f : σ → Orbit → Res (σ × Option V3)} {tol : ℝ} {P : ℚ × List ℚ → V3 → Prop} :
    ∀ {s : σ} {os as : List (ℚ × List ℚ)}, I s → os.map (·.1) <+: as.map (·.1) →
    (∀ s, I s → ∀ o ∈ os, ∃ s' g, f s (orbitOf o) = .ok (s', some g) ∧ I s' ∧ P o g) →
    ∃ gs, List.Forall₂ P os gs ∧
      (AllWithinItrf tol as gs → acceptItrf f tol s (os.map orbitOf) (as.map fun r => ⟨epochAt r.1, three r.2 0⟩) = .ok 0) ∧
      (¬ AllWithinItrf tol as gs → acceptItrf f tol s (os.map orbitOf) (as.map fun r => ⟨epochAt r.1, three r.2 0⟩) = .abort)
  | _, [], _, _, _, _ => ⟨[], .nil, fun _ => by simp [acceptItrf], fun h => absurd (fun i r g _ h3 => by simp at h3) h⟩
  | _, o :: os, [], _, h, _ => by simp at h
  | s, o :: os, a :: as, hI, h2, hf => by
    simp only [List.map_cons, List.cons_prefix_cons] at h2
    obtain ⟨s', g, hg, hI', hgr⟩ := hf s hI o (by simp)
    obtain ⟨gs, hgs, k1, k2⟩ := acceptItrf_rows (tol := tol) hI' h2.2 (fun t ht x hx => hf t ht x (by simp [hx]))
    have hc : epochAt a.1 = (orbitOf o).epoch := by show epochAt a.1 = epochAt o.1; rw [h2.1]
    have hstep : acceptItrf f tol s ((o :: os).map orbitOf) ((a :: as).map fun r => ⟨epochAt r.1, three r.2 0⟩) =
        if WithinItrf tol a g then acceptItrf f tol s' (os.map orbitOf) (as.map fun r => ⟨epochAt r.1, three r.2 0⟩) else .abort := by
      simp only [List.map_cons]
      rw [acceptItrf, hg]
      simp only [rb]
      rw [if_neg (by rw [hc]; simp)]
      unfold WithinItrf
      by_cases w1 : |(three a.2 0).x - g.x| < tol <;> by_cases w2 : |(three a.2 0).y - g.y| < tol <;>
        by_cases w3 : |(three a.2 0).z - g.z| < tol <;> simp [w1, w2, w3]
    have hall : AllWithinItrf tol (a :: as) (g :: gs) ↔ WithinItrf tol a g ∧ AllWithinItrf tol as gs := by
      constructor
      · intro h
        exact ⟨h 0 a g rfl rfl, fun i r' g' e2 e3 => h (i + 1) r' g' e2 e3⟩
      · rintro ⟨h, h'⟩ i r' g' e2 e3
        cases i with
        | zero =>
          simp only [List.getElem?_cons_zero, Option.some.injEq] at e2 e3
          subst e2 e3
          exact h
        | succ i => exact h' i r' g' e2 e3
    refine ⟨g :: gs, .cons hgr hgs, ?_, ?_⟩
    · intro h
      obtain ⟨w, w'⟩ := hall.mp h
      rw [hstep, if_pos w, k1 w']
    · intro h
      rw [hstep]
      by_cases w : WithinItrf tol a g
      · rw [if_pos w]
        exact k2 fun w' => h (hall.mpr ⟨w, w'⟩)
      · rw [if_neg w]

/-! ### The programs -/

/-- The model at an epoch: a well formed file of degree and order 180, with constants that make sense. -/
structure FieldFile (g : Gfc T) (cal : Cal T) (t : T) : Prop where
  ok : g.OkAt cal t 180
  full : g.FullAt t 180
  gm : 0 ≤ g.gm
  radius : 0 < g.radius

variable {g : Gfc T} {orbit acc rot : List Char} {o1 : ℚ × List ℚ} {os as qs : List (ℚ × List ℚ)}

theorem keeps_read {t : T} {c : Coeffs ℝ} (h : ReadAt g cal t 180 c) (hd : c.deg = 180) (ho : c.ord = 180) : KeepsField g cal t c :=
  ⟨hd, ho, h.rows, fun a b hb _ ha => h.C a b hb ha, fun a b hb _ ha => h.S a b hb ha, h.gm, h.re⟩

/-- C95: exit status 0 if in every row the benchmark is within 1e-13 m/s² of the gradient of the potential of degrees 2 to 180 of the model at the first
epoch of the orbit, rotated; otherwise an assertion is violated. Missing: rows missing in a table (`check_field_short_fails`), an empty orbit
(`check_field_empty_fails`). -/
theorem check_field_partial (hg : FieldFile g cal (at_ (epochAt o1.1))) (ho : Table 512 9 orbit (o1 :: os)) (ha : Table 256 3 acc as)
    (hq : Table 1024 9 rot qs) (h3 : (o1 :: os).map (·.1) <+: qs.map (·.1)) (h4 : (o1 :: os).map (·.1) <+: as.map (·.1))
    (h0 : ∀ o ∈ o1 :: os, three o.2 0 ≠ 0) (junkErr : ErrorModel) (junk : Entry T × (Nat → Nat → ℝ)) (W M : Epoch → Int → ℝ)
    (junkO junkR : Fin 10 → ℚ) (junkA : Fin 4 → ℚ) :
    ∃ gs, FieldAccels (g.fieldAt cal (at_ (epochAt o1.1)) 180) (o1 :: os) gs ∧
      (AllWithin 1e-13 qs as gs → checkField cal at_ junkErr junk W M junkO junkR junkA (some orbit) (some rot) (some g.text) (some acc) = .ok 0) ∧
      (¬ AllWithin 1e-13 qs as gs → checkField cal at_ junkErr junk W M junkO junkR junkA (some orbit) (some rot) (some g.text) (some acc) = .abort) := by
  obtain ⟨c, e, hc, hd, hor⟩ := field_model (at_ := at_) (o := orbitOf o1) (os := os.map orbitOf) hg.ok hg.full junkErr junk
  obtain ⟨gs, g1, g2, g3⟩ := accept_rows (tol := 1e-13) (I := KeepsField g cal (at_ (epochAt o1.1))) (f := fieldStep W M) (keeps_read hc hd hor) h3 h4
    (fun s hs o hmo => field_step hg.gm hg.radius W M hs o (h0 o hmo))
  have heq : checkField cal at_ junkErr junk W M junkO junkR junkA (some orbit) (some rot) (some g.text) (some acc) =
      accept (fieldStep W M) 1e-13 c ((o1 :: os).map orbitOf) (qs.map rotOf) (as.map fun r => ⟨epochAt r.1, three r.2 0⟩) := by
    unfold checkField
    rw [bench_orbit ho, bench_accelerations ha, parseRotary_rows hq]
    simp only [rb, List.map_cons]
    exact (congrArg (fun x => Res.bind x _) e).trans rfl
  exact ⟨gs, g1, by rw [heq]; exact g2, by rw [heq]; exact g3⟩

/-- C95, in the terrestrial frame: likewise with 1e-11 m/s² and without rotation. -/
theorem check_field_itrf_partial (hg : FieldFile g cal (at_ (epochAt o1.1))) (ho : Table 512 9 orbit (o1 :: os)) (ha : Table 256 3 acc as)
    (h4 : (o1 :: os).map (·.1) <+: as.map (·.1)) (h0 : ∀ o ∈ o1 :: os, three o.2 0 ≠ 0) (junkErr : ErrorModel) (junk : Entry T × (Nat → Nat → ℝ))
    (W M : Epoch → Int → ℝ) (junkO : Fin 10 → ℚ) (junkA : Fin 4 → ℚ) :
    ∃ gs, FieldAccels (g.fieldAt cal (at_ (epochAt o1.1)) 180) (o1 :: os) gs ∧
      (AllWithinItrf 1e-11 as gs → checkFieldItrf cal at_ junkErr junk W M junkO junkA (some orbit) (some g.text) (some acc) = .ok 0) ∧
      (¬ AllWithinItrf 1e-11 as gs → checkFieldItrf cal at_ junkErr junk W M junkO junkA (some orbit) (some g.text) (some acc) = .abort) := by
  obtain ⟨c, e, hc, hd, hor⟩ := field_model (at_ := at_) (o := orbitOf o1) (os := os.map orbitOf) hg.ok hg.full junkErr junk
  obtain ⟨gs, g1, g2, g3⟩ := acceptItrf_rows (tol := 1e-11) (I := KeepsField g cal (at_ (epochAt o1.1))) (f := fieldStep W M) (keeps_read hc hd hor) h4
    (fun s hs o hmo => field_step hg.gm hg.radius W M hs o (h0 o hmo))
  have heq : checkFieldItrf cal at_ junkErr junk W M junkO junkA (some orbit) (some g.text) (some acc) =
      acceptItrf (fieldStep W M) 1e-11 c ((o1 :: os).map orbitOf) (as.map fun r => ⟨epochAt r.1, three r.2 0⟩) := by
    unfold checkFieldItrf
    rw [bench_orbit ho, bench_accelerations ha]
    simp only [rb, List.map_cons]
    exact (congrArg (fun x => Res.bind x _) e).trans rfl
  exact ⟨gs, g1, by rw [heq]; exact g2, by rw [heq]; exact g3⟩

/-- C95: a model without a coefficient of degree 180 or one of order 180 at the epoch is not accepted. -/
theorem check_field_degree (hg : g.OkAt cal (at_ (epochAt o1.1)) 180) (hf : ¬ g.FullAt (at_ (epochAt o1.1)) 180) (ho : Table 512 9 orbit (o1 :: os))
    (ha : Table 256 3 acc as) (hq : Table 1024 9 rot qs) (junkErr : ErrorModel) (junk : Entry T × (Nat → Nat → ℝ)) (W M : Epoch → Int → ℝ)
    (junkO junkR : Fin 10 → ℚ) (junkA : Fin 4 → ℚ) :
    checkField cal at_ junkErr junk W M junkO junkR junkA (some orbit) (some rot) (some g.text) (some acc) = .abort ∧
      checkFieldItrf cal at_ junkErr junk W M junkO junkA (some orbit) (some g.text) (some acc) = .abort := by
  have e := field_model_short (at_ := at_) (o := orbitOf o1) (os := os.map orbitOf) hg hf junkErr junk
  rw [show orbitOf o1 = ⟨epochAt o1.1, three o1.2 0, three o1.2 3, three o1.2 6⟩ from rfl] at e
  constructor
  · unfold checkField
    rw [bench_orbit ho, bench_accelerations ha, parseRotary_rows hq]
    simp only [rb, List.map_cons]
    refine (congrArg (fun x => Res.bind x _) e).trans rfl
  · unfold checkFieldItrf
    rw [bench_orbit ho, bench_accelerations ha]
    simp only [rb, List.map_cons]
    refine (congrArg (fun x => Res.bind x _) e).trans rfl

/-- C95: exit status 1 if the header of the model announces less than degree 180. -/
theorem check_field_rejects (hl : Holds g.header g.settings) (hn : g.header.length ≤ 1000) (he : lastOf Setting.errors? none g.settings = some g.errors)
    (hd : ∀ l ∈ g.data, '\n' ∉ l) (ht : '\n' ∉ g.tail ∧ g.tail.length + 11 < 256) (hdeg : g.maxDegree < 180) (ho : Table 512 9 orbit (o1 :: os))
    (ha : Table 256 3 acc as) (hq : Table 1024 9 rot qs) (junkErr : ErrorModel) (junk : Entry T × (Nat → Nat → ℝ)) (W M : Epoch → Int → ℝ)
    (junkO junkR : Fin 10 → ℚ) (junkA : Fin 4 → ℚ) :
    checkField cal at_ junkErr junk W M junkO junkR junkA (some orbit) (some rot) (some g.text) (some acc) = .ok 1 ∧
      checkFieldItrf cal at_ junkErr junk W M junkO junkA (some orbit) (some g.text) (some acc) = .ok 1 := by
  have e : ∀ o os, fieldModel cal at_ junkErr junk (some g.text) (o :: os) = .ok (.inl 1) := by
    intro o os
    unfold fieldModel Gfc.text
    simp only
    rw [readFile_eq cal junkErr junk _ _ hl hn he hd g.tail ht.1 ht.2,
      icgem_bad_request cal _ junk _ _ (n := 180) (m := 180) (by unfold asked; norm_num) (by norm_num) (Or.inl hdeg)]
    rfl
  constructor
  · unfold checkField
    rw [bench_orbit ho, bench_accelerations ha, parseRotary_rows hq]
    simp only [rb, List.map_cons, e]
  · unfold checkFieldItrf
    rw [bench_orbit ho, bench_accelerations ha]
    simp only [rb, List.map_cons, e]

/-- C95 fails on an orbit without rows: the first element of an empty vector is read. -/
theorem check_field_empty_fails (ho : Table 512 9 orbit []) (ha : Table 256 3 acc as) (hq : Table 1024 9 rot qs) (model : Option (List Char))
    (junkErr : ErrorModel) (junk : Entry T × (Nat → Nat → ℝ)) (W M : Epoch → Int → ℝ) (junkO junkR : Fin 10 → ℚ) (junkA : Fin 4 → ℚ) :
    checkField cal at_ junkErr junk W M junkO junkR junkA (some orbit) (some rot) model (some acc) = .ub ∧
      checkFieldItrf cal at_ junkErr junk W M junkO junkA (some orbit) model (some acc) = .ub := by
  constructor
  · unfold checkField
    rw [bench_orbit ho, bench_accelerations ha, parseRotary_rows hq]
    rfl
  · unfold checkFieldItrf
    rw [bench_orbit ho, bench_accelerations ha]
    rfl

/-- C95 fails when rotations or accelerations have fewer rows than the orbit, those they have being within the tolerance: the program reads behind the end
of a vector. -/
theorem check_field_short_fails {o : ℚ × List ℚ} {os' : List (ℚ × List ℚ)} (hg : FieldFile g cal (at_ (epochAt o1.1)))
    (ho : Table 512 9 orbit (o1 :: os ++ o :: os')) (ha : Table 256 3 acc as) (hq : Table 1024 9 rot qs) (h0 : ∀ x ∈ o1 :: os ++ [o], three x.2 0 ≠ 0)
    (h1 : (o1 :: os).map (·.1) <+: qs.map (·.1)) (h2 : (o1 :: os).map (·.1) <+: as.map (·.1))
    (h3 : (o1 :: os).map (·.1) = qs.map (·.1) ∨ (o1 :: os ++ [o]).map (·.1) <+: qs.map (·.1) ∧ (o1 :: os).map (·.1) = as.map (·.1))
    (junkErr : ErrorModel) (junk : Entry T × (Nat → Nat → ℝ)) (W M : Epoch → Int → ℝ) (junkO junkR : Fin 10 → ℚ) (junkA : Fin 4 → ℚ) :
    ∃ gs, FieldAccels (g.fieldAt cal (at_ (epochAt o1.1)) 180) (o1 :: os) gs ∧ (AllWithin 1e-13 qs as gs →
      checkField cal at_ junkErr junk W M junkO junkR junkA (some orbit) (some rot) (some g.text) (some acc) = .ub) := by
  obtain ⟨c, e, hc, hd, hor⟩ := field_model (at_ := at_) (o := orbitOf o1) (os := (os ++ o :: os').map orbitOf) hg.ok hg.full junkErr junk
  obtain ⟨gs, g1, g2⟩ := accept_short (tol := 1e-13) (o := o) (os := o1 :: os) (os' := os') (I := KeepsField g cal (at_ (epochAt o1.1)))
    (f := fieldStep W M) (keeps_read hc hd hor) h1 h2 h3 (fun s hs x hx => field_step hg.gm hg.radius W M hs x (h0 x hx))
  refine ⟨gs, g1, fun h => ?_⟩
  rw [← g2 h]
  unfold checkField
  rw [bench_orbit ho, bench_accelerations ha, parseRotary_rows hq]
  simp only [rb, List.cons_append, List.map_cons]
  have e' := e
  rw [show orbitOf o1 = ⟨epochAt o1.1, three o1.2 0, three o1.2 3, three o1.2 6⟩ from rfl] at e'
  refine (congrArg (fun x => Res.bind x _) e').trans rfl

end Verif.Costg

/-! ### An example: a model with a trend of the coefficient of degree 2 -/

namespace Verif.Costg
open Verif Verif.Groops Verif.Icgem Verif.Icgem.Head Verif.Chars

/-- A gravity model of degree 180, with a coefficient that varies. -/
def exGfc180 : Gfc Int where
  header := ["max_degree 180".toList, "errors formal".toList, "earth_gravity_constant 3.986004418e14".toList, "radius 6378136.6".toList]
  settings := [.maxDegree 180, .errors .formal, .gm 3.986004418e14, .radius 6378136.6]
  errors := .formal
  tail := []
  data := ["gfct 2 0 1.5e-3 2.0 1e-9 1e-9 20000101".toList, "trnd 2 0 1.5D-3 2.0 1e-9 1e-9".toList, "gfc  180 180 1.5e-3 2.0".toList]
  records := [⟨.ref, 2, 0, 3 / 2000, 2, some 20000101, none⟩, ⟨.trend, 2, 0, 3 / 2000, 2, none, none⟩, ⟨.static, 180, 180, 3 / 2000, 2, none, none⟩]

theorem exGfc180_ok (t : Int) : exGfc180.OkAt exCal t 180 where
  header := by
    refine .gives (plain_of (by decide) (by decide) (by decide)) ⟨"180".toList, [], ⟨0, 0, rfl, by decide, by decide⟩, 0, ⟨false, "180".toList⟩,
      ⟨by decide, by decide⟩, by decide, rfl, by simp, by decide, by decide⟩ ?_
    refine .gives (plain_of (by decide) (by decide) (by decide)) ⟨"formal".toList, ⟨0, 0, rfl, by decide, by decide⟩, [], rfl, by simp⟩ ?_
    refine .gives (plain_of (by decide) (by decide) (by decide)) ⟨"3.986004418e14".toList, ⟨0, 0, rfl, by decide, by decide⟩,
      ⟨false, ['3'], some "986004418".toList, some ('e', none, ['1', '4'])⟩, [], Dec.ok_of (by decide), by decide +kernel, by decide,
      by unfold Ends; decide⟩ ?_
    refine .gives (plain_of (by decide) (by decide) (by decide)) ⟨"6378136.6".toList, ⟨0, 0, rfl, by decide, by decide⟩,
      ⟨false, "6378136".toList, some ['6'], none⟩, [], Dec.ok_of (by decide), by decide +kernel, by decide, by unfold Ends; decide⟩ .nil
  short := by simp [exGfc180]
  errors := rfl
  tail := by simp [exGfc180]
  one := by simp [exGfc180]
  lines := by
    rw [if_neg (show ¬ (exGfc180.isV2 = true) from show ¬ (false = true) by decide)]
    refine .cons line_gfct20 (.cons line_trnd20 (.cons ⟨by decide, _, fortran_refl _, noFortran_of (by decide),
        Line1.gfc (cal := exCal) (line := " 180 180 1.5e-3 2.0".toList) (rest := []) ?_⟩ .nil))
    exact ⟨" 180 1.5e-3 2.0".toList, " 1.5e-3 2.0".toList, " 2.0".toList,
      ⟨[' '], ⟨false, "180".toList⟩, by decide, ⟨by decide, by decide⟩, rfl, rfl, by simp [isDig], by decide, by decide⟩,
      ⟨[' '], ⟨false, "180".toList⟩, by decide, ⟨by decide, by decide⟩, rfl, rfl, by simp [isDig], by decide, by decide⟩,
      ⟨[' '], ⟨false, ['1'], some ['5'], some ('e', some true, ['3'])⟩, by decide, Dec.ok_of (by decide), by decide +kernel, rfl,
        fun _ => by simp [Ends, isDig]⟩,
      ⟨[' '], ⟨false, ['2'], some ['0'], none⟩, by decide, Dec.ok_of (by decide), by decide +kernel, rfl, fun _ => by simp [Ends]⟩⟩
  triangle := by simp [exGfc180]
  periods := by
    intro r hr p hp
    simp only [exGfc180, List.mem_cons, List.not_mem_nil, or_false] at hr
    rcases hr with rfl | rfl | rfl <;> rcases hp with h | h <;> cases h
  grouped := by
    intro _ i r hi hw h1 h2
    match i with
    | 0 => simp [exGfc180] at hi; subst hi; exact absurd rfl h2
    | 1 =>
      simp [exGfc180] at hi
      subst hi
      exact ⟨⟨.ref, 2, 0, 3 / 2000, 2, some 20000101, none⟩, by simp [exGfc180, Icgem.Within], rfl, rfl⟩
    | 2 => simp [exGfc180] at hi; subst hi; exact absurd rfl h1
    | n + 3 => simp [exGfc180] at hi
  calendar h := by cases (show false = true from h)
  degree := le_rfl

/-- The hypotheses of `check_field_partial` and `check_field_itrf_partial` are met, at any epoch. -/
theorem exField (t : Int) : FieldFile exGfc180 exCal t where
  ok := exGfc180_ok t
  full := by
    have hu : exGfc180.UsedAt t 180 ⟨.static, 180, 180, 3 / 2000, 2, none, none⟩ := ⟨le_rfl, le_rfl, fun h => by cases (show false = true from h)⟩
    exact ⟨⟨_, by simp [exGfc180], hu, rfl⟩, _, by simp [exGfc180], hu, rfl⟩
  gm := by show (0 : ℚ) ≤ 3.986004418e14; norm_num
  radius := by show (0 : ℚ) < 6378136.6; norm_num

/-- The coefficient of degree 2 varies with the epoch. -/
example (t : Int) : exGfc180.coeffAt exCal t Record.C 2 0 = 3 / 2000 + 3 / 2000 * (((t - 20000101 : Int) : ℝ) / 10000) := by
  unfold Gfc.coeffAt
  rw [if_neg (show ¬ (exGfc180.isV2 = true) from show ¬ (false = true) by decide)]
  simp [total, exGfc180, List.range_succ, factor1, epoch1, Kind.factor, exCal]

example (junkErr : ErrorModel) (junk : Entry Int × (Nat → Nat → ℝ)) (W M : Epoch → Int → ℝ) (junkO junkR : Fin 10 → ℚ) (junkA : Fin 4 → ℚ) :=
  check_field_partial (cal := exCal) (at_ := fun e => e.1) (exField _) exOrbit_table exAcc_table exRot_table (by decide +kernel) (by decide +kernel)
    (by
      intro o ho
      simp only [List.mem_cons, List.not_mem_nil, or_false] at ho
      rcases ho with rfl | rfl <;> exact three_ne (by decide +kernel)) junkErr junk W M junkO junkR junkA

/-- A model of degree 2 is not accepted. -/
example (junkErr : ErrorModel) (junk : Entry Int × (Nat → Nat → ℝ)) (W M : Epoch → Int → ℝ) (junkO junkR : Fin 10 → ℚ) (junkA : Fin 4 → ℚ) :
    checkField exCal (fun e => e.1) junkErr junk W M junkO junkR junkA (some exOrbit) (some exRot) (some exGfc2.text) (some exAcc) = .ok 1 :=
  (check_field_rejects exGfc2_ok.header exGfc2_ok.short exGfc2_ok.errors exGfc2_ok.one exGfc2_ok.tail (by decide) exOrbit_table exAcc_table exRot_table
    junkErr junk W M junkO junkR junkA).1

example (junkErr : ErrorModel) (junk : Entry Int × (Nat → Nat → ℝ)) (W M : Epoch → Int → ℝ) (junkO : Fin 10 → ℚ) (junkA : Fin 4 → ℚ) :=
  check_field_itrf_partial (cal := exCal) (at_ := fun e => e.1) (exField _) exOrbit_table exAcc_table (by decide +kernel)
    (by
      intro o ho
      simp only [List.mem_cons, List.not_mem_nil, or_false] at ho
      rcases ho with rfl | rfl <;> exact three_ne (by decide +kernel)) junkErr junk W M junkO junkA

end Verif.Costg
