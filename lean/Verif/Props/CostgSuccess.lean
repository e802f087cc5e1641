import Verif.Spec.CostgSuccess
import Verif.Model.CostgAtm
import Verif.Model.CostgSolid
import Verif.Model.CostgField
import Verif.Model.CostgAod
import Verif.Proof.MatrixKept
import Verif.Props.CostgAccept
/-
C90, C94-C98: exit status 0 means that everything was read and that every row agrees.
-/
namespace Verif.Costg
open Verif MatrixKept

theorem passed_cons {σ ρ : Type} {f : σ → Orbit → ρ → Res (σ × V3)} {at_ : ρ → Epoch} {tol : ℝ} {s s' : σ} {o : Orbit} {os : List Orbit} {q : ρ}
    {qs : List ρ} {r : Acc} {rs : List Acc} {v : V3} (h1 : at_ q = o.epoch) (h2 : r.epoch = o.epoch) (h3 : f s o q = .ok (s', v))
    (h4 : Near tol r.axyz v) (h : Passed f at_ tol s' os qs rs) : Passed f at_ tol s (o :: os) (q :: qs) (r :: rs) := by
  obtain ⟨ss, g, h0, h⟩ := h
  refine ⟨fun | 0 => s | i + 1 => ss i, fun | 0 => v | i + 1 => g i, rfl, ?_⟩
  intro i o' ho
  cases i with
  | zero =>
    simp only [List.getElem?_cons_zero, Option.some.injEq] at ho
    subst ho
    exact ⟨q, r, rfl, rfl, h1, h2, by show f s o q = .ok (ss 0, v); rw [h0]; exact h3, h4⟩
  | succ i =>
    simp only [List.getElem?_cons_succ] at ho
    exact h i o' ho

theorem passed_nil {σ ρ : Type} {f : σ → Orbit → ρ → Res (σ × V3)} {at_ : ρ → Epoch} {tol : ℝ} {s : σ} {qs : List ρ} {rs : List Acc} :
    Passed f at_ tol s [] qs rs := ⟨fun _ => s, fun _ => 0, rfl, by intro i o h; simp at h⟩

/-- The loop with rotations. -/
theorem accept_success {σ : Type} (f : σ → Orbit → Res (σ × Option V3)) (tol : ℝ) : ∀ (os : List Orbit) (s : σ) (qs : List (Epoch × M3)) (as : List Acc),
    accept f tol s os qs as = .ok 0 → Passed (turned f) Prod.fst tol s os qs as
  | [], _, _, _, _ => passed_nil
  | o :: os, s, qs, as, h => by
    unfold accept at h
    obtain ⟨⟨s', a⟩, h1, h⟩ := Res.bind_eq h
    cases a with
    | none => simp at h
    | some a =>
      simp only at h
      cases qs with
      | nil => cases h
      | cons q qs =>
        simp only at h
        split at h
        · cases h
        rename_i hq
        cases as with
        | nil => cases h
        | cons r rs =>
          simp only at h
          split at h
          · simp at h
          rename_i hr
          split at h
          · cases h
          rename_i hx
          split at h
          · cases h
          rename_i hy
          split at h
          · cases h
          rename_i hz
          refine passed_cons (not_not.mp hq) (not_not.mp hr) ?_ ⟨not_not.mp hx, not_not.mp hy, not_not.mp hz⟩ (accept_success f tol os s' qs rs h)
          unfold turned
          rw [h1]
          rfl

/-- The loop without rotations. -/
theorem acceptItrf_success {σ : Type} (f : σ → Orbit → Res (σ × Option V3)) (tol : ℝ) : ∀ (os : List Orbit) (s : σ) (as : List Acc),
    acceptItrf f tol s os as = .ok 0 → Passed (plain f) id tol s os
      (os.map (·.epoch)) as
  | [], _, _, _ => passed_nil
  | o :: os, s, as, h => by
    unfold acceptItrf at h
    obtain ⟨⟨s', a⟩, h1, h⟩ := Res.bind_eq h
    cases a with
    | none => simp at h
    | some a =>
      simp only at h
      cases as with
      | nil => cases h
      | cons r rs =>
        simp only at h
        split at h
        · simp at h
        rename_i hr
        split at h
        · cases h
        rename_i hx
        split at h
        · cases h
        rename_i hy
        split at h
        · cases h
        rename_i hz
        refine passed_cons rfl (not_not.mp hr) ?_ ⟨not_not.mp hx, not_not.mp hy, not_not.mp hz⟩ (acceptItrf_success f tol os s' rs h)
        unfold plain
        rw [h1]
        rfl

/-- The loop with positions rotated before. -/
theorem acceptRot_success {σ : Type} (f : σ → Orbit → M3 → Res (σ × (Int ⊕ V3))) (hf : ∀ s o R s', f s o R ≠ .ok (s', .inl 0)) (tol : ℝ) :
    ∀ (os : List Orbit) (s : σ) (qs : List (Epoch × M3)) (as : List Acc), acceptRot f tol s os qs as = .ok 0 →
      Passed (rotated f) Prod.fst tol s os qs as
  | [], _, _, _, _ => passed_nil
  | o :: os, s, qs, as, h => by
    unfold acceptRot at h
    cases qs with
    | nil => cases h
    | cons q qs =>
      simp only at h
      split at h
      · cases h
      rename_i hq
      obtain ⟨⟨s', a⟩, h1, h⟩ := Res.bind_eq h
      cases a with
      | inl st =>
        simp only [Res.ok.injEq] at h
        subst h
        exact absurd h1 (hf _ _ _ _)
      | inr a =>
        simp only at h
        cases as with
        | nil => cases h
        | cons r rs =>
          simp only at h
          split at h
          · simp at h
          rename_i hr
          split at h
          · cases h
          rename_i hx
          split at h
          · cases h
          rename_i hy
          split at h
          · cases h
          rename_i hz
          refine passed_cons (not_not.mp hq) (not_not.mp hr) ?_ ⟨not_not.mp hx, not_not.mp hy, not_not.mp hz⟩ (acceptRot_success f hf tol os s' qs rs h)
          unfold rotated
          rw [h1]
          rfl

variable {σ : Type}

/-- C94, C96: a check of tides ends with status 0 only if the orbit has rows, the tables and the Earth orientation of the days around its first epoch
were read, the model was made, and the benchmark has a row for every epoch that agrees within 1e-11 m/s² with what was computed. A file that cannot be
read, or a model that cannot be made, is never success. -/
theorem check_tide_success {K : TideObj σ} {tt dat : ℚ → ℚ} {make : Res (Option σ)} {n : Int} {W M : Epoch → Int → ℝ} {junkO junkR : Fin 10 → ℚ}
    {junkA : Fin 4 → ℚ} {junkE : List ℚ} {orbit acc rot : Option (List Char)} {eop : Option (List (List Char))}
    (h : checkTide K tt dat make n W M junkO junkR junkA junkE orbit acc rot eop = .ok 0) :
    ∃ o os as qs eops oc, parseOrbit junkO orbit = .ok (o :: os) ∧ parseAcc junkA acc = .ok as ∧ parseRotary junkR rot = .ok qs ∧
      Eop.parseC04 tt dat junkE eop (o.epoch.1 - 2) (o.epoch.1 + 3) Eop.Series.new = .ok (0, eops) ∧ make = .ok (some oc) ∧
      Passed (turned (tideStep K dat n W M)) Prod.fst 1e-11 (oc, eops) (o :: os) qs as := by
  unfold checkTide at h
  obtain ⟨os, h1, h⟩ := Res.bind_eq h
  obtain ⟨as, h2, h⟩ := Res.bind_eq h
  obtain ⟨qs, h3, h⟩ := Res.bind_eq h
  cases os with
  | nil => cases h
  | cons o os =>
    simp only at h
    obtain ⟨⟨st, eops⟩, h4, h⟩ := Res.bind_eq h
    simp only at h
    split at h
    · simp at h
    rename_i hst
    obtain ⟨oc, h5, h⟩ := Res.bind_eq h
    cases oc with
    | none => simp at h
    | some oc =>
      have hst := not_not.mp hst
      subst hst
      exact ⟨o, os, as, qs, eops, oc, h1, h2, h3, h4, h5, accept_success _ _ _ _ _ _ h⟩

theorem solidStep_status (sp : Planets.Spice) (dat : ℚ → ℚ) (W M : Epoch → Int → ℝ) (s : SolidState) (o : Orbit) (R : M3) (s' : SolidState) :
    solidStep sp dat W M s o R ≠ .ok (s', .inl 0) := by
  intro h
  unfold solidStep at h
  obtain ⟨⟨st, sun⟩, -, h⟩ := Res.bind_eq h
  simp only at h
  split at h
  · simp at h
  obtain ⟨⟨st, moon⟩, -, h⟩ := Res.bind_eq h
  simp only at h
  split at h
  · simp at h
  obtain ⟨⟨_, dut1, eop⟩, -, h⟩ := Res.bind_eq h
  obtain ⟨t, -, h⟩ := Res.bind_eq h
  obtain ⟨r, -, h⟩ := Res.bind_eq h
  simp at h

/-- C97: likewise for the check of the solid Earth tide. -/
theorem check_solid_success {sp : Planets.Spice} {tt dat : ℚ → ℚ} {junkS : (Nat → Nat → ℝ) × (Nat → Nat → ℝ)} {v : V3 × V3 × V3}
    {W M : Epoch → Int → ℝ} {junkO junkR : Fin 10 → ℚ} {junkA : Fin 4 → ℚ} {junkE : List ℚ} {orbit acc rot : Option (List Char)}
    {eop : Option (List (List Char))} (h : checkSolid sp tt dat junkS v W M junkO junkR junkA junkE orbit acc rot eop = .ok 0) :
    ∃ o os as qs eops, parseOrbit junkO orbit = .ok (o :: os) ∧ parseAcc junkA acc = .ok as ∧ parseRotary junkR rot = .ok qs ∧
      Eop.parseC04 tt dat junkE eop (o.epoch.1 - 2) (o.epoch.1 + 3) Eop.Series.new = .ok (0, eops) ∧
      Passed (rotated (solidStep sp dat W M)) Prod.fst 1e-11
        ⟨SolidTide.Tide.make junkS.1 junkS.2 3.986004418e14 6378136.6 gmSun gmMoon, eops, v.1, v.2.1, v.2.2⟩ (o :: os) qs as := by
  unfold checkSolid at h
  obtain ⟨os, h1, h⟩ := Res.bind_eq h
  obtain ⟨as, h2, h⟩ := Res.bind_eq h
  obtain ⟨qs, h3, h⟩ := Res.bind_eq h
  cases os with
  | nil => cases h
  | cons o os =>
    simp only at h
    obtain ⟨⟨st, eops⟩, h4, h⟩ := Res.bind_eq h
    simp only at h
    split at h
    · simp at h
    rename_i hst
    have hst := not_not.mp hst
    subst hst
    exact ⟨o, os, as, qs, eops, h1, h2, h3, h4, acceptRot_success _ (solidStep_status sp dat W M) _ _ _ _ _ h⟩

section
variable {T : Type} [LinearOrder T]

theorem fieldModel_some {cal : Icgem.Cal T} {at_ : Epoch → T} {junkErr : Icgem.ErrorModel} {junkG : Icgem.Entry T × (Nat → Nat → ℝ)}
    {model : Option (List Char)} {os : List Orbit} {r : Int ⊕ Coeffs ℝ} (h : fieldModel cal at_ junkErr junkG model os = .ok r) :
    (r = .inl 1) ∨ ∃ o os' c, os = o :: os' ∧ r = .inr c ∧
      Icgem.Head.readFile cal model junkErr junkG 180 180 (at_ o.epoch) noCoeffs = .ok (0, c) ∧ c.deg = 180 ∧ c.ord = 180 := by
  unfold fieldModel at h
  cases os with
  | nil => cases h
  | cons o os =>
    simp only at h
    obtain ⟨⟨st, c⟩, h1, h⟩ := Res.bind_eq h
    simp only at h
    split at h
    · simp only [Res.ok.injEq] at h; exact Or.inl h.symm
    rename_i hst
    split at h
    · cases h
    rename_i hd
    split at h
    · cases h
    rename_i ho
    simp only [Res.ok.injEq] at h
    have hst := not_not.mp hst
    subst hst
    exact Or.inr ⟨o, os, c, rfl, h.symm, h1, not_not.mp hd, not_not.mp ho⟩

/-- C95: likewise for the check of the gravity field in the celestial frame; the model has degree and order 180. -/
theorem check_field_success {cal : Icgem.Cal T} {at_ : Epoch → T} {junkErr : Icgem.ErrorModel} {junkG : Icgem.Entry T × (Nat → Nat → ℝ)}
    {W M : Epoch → Int → ℝ} {junkO junkR : Fin 10 → ℚ} {junkA : Fin 4 → ℚ} {orbit rot model acc : Option (List Char)}
    (h : checkField cal at_ junkErr junkG W M junkO junkR junkA orbit rot model acc = .ok 0) :
    ∃ o os as qs c, parseOrbit junkO orbit = .ok (o :: os) ∧ parseAcc junkA acc = .ok as ∧ parseRotary junkR rot = .ok qs ∧
      Icgem.Head.readFile cal model junkErr junkG 180 180 (at_ o.epoch) noCoeffs = .ok (0, c) ∧ c.deg = 180 ∧ c.ord = 180 ∧
      Passed (turned (fieldStep W M)) Prod.fst 1e-13 c (o :: os) qs as := by
  unfold checkField at h
  obtain ⟨os, h1, h⟩ := Res.bind_eq h
  obtain ⟨qs, h2, h⟩ := Res.bind_eq h
  obtain ⟨as, h3, h⟩ := Res.bind_eq h
  obtain ⟨r, h4, h⟩ := Res.bind_eq h
  rcases fieldModel_some h4 with rfl | ⟨o, os', c, rfl, rfl, h5, h6, h7⟩
  · simp at h
  · exact ⟨o, os', as, qs, c, h1, h3, h2, h5, h6, h7, accept_success _ _ _ _ _ _ h⟩

/-- C95: likewise in the terrestrial frame. -/
theorem check_field_itrf_success {cal : Icgem.Cal T} {at_ : Epoch → T} {junkErr : Icgem.ErrorModel} {junkG : Icgem.Entry T × (Nat → Nat → ℝ)}
    {W M : Epoch → Int → ℝ} {junkO : Fin 10 → ℚ} {junkA : Fin 4 → ℚ} {orbit model acc : Option (List Char)}
    (h : checkFieldItrf cal at_ junkErr junkG W M junkO junkA orbit model acc = .ok 0) :
    ∃ o os as c, parseOrbit junkO orbit = .ok (o :: os) ∧ parseAcc junkA acc = .ok as ∧
      Icgem.Head.readFile cal model junkErr junkG 180 180 (at_ o.epoch) noCoeffs = .ok (0, c) ∧ c.deg = 180 ∧ c.ord = 180 ∧
      Passed (plain (fieldStep W M)) id 1e-11 c (o :: os)
        ((o :: os).map (·.epoch)) as := by
  unfold checkFieldItrf at h
  obtain ⟨os, h1, h⟩ := Res.bind_eq h
  obtain ⟨as, h3, h⟩ := Res.bind_eq h
  obtain ⟨r, h4, h⟩ := Res.bind_eq h
  rcases fieldModel_some h4 with rfl | ⟨o, os', c, rfl, rfl, h5, h6, h7⟩
  · simp at h
  · exact ⟨o, os', as, c, h1, h3, h5, h6, h7, acceptItrf_success _ _ _ _ _ h⟩

end

section
variable {T : Type} [DecidableEq T]

/-- C96: the waves are all read, or the check does not end with success. -/
theorem appendAll_success {E : Aod1b.Head.Env T} {junk : Nat → Nat → ℝ} {disk : List Char → Option (List Char)} : ∀ {waves : List (List Char)}
    {x x' : Tide.Atm}, appendAll E junk disk waves x = .ok (some x') →
      ∃ xs : Nat → Tide.Atm, xs 0 = x ∧ xs waves.length = x' ∧ ∀ i f, waves[i]? = some f →
        (xs i).appendFile E junk f (disk f) 180 180 = .ok (0, xs (i + 1))
  | [], x, x', h => by
    simp only [appendAll, Res.ok.injEq, Option.some.injEq] at h
    subst h
    exact ⟨fun _ => x, rfl, rfl, by intro i f h; simp at h⟩
  | f :: fs, x, x', h => by
    unfold appendAll at h
    obtain ⟨⟨st, y⟩, h1, h⟩ := Res.bind_eq h
    simp only at h
    split at h
    · simp at h
    rename_i hst
    have hst := not_not.mp hst
    subst hst
    obtain ⟨xs, e0, e1, e2⟩ := appendAll_success h
    refine ⟨fun | 0 => x | i + 1 => xs i, rfl, e1, ?_⟩
    intro i g hg
    cases i with
    | zero =>
      simp only [List.getElem?_cons_zero, Option.some.injEq] at hg
      subst hg
      show x.appendFile E junk f (disk f) 180 180 = .ok (0, xs 0)
      rw [e0]
      exact h1
    | succ i =>
      simp only [List.getElem?_cons_succ] at hg
      exact e2 i g hg
end

section
variable {T : Type} [LinearOrder T]

/-- C98: likewise for the check of the dealiasing; what the initialisation of the stream answers does not matter. -/
theorem check_aod_success {D : Aod1b.World T} {at_ : Epoch → T} {W M : Epoch → Int → ℝ} {junkO junkR : Fin 10 → ℚ} {junkA : Fin 4 → ℚ}
    {orbit : Option (List Char)} {fn : List Char} {acc rot : Option (List Char)} {dir : List Char}
    (h : checkAod D at_ W M junkO junkR junkA orbit fn acc rot dir = .ok 0) :
    ∃ os as qs d0 st d f gm re c, parseOrbit junkO orbit = .ok os ∧ parseAcc junkA acc = .ok as ∧ parseRotary junkR rot = .ok qs ∧
      D.newStream fn dir = .ok d0 ∧ Aod1b.Ds.init (D.env .glo dir) d0 = .ok (st, d) ∧ D.openFile fn = .ok f ∧ f.1.gm = some gm ∧ f.1.re = some re ∧
      D.newSet 180 gm re = .ok c ∧ Passed (turned (aodStep (D.env .glo dir) at_ W M)) Prod.fst 1e-11 (d, c) os qs as := by
  unfold checkAod at h
  obtain ⟨os, h1, h⟩ := Res.bind_eq h
  obtain ⟨as, h2, h⟩ := Res.bind_eq h
  obtain ⟨qs, h3, h⟩ := Res.bind_eq h
  obtain ⟨d0, h4, h⟩ := Res.bind_eq h
  obtain ⟨⟨st, d⟩, h5, h⟩ := Res.bind_eq h
  obtain ⟨⟨f, f'⟩, h6, h⟩ := Res.bind_eq h
  simp only at h
  split at h
  · rename_i gm re hg hr
    obtain ⟨c, h7, h⟩ := Res.bind_eq h
    exact ⟨os, as, qs, d0, st, d, _, gm, re, c, h1, h2, h3, h4, h5, h6, hg, hr, h7, accept_success _ _ _ _ _ _ h⟩
  · cases h

/-- C98: and at every epoch of the orbit the stream gave coefficients; an epoch it does not cover is never success. -/
theorem check_aod_covered {D : Aod1b.World T} {at_ : Epoch → T} {W M : Epoch → Int → ℝ} {junkO junkR : Fin 10 → ℚ} {junkA : Fin 4 → ℚ}
    {orbit : Option (List Char)} {fn : List Char} {acc rot : Option (List Char)} {dir : List Char}
    (h : checkAod D at_ W M junkO junkR junkA orbit fn acc rot dir = .ok 0) :
    ∃ os, parseOrbit junkO orbit = .ok os ∧ ∀ o ∈ os, ∃ d c d' c', Aod1b.Ds.coeffsAt (D.env .glo dir) (at_ o.epoch) d c = .ok (0, d', c') := by
  obtain ⟨os, as, qs, d0, st, d, f, gm, re, c, h1, -, -, -, -, -, -, -, -, ss, g, -, hp⟩ := check_aod_success h
  refine ⟨os, h1, fun o ho => ?_⟩
  obtain ⟨i, hi⟩ := List.getElem?_of_mem ho
  obtain ⟨q, r, -, -, -, -, hs, -⟩ := hp i o hi
  unfold turned at hs
  obtain ⟨⟨s', a⟩, hs, ht⟩ := Res.bind_eq hs
  cases a with
  | none => cases ht
  | some a =>
    unfold aodStep at hs
    obtain ⟨⟨st, d', c'⟩, hc, hs⟩ := Res.bind_eq hs
    simp only at hs
    split at hs
    · simp at hs
    rename_i hst
    have hst := not_not.mp hst
    subst hst
    exact ⟨_, _, d', c', hc⟩

end

/-- The loop that prints, without rotations. -/
theorem compare_success (f : Orbit → Res (Int ⊕ V3)) (hf : ∀ o, f o ≠ .ok (.inl 0)) : ∀ (os : List Orbit) (as : List Acc) (ls : List Line),
    compare f os as = .ok (0, ls) → ls.length = os.length ∧ os.map (·.epoch) <+: as.map (·.epoch) ∧
      ∀ (i : Nat) o r, os[i]? = some o → as[i]? = some r → ∃ a, f o = .ok (.inr a) ∧ ls[i]? = some ⟨o.epoch, r.axyz, a⟩
  | [], as, ls, h => by
    simp only [compare, Res.ok.injEq, Prod.mk.injEq, true_and] at h
    subst h
    simp
  | o :: os, as, ls, h => by
    unfold compare at h
    obtain ⟨x, h1, h⟩ := Res.bind_eq h
    cases x with
    | inl st =>
      simp only [Res.ok.injEq, Prod.mk.injEq] at h
      obtain ⟨rfl, -⟩ := h
      exact absurd h1 (hf _)
    | inr a =>
      cases as with
      | nil => cases h
      | cons r rs =>
        simp only at h
        split at h
        · simp at h
        rename_i hr
        obtain ⟨⟨st, ls'⟩, h2, h⟩ := Res.bind_eq h
        simp only [Res.ok.injEq, Prod.mk.injEq] at h
        obtain ⟨rfl, rfl⟩ := h
        obtain ⟨i1, i2, i3⟩ := compare_success f hf os rs ls' h2
        refine ⟨by simp [i1], ?_, ?_⟩
        · simp only [List.map_cons, List.cons_prefix_cons]
          exact ⟨(not_not.mp hr).symm, i2⟩
        · intro i o' r' k1 k2
          cases i with
          | zero =>
            simp only [List.getElem?_cons_zero, Option.some.injEq] at k1 k2
            subst k1 k2
            exact ⟨a, h1, rfl⟩
          | succ i => exact i3 i o' r' (by simpa using k1) (by simpa using k2)

theorem thirdBody_status (sp : Planets.Spice) (p : Planets.Planet) (GM : ℝ) (old : V3) (o : Orbit) : thirdBody sp p GM old o ≠ .ok (.inl 0) := by
  intro h
  unfold thirdBody at h
  obtain ⟨⟨st, r⟩, -, h⟩ := Res.bind_eq h
  simp only at h
  split at h <;> simp at h

theorem thirdBody_value {sp : Planets.Spice} {p : Planets.Planet} {GM : ℝ} {old : V3} {o : Orbit} {a : V3} (h : thirdBody sp p GM old o = .ok (.inr a)) :
    ∃ r, Planets.planetPos sp p (ttOf o.epoch) old = .ok (0, r) ∧ a = (PointMass.accJ o.xyz r GM).1 := by
  unfold thirdBody at h
  obtain ⟨⟨st, r⟩, h1, h⟩ := Res.bind_eq h
  simp only at h
  split at h
  · simp at h
  rename_i hst
  have hst := not_not.mp hst
  subst hst
  simp only [Res.ok.injEq, Sum.inr.injEq] at h
  exact ⟨r, h1, h.symm⟩

/-- C90: the printing program for Sun or Moon ends with status 0 only if the tables were read, the benchmark has a row for every epoch of the orbit, and
the ephemeris gave the position of the body at every epoch; each line is then the one of the benchmark with the acceleration by the body at that
position. -/
theorem check_body_success {sp : Planets.Spice} {p : Planets.Planet} {GM : ℝ} {junkO : Fin 10 → ℚ} {junkA : Fin 4 → ℚ} {old : V3}
    {orbit acc : Option (List Char)} {ls : List Line} (h : checkBody sp p GM junkO junkA old orbit acc = .ok (0, ls)) :
    ∃ os as, parseOrbit junkO orbit = .ok os ∧ parseAcc junkA acc = .ok as ∧ ls.length = os.length ∧ os.map (·.epoch) <+: as.map (·.epoch) ∧
      ∀ (i : Nat) o r, os[i]? = some o → as[i]? = some r → ∃ b, Planets.planetPos sp p (ttOf o.epoch) old = .ok (0, b) ∧
        ls[i]? = some ⟨o.epoch, r.axyz, (PointMass.accJ o.xyz b GM).1⟩ := by
  unfold checkBody at h
  obtain ⟨os, h1, h⟩ := Res.bind_eq h
  obtain ⟨as, h2, h⟩ := Res.bind_eq h
  obtain ⟨k1, k2, k3⟩ := compare_success _ (thirdBody_status sp p GM old) os as ls h
  refine ⟨os, as, h1, h2, k1, k2, fun i o r ho hr => ?_⟩
  obtain ⟨a, ha, hl⟩ := k3 i o r ho hr
  obtain ⟨b, hb, rfl⟩ := thirdBody_value ha
  exact ⟨b, hb, hl⟩

/-- C90: likewise the test, every component being within the tolerance. -/
theorem accept_body_success {sp : Planets.Spice} {p : Planets.Planet} {GM : ℝ} {junkO : Fin 10 → ℚ} {junkA : Fin 4 → ℚ} {old : V3}
    {orbit acc : Option (List Char)} (h : acceptBody sp p GM junkO junkA old orbit acc = .ok 0) :
    ∃ os as, parseOrbit junkO orbit = .ok os ∧ parseAcc junkA acc = .ok as ∧ os.map (·.epoch) <+: as.map (·.epoch) ∧
      ∀ (i : Nat) o r, os[i]? = some o → as[i]? = some r → ∃ b, Planets.planetPos sp p (ttOf o.epoch) old = .ok (0, b) ∧
        Agrees 1e-11 r.axyz (PointMass.accJ o.xyz b GM).1 := by
  unfold acceptBody at h
  obtain ⟨os, h1, h⟩ := Res.bind_eq h
  obtain ⟨as, h2, h⟩ := Res.bind_eq h
  obtain ⟨k2, k3⟩ := compareTol_success _ _ (thirdBody_status sp p GM old) os as h
  refine ⟨os, as, h1, h2, k2, fun i o r ho hr => ?_⟩
  obtain ⟨a, ha, hl⟩ := k3 i o r ho hr
  obtain ⟨b, hb, rfl⟩ := thirdBody_value ha
  exact ⟨b, hb, hl⟩

theorem relativistic_status (sp : Planets.Spice) (junk : List Nat) (old : V3 × V3) (o : Orbit) : relativistic sp junk old o ≠ .ok (.inl 0) := by
  intro h
  unfold relativistic at h
  obtain ⟨⟨st, r, v⟩, -, h⟩ := Res.bind_eq h
  simp only at h
  split at h <;> simp at h

theorem relativistic_value {sp : Planets.Spice} {junk : List Nat} {old : V3 × V3} {o : Orbit} {a : V3} (h : relativistic sp junk old o = .ok (.inr a)) :
    ∃ r v, Planets.planetState sp junk .sun (ttOf o.epoch) old = .ok (0, r, v) ∧
      a = Relativity.acceleration ⟨o.xyz, o.vxyz⟩ ⟨r, v⟩ 3.986004418e14 1.32712442099e20 9.8e8 299792458 1 1 := by
  unfold relativistic at h
  obtain ⟨⟨st, r, v⟩, h1, h⟩ := Res.bind_eq h
  simp only at h
  split at h
  · simp at h
  rename_i hst
  have hst := not_not.mp hst
  subst hst
  simp only [Res.ok.injEq, Sum.inr.injEq] at h
  exact ⟨r, v, h1, h.symm⟩

/-- C90: likewise the relativistic acceleration, printed. -/
theorem check_relativity_success {sp : Planets.Spice} {junk : List Nat} {junkO : Fin 10 → ℚ} {junkA : Fin 4 → ℚ} {old : V3 × V3}
    {orbit acc : Option (List Char)} {ls : List Line} (h : checkRelativity sp junk junkO junkA old orbit acc = .ok (0, ls)) :
    ∃ os as, parseOrbit junkO orbit = .ok os ∧ parseAcc junkA acc = .ok as ∧ ls.length = os.length ∧ os.map (·.epoch) <+: as.map (·.epoch) ∧
      ∀ (i : Nat) o r, os[i]? = some o → as[i]? = some r → ∃ b v, Planets.planetState sp junk .sun (ttOf o.epoch) old = .ok (0, b, v) ∧
        ls[i]? = some ⟨o.epoch, r.axyz, Relativity.acceleration ⟨o.xyz, o.vxyz⟩ ⟨b, v⟩ 3.986004418e14 1.32712442099e20 9.8e8 299792458 1 1⟩ := by
  unfold checkRelativity at h
  obtain ⟨os, h1, h⟩ := Res.bind_eq h
  obtain ⟨as, h2, h⟩ := Res.bind_eq h
  obtain ⟨k1, k2, k3⟩ := compare_success _ (relativistic_status sp junk old) os as ls h
  refine ⟨os, as, h1, h2, k1, k2, fun i o r ho hr => ?_⟩
  obtain ⟨a, ha, hl⟩ := k3 i o r ho hr
  obtain ⟨b, v, hb, rfl⟩ := relativistic_value ha
  exact ⟨b, v, hb, hl⟩

/-- C90: and tested. -/
theorem accept_relativity_success {sp : Planets.Spice} {junk : List Nat} {junkO : Fin 10 → ℚ} {junkA : Fin 4 → ℚ} {old : V3 × V3}
    {orbit acc : Option (List Char)} (h : acceptRelativity sp junk junkO junkA old orbit acc = .ok 0) :
    ∃ os as, parseOrbit junkO orbit = .ok os ∧ parseAcc junkA acc = .ok as ∧ os.map (·.epoch) <+: as.map (·.epoch) ∧
      ∀ (i : Nat) o r, os[i]? = some o → as[i]? = some r → ∃ b v, Planets.planetState sp junk .sun (ttOf o.epoch) old = .ok (0, b, v) ∧
        Agrees 1e-11 r.axyz (Relativity.acceleration ⟨o.xyz, o.vxyz⟩ ⟨b, v⟩ 3.986004418e14 1.32712442099e20 9.8e8 299792458 1 1) := by
  unfold acceptRelativity at h
  obtain ⟨os, h1, h⟩ := Res.bind_eq h
  obtain ⟨as, h2, h⟩ := Res.bind_eq h
  obtain ⟨k2, k3⟩ := compareTol_success _ _ (relativistic_status sp junk old) os as h
  refine ⟨os, as, h1, h2, k2, fun i o r ho hr => ?_⟩
  obtain ⟨a, ha, hl⟩ := k3 i o r ho hr
  obtain ⟨b, v, hb, rfl⟩ := relativistic_value ha
  exact ⟨b, v, hb, hl⟩

/-- The tests with rotations and Earth orientation. -/
theorem compareRotTol_success {σ : Type} (f : σ → Orbit → Eops → Res (σ × Option V3)) (tol : ℝ) : ∀ (os : List Orbit) (s : σ) (es : List Eops)
    (qs : List (Epoch × M3)) (as : List Acc), compareRotTol tol f s os es qs as = .ok 0 →
      os.map (·.epoch) <+: es.map (·.epoch) ∧ Passed (fun s o p => turned (fun s o => f s o p.1) s o p.2) (·.2.1) tol s os (es.zip qs) as
  | [], _, _, _, _, _ => ⟨by simp, passed_nil⟩
  | o :: os, s, es, qs, as, h => by
    unfold compareRotTol at h
    cases es with
    | nil => cases h
    | cons e es =>
      simp only at h
      split at h
      · cases h
      rename_i he
      obtain ⟨⟨s', a⟩, h1, h⟩ := Res.bind_eq h
      cases a with
      | none => simp at h
      | some a =>
        simp only at h
        cases qs with
        | nil => cases h
        | cons q qs =>
          simp only at h
          split at h
          · cases h
          rename_i hq
          cases as with
          | nil => cases h
          | cons r rs =>
            simp only at h
            split at h
            · simp at h
            rename_i hr
            obtain ⟨a1, a2⟩ := asserts_eq tol r.axyz (q.2.transpose * a) (compareRotTol tol f s' os es qs rs)
            by_cases ha : Agrees tol r.axyz (q.2.transpose * a)
            · rw [a1 ha] at h
              obtain ⟨i1, i2⟩ := compareRotTol_success f tol os s' es qs rs h
              refine ⟨?_, ?_⟩
              · simp only [List.map_cons, List.cons_prefix_cons]
                exact ⟨(not_not.mp he).symm, i1⟩
              · rw [List.zip_cons_cons]
                refine passed_cons (not_not.mp hq) (not_not.mp hr) ?_ ha i2
                unfold turned
                simp only [h1]
                rfl
            · rw [a2 ha] at h
              cases h

/-- C90: the test of the pole tide ends with status 0 only if the tables were read and every row agrees. -/
theorem accept_pole_success {W M : Epoch → Int → ℝ} {junkO junkR : Fin 10 → ℚ} {junkA : Fin 4 → ℚ} {junkE : Fin 9 → ℚ}
    {orbit rot eop acc : Option (List Char)} (h : acceptPole W M junkO junkR junkA junkE orbit rot eop acc = .ok 0) :
    ∃ os as qs es, parseOrbit junkO orbit = .ok os ∧ parseAcc junkA acc = .ok as ∧ parseRotary junkR rot = .ok qs ∧ parseEops junkE eop = .ok es ∧
      os.map (·.epoch) <+: es.map (·.epoch) ∧ Passed (fun s o p => turned (fun s o => poleTide W M s o p.1) s o p.2) (·.2.1) 1e-11 () os (es.zip qs) as := by
  unfold acceptPole at h
  obtain ⟨os, h1, h⟩ := Res.bind_eq h
  obtain ⟨as, h2, h⟩ := Res.bind_eq h
  obtain ⟨qs, h3, h⟩ := Res.bind_eq h
  obtain ⟨es, h4, h⟩ := Res.bind_eq h
  obtain ⟨k1, k2⟩ := compareRotTol_success _ _ _ _ _ _ _ h
  exact ⟨os, as, qs, es, h1, h2, h3, h4, k1, k2⟩

/-- C90: likewise the ocean pole tide; its object was made from the file of coefficients. -/
theorem accept_ocean_pole_success {W M : Epoch → Int → ℝ} {junkO junkR : Fin 10 → ℚ} {junkA : Fin 4 → ℚ} {junkE : Fin 9 → ℚ}
    {junkC : Nat → Nat → ℝ} {junkD : List ℚ} {orbit rot eop acc : Option (List Char)} {desai : Option (List (List Char))}
    (h : acceptOceanPole W M junkO junkR junkA junkE junkC junkD orbit rot eop acc desai = .ok 0) :
    ∃ os as qs es s, parseOrbit junkO orbit = .ok os ∧ parseAcc junkA acc = .ok as ∧ parseRotary junkR rot = .ok qs ∧ parseEops junkE eop = .ok es ∧
      PoleTide.Ocean.make junkC junkD desai 360 360 = .ok s ∧
      os.map (·.epoch) <+: es.map (·.epoch) ∧ Passed (fun s o p => turned (fun s o => oceanPole W M s o p.1) s o p.2) (·.2.1) 1e-11 s os (es.zip qs) as := by
  unfold acceptOceanPole at h
  obtain ⟨os, h1, h⟩ := Res.bind_eq h
  obtain ⟨as, h2, h⟩ := Res.bind_eq h
  obtain ⟨qs, h3, h⟩ := Res.bind_eq h
  obtain ⟨es, h4, h⟩ := Res.bind_eq h
  obtain ⟨s, h5, h⟩ := Res.bind_eq h
  obtain ⟨k1, k2⟩ := compareRotTol_success _ _ _ _ _ _ _ h
  exact ⟨os, as, qs, es, s, h1, h2, h3, h4, h5, k1, k2⟩

/-- A row that is accepted, so that the hypothesis of `accept_success` is met (whole programs that end with status 0 are in `check_eot_partial`,
`check_field_partial`, `check_solid_partial`, `check_aod_partial`). -/
example (o : Orbit) (a : V3) (Q : M3) : accept (fun (s : Unit) _ => .ok (s, some a)) 1 () [o] [(o.epoch, Q)] [⟨o.epoch, Q.transpose * a⟩] = .ok 0 := by
  simp [accept, Res.bind]

/-- A computation that fails is not success. -/
example (o : Orbit) (a : V3) (Q : M3) : accept (fun (s : Unit) _ => .ok (s, none)) 1 () [o] [(o.epoch, Q)] [⟨o.epoch, Q.transpose * a⟩] = .ok 1 := by
  simp [accept, Res.bind]

end Verif.Costg
