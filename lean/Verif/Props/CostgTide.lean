import Verif.Model.CostgTide
import Verif.Spec.CostgTide
import Verif.Props.Costg
import Verif.Props.TideForce
import Verif.Props.EopFile
import Verif.Props.Angle
/-
C94: the checks of ocean tides against the benchmark.
-/
namespace Verif.Harmonic
open Verif

/-- Without the terms of degree 0 and 1. -/
theorem potential_above (GM Re : ℝ) {C S C' S' : ℕ → ℕ → ℝ} {n : ℕ} (h1 : 1 ≤ n)
    (h : ∀ l k, k ≤ l → l ≤ n → C' l k = (if l < 2 then 0 else C l k) ∧ (0 < k → S' l k = if l < 2 then 0 else S l k) ∧ (2 ≤ l → S' l k = S l k)) (v : V3) :
    potential GM Re C' S' n n v = potential GM Re C S n n v - potential GM Re C S 1 1 v := by
  have hin : ∀ l, l ≤ n → ∑ m ∈ Finset.range (min l n + 1), harmonic GM Re l m (C' l m) (S' l m) v =
      if l < 2 then 0 else ∑ m ∈ Finset.range (min l n + 1), harmonic GM Re l m (C l m) (S l m) v := by
    intro l hl
    split_ifs with h2
    · refine Finset.sum_eq_zero fun m hm => ?_
      rw [Finset.mem_range] at hm
      obtain ⟨a, b, -⟩ := h l m (by omega) hl
      rw [if_pos h2] at a b
      rw [a]
      unfold harmonic
      rcases Nat.eq_zero_or_pos m with rfl | hp
      · simp
      · rw [b hp]; ring
    · refine Finset.sum_congr rfl fun m hm => ?_
      rw [Finset.mem_range] at hm
      obtain ⟨a, -, b⟩ := h l m (by omega) hl
      rw [a, b (by omega), if_neg h2]
  unfold potential
  rw [Finset.sum_congr rfl fun l hl => hin l (by rw [Finset.mem_range] at hl; omega),
    ← Finset.sum_range_add_sum_Ico _ (by omega : 1 + 1 ≤ n + 1), ← Finset.sum_range_add_sum_Ico (fun l => ∑ m ∈ Finset.range (min l n + 1), harmonic GM Re l m (C l m) (S l m) v) (by omega : 1 + 1 ≤ n + 1)]
  have e1 : ∑ l ∈ Finset.range (1 + 1), (if l < 2 then 0 else ∑ m ∈ Finset.range (min l n + 1), harmonic GM Re l m (C l m) (S l m) v) = 0 :=
    Finset.sum_eq_zero fun l hl => if_pos (by rw [Finset.mem_range] at hl; omega)
  have e2 : ∑ l ∈ Finset.range (1 + 1), ∑ m ∈ Finset.range (min l n + 1), harmonic GM Re l m (C l m) (S l m) v =
      ∑ l ∈ Finset.range (1 + 1), ∑ m ∈ Finset.range (min l 1 + 1), harmonic GM Re l m (C l m) (S l m) v :=
    Finset.sum_congr rfl fun l hl => by
      rw [Finset.mem_range] at hl
      rw [show min l n = l by omega, show min l 1 = l by omega]
  have e3 : ∑ l ∈ Finset.Ico (1 + 1) (n + 1), (if l < 2 then 0 else ∑ m ∈ Finset.range (min l n + 1), harmonic GM Re l m (C l m) (S l m) v) =
      ∑ l ∈ Finset.Ico (1 + 1) (n + 1), ∑ m ∈ Finset.range (min l n + 1), harmonic GM Re l m (C l m) (S l m) v :=
    Finset.sum_congr rfl fun l hl => if_neg (by rw [Finset.mem_Ico] at hl; omega)
  rw [e1, e2, e3]
  ring

end Verif.Harmonic

namespace Verif.Tide
open Verif Verif.Harmonic

/-! ### What evaluations keep -/

theorem accum_clear {m cos sin m' : Coeffs ℝ} {c s : ℝ} (h : accum m cos sin c s = .ok m') : m'.clear = m.clear := by
  unfold accum at h
  split at h
  · cases h
  · split at h
    · cases h
    · injection h with h; subst h; rfl

theorem forEach_clear (c s : Constituent → ℝ) : ∀ (a : Atlas) (m m' : Coeffs ℝ),
    forEach a (fun w m => accum m w.cos w.sin (c w) (s w)) m = .ok m' → m'.clear = m.clear
  | [], m, m', h => by injection h with h; subst h; rfl
  | w :: a, m, m', h => by
    simp only [forEach] at h
    cases e : accum m w.cos w.sin (c w) (s w) with
    | ok m1 => rw [e] at h; exact (forEach_clear c s a m1 m' h).trans (accum_clear e)
    | ub => rw [e] at h; cases h
    | abort => rw [e] at h; cases h
    | throw => rw [e] at h; cases h

theorem admLoop_clear (g : Admittance) (θ : Doodson.DC → ℝ) : ∀ (a : Atlas) (k : Nat) (m m' : Coeffs ℝ), admLoop g θ k a m = .ok m' → m'.clear = m.clear
  | [], _, m, m', h => by injection h with h; subst h; rfl
  | w :: a, k, m, m', h => by
    simp only [admLoop] at h
    split at h
    · cases e : accum m w.cos w.sin (g.factor θ Real.cos k) (g.factor θ Real.sin k) with
      | ok m1 => rw [e] at h; exact (admLoop_clear g θ a (k + 1) m1 m' h).trans (accum_clear e)
      | ub => rw [e] at h; cases h
      | abort => rw [e] at h; cases h
      | throw => rw [e] at h; cases h
    · cases h

/-- Evaluation changes the coefficients only. -/
theorem coeffs_clear {o o' : Ocean} {tt ut1 : Iau.Epoch} {args : Fin 5 → ℝ} (h : o.coeffs tt ut1 args = .ok o') :
    o'.mcs.clear = o.mcs.clear ∧ o'.atlas = o.atlas ∧ o'.adm = o.adm := by
  unfold Ocean.coeffs at h
  cases hg : o.adm with
  | none =>
    simp only [hg] at h
    cases e : oceanCoeffs o.atlas o.mcs tt ut1 args with
    | ok m => rw [e] at h; injection h with h; subst h; exact ⟨(forEach_clear _ _ _ _ _ e).trans rfl, rfl, rfl⟩
    | ub => rw [e] at h; cases h
    | abort => rw [e] at h; cases h
    | throw => rw [e] at h; cases h
  | some g =>
    simp only [hg] at h
    cases e : oceanCoeffsAdm o.atlas g o.mcs tt ut1 args with
    | ok m =>
      rw [e] at h
      injection h with h
      subst h
      unfold oceanCoeffsAdm at e
      simp only at e
      split at e
      · cases e
      · exact ⟨(admLoop_clear _ _ _ _ _ _ e).trans rfl, rfl, rfl⟩
    | ub => rw [e] at h; cases h
    | abort => rw [e] at h; cases h
    | throw => rw [e] at h; cases h

/-- Evaluation does not depend on the coefficients before it. -/
theorem coeffs_of_clear {o o' : Ocean} (h : o'.mcs.clear = o.mcs.clear) (ha : o'.atlas = o.atlas) (hg : o'.adm = o.adm)
    (tt ut1 : Iau.Epoch) (args : Fin 5 → ℝ) : o'.coeffs tt ut1 args = o.coeffs tt ut1 args := by
  obtain ⟨a, c, g⟩ := o
  obtain ⟨a', c', g'⟩ := o'
  simp only at h ha hg
  subst ha hg
  unfold Ocean.coeffs oceanCoeffsAdm oceanCoeffs
  simp only [h]

/-- A model of degree and order `n` that evaluates to these coefficients. -/
structure Evals (n : Nat) (Cf Sf : ℝ → ℝ → ℝ → ℝ → ℝ → ℝ → Nat → Nat → ℝ) (o : Ocean) : Prop where
  deg : o.mcs.deg = n
  ord : o.mcs.ord = n
  gm : o.mcs.gm = 3.986004418e14
  re : o.mcs.re = 6378136.6
  rows : 2 ≤ o.mcs.rows
  eval : ∀ (tt ut1 : Iau.Epoch) (l l' F D Om : ℝ), ∃ o'', o.coeffs tt ut1 ![l, l', F, D, Om] = .ok o'' ∧
    ∀ i j : Nat, j ≤ i → i ≤ n → o''.mcs.C i j = Cf (Iau.gmst tt ut1) l l' F D Om i j ∧ o''.mcs.S i j = Sf (Iau.gmst tt ut1) l l' F D Om i j

theorem Evals.keep {n : Nat} {Cf Sf : ℝ → ℝ → ℝ → ℝ → ℝ → ℝ → Nat → Nat → ℝ} {o o' : Ocean} (h : Evals n Cf Sf o)
    (hc : o'.mcs.clear = o.mcs.clear) (ha : o'.atlas = o.atlas) (hg : o'.adm = o.adm) : Evals n Cf Sf o' where
  deg := (congrArg Coeffs.deg hc).trans h.deg
  ord := (congrArg Coeffs.ord hc).trans h.ord
  gm := (congrArg Coeffs.gm hc).trans h.gm
  re := (congrArg Coeffs.re hc).trans h.re
  rows := by rw [show o'.mcs.rows = o.mcs.rows from (congrArg Coeffs.rows hc : o'.mcs.clear.rows = o.mcs.clear.rows)]; exact h.rows
  eval tt ut1 l l' F D Om := by rw [coeffs_of_clear hc ha hg]; exact h.eval tt ut1 l l' F D Om

/-- Degree -1 stands for the degree of the set. -/
theorem attraction_all (c : Coeffs ℝ) {n : Nat} (h : c.deg = n) (h' : c.ord = n) (r : V3) (W M : Tri) : attraction c r (-1) W M = attraction c r n W M := by
  unfold attraction Cunningham.gradient
  have e1 : (if (-1 : Int) < 0 then (field c).degree else -1) = n := h
  have e2 : (if (-1 : Int) < 0 then (field c).order else -1) = n := h'
  have e3 : ∀ x : Int, (if (n : Int) < 0 then x else n) = n := fun x => if_neg (by omega)
  simp only [e1, e2, e3]

end Verif.Tide

namespace Verif.Groops
open Verif Verif.Doodson Verif.Tide Verif.Chars Verif.Icgem

variable {T : Type} [LinearOrder T] {cal : Cal T} {disk : List Int → Option (List Char)} {junkErr : ErrorModel} {junkE : Entry T}
  {junk : Nat → Nat → ℝ} {md mo : Int} {dir : List Int} {list : List (List Int)} {waves : List (Wave T)} {n : Nat}

theorem ocean_evals (h : StoredModel cal disk dir md mo list waves) (hn : ∀ w ∈ waves, w.cos.degree md = n ∧ w.sin.degree md = n)
    (hf : ∃ w ∈ waves, w.cos.Full md mo) (h1 : 1 ≤ n) :
    ∃ o, oceanModel cal disk junkErr junkE junk (some list) dir md mo = .ok o ∧
      Evals n (fun g l l' F D Om i j => (waves.map fun w => w.at md mo Record.C (angle w.d g l l' F D Om) i j).sum)
        (fun g l l' F D Om i j => (waves.map fun w => w.at md mo Record.S (angle w.d g l l' F D Om) i j).sum) o := by
  obtain ⟨w, hw, hfw⟩ := hf
  obtain ⟨o, e, ho⟩ := stored_ocean_partial (junk := junk) (junkErr := junkErr) (junkE := junkE) h hn ⟨w, hw, full_reaches hfw⟩
  obtain ⟨a, ea, ha⟩ := atlas_waves (junk := junk) (junkErr := junkErr) (junkE := junkE) h
  have hord := atlas_order ha hn ⟨w, hw, hfw⟩
  have hdeg := (atlas_size ha hn).2.2 ⟨w, hw, full_reaches hfw⟩
  have hmake : Ocean.make junk a none = .ok o := by
    unfold oceanModel at e; rw [ea] at e; exact e
  obtain ⟨m1, m2, m3⟩ := make_like hmake
  obtain ⟨o', e', ho'⟩ := ho []
  injection e' with e'
  subst e'
  obtain ⟨o'', e'', hd, hv⟩ := ho' ⟨0, 0, le_rfl, by norm_num⟩ ⟨0, 0, le_rfl, by norm_num⟩ 0 0 0 0 0
  obtain ⟨k1, -, -⟩ := coeffs_clear e''
  refine ⟨o, e, ⟨(congrArg Coeffs.deg k1).symm.trans hd, by rw [m3, hdeg]; omega, m1, m2, ?_, ?_⟩⟩
  · rw [show o.mcs.rows = o''.mcs.rows from (congrArg Coeffs.rows k1).symm]
    have := (hv 1 1 le_rfl h1).1
    unfold Coeffs.getC at this
    split at this
    · rename_i hh; unfold Coeffs.Has at hh; omega
    · cases this
  · intro tt ut1 l l' F D Om
    obtain ⟨p, e1, -, hp⟩ := ho' tt ut1 l l' F D Om
    exact ⟨p, e1, fun i j hij hi => ⟨getC_C (hp i j hij hi).1, getS_S (hp i j hij hi).2⟩⟩

theorem admittance_evals {junkI : List Int} {junkA : Nat → Nat → ℚ} (h : StoredModel cal disk dir md mo list waves)
    (hn : ∀ w ∈ waves, w.cos.degree md = n ∧ w.sin.degree md = n) (hf : ∃ w ∈ waves, w.cos.Full md mo) (h1 : 1 ≤ n)
    (hj : junkI.length = 6) {f2 f3 : List (List Char)} {dood : List DC} {adm : List (List ℚ)}
    (h2' : List.Forall₂ (fun line (d : DC) => line.length < 124 ∧ IntsAre line [d.i0, d.i1, d.i2, d.i3, d.i4, d.i5]) f2 dood)
    (hne : dood ≠ []) (h3 : RowsAre dood.length f3 adm) (hk : adm.length = waves.length) :
    ∃ o, oceanModelAdm cal disk junkErr junkE junk junkI junkA (some list) (some f2) (some f3) dir md mo = .ok o ∧
      Evals n (fun g l l' F D Om i j => ∑ f : Fin dood.length, ∑ k : Fin waves.length, (((adm.getD k []).getD f 0 : ℚ) : ℝ) *
          waves[k].at md mo Record.C (angle dood[f] g l l' F D Om) i j)
        (fun g l l' F D Om i j => ∑ f : Fin dood.length, ∑ k : Fin waves.length, (((adm.getD k []).getD f 0 : ℚ) : ℝ) *
          waves[k].at md mo Record.S (angle dood[f] g l l' F D Om) i j) o := by
  obtain ⟨w, hw, hfw⟩ := hf
  obtain ⟨o, e, ho⟩ := stored_admittance_partial (junk := junk) (junkErr := junkErr) (junkE := junkE) (junkA := junkA) h hn
    ⟨w, hw, full_reaches hfw⟩ hj h2' hne h3 hk
  obtain ⟨a, ea, ha⟩ := atlas_waves (junk := junk) (junkErr := junkErr) (junkE := junkE) h
  have hord := atlas_order ha hn ⟨w, hw, hfw⟩
  have hdeg := (atlas_size ha hn).2.2 ⟨w, hw, full_reaches hfw⟩
  obtain ⟨G, hmake⟩ : ∃ G, Ocean.make junk a (some G) = .ok o := by
    unfold oceanModelAdm groopsAtlasAdm at e
    rw [ea] at e
    simp only [Res.bind] at e
    split at e
    · rename_i x he
      split at he
      · cases he
      · split at he
        · simp only at he
          split at he
          · cases he
          · injection he with he
            subst he
            exact ⟨_, e⟩
        all_goals cases he
    all_goals cases e
  obtain ⟨m1, m2, m3⟩ := make_like hmake
  obtain ⟨o', e', ho'⟩ := ho []
  injection e' with e'
  subst e'
  obtain ⟨o'', e'', hd, hv⟩ := ho' ⟨0, 0, le_rfl, by norm_num⟩ ⟨0, 0, le_rfl, by norm_num⟩ 0 0 0 0 0
  obtain ⟨k1, -, -⟩ := coeffs_clear e''
  refine ⟨o, e, ⟨(congrArg Coeffs.deg k1).symm.trans hd, by rw [m3, hdeg]; omega, m1, m2, ?_, ?_⟩⟩
  · rw [show o.mcs.rows = o''.mcs.rows from (congrArg Coeffs.rows k1).symm]
    have := (hv 1 1 le_rfl h1).1
    unfold Coeffs.getC at this
    split at this
    · rename_i hh; unfold Coeffs.Has at hh; omega
    · cases this
  · intro tt ut1 l l' F D Om
    obtain ⟨p, e1, -, hp⟩ := ho' tt ut1 l l' F D Om
    exact ⟨p, e1, fun i j hij hi => ⟨getC_C (hp i j hij hi).1, getS_S (hp i j hij hi).2⟩⟩

/-! ### Angles count modulo a full circle -/

open Verif.Angle in
theorem angle_cong (d : DC) {g l l' F D Om g1 l1 l1' F1 D1 Om1 : ℝ} (hg : Cong g g1) (hl : Cong l l1) (hl' : Cong l' l1') (hF : Cong F F1)
    (hD : Cong D D1) (hO : Cong Om Om1) : Cong (angle d g l l' F D Om) (angle d g1 l1 l1' F1 D1 Om1) := by
  unfold angle
  have hs := hF.add hO
  have hneg : Cong (-Om) (-Om1) := by
    have := (Cong.refl 0).sub hO
    simpa using this
  exact (((((((hg.add (Cong.refl _)).sub hs).mul_int _).add (hs.mul_int _)).add ((hs.sub hD).mul_int _)).add ((hs.sub hl).mul_int _)).add
    (hneg.mul_int _)).add (((hs.sub hD).sub hl').mul_int _)

open Verif.Angle in
theorem cos_cong {x y : ℝ} (h : Cong x y) : Real.cos x = Real.cos y ∧ Real.sin x = Real.sin y := by
  obtain ⟨k, rfl⟩ := h
  rw [mul_comm (2 * Real.pi)]
  exact ⟨Real.cos_add_int_mul_two_pi y k, Real.sin_add_int_mul_two_pi y k⟩

end Verif.Groops

namespace Verif.Costg
open Verif Verif.Tide Verif.Angle

/-! ### Epochs -/

theorem floor_real (t : ℚ) : ((⌊t⌋ : ℤ) : ℝ) + ((Int.fract t : ℚ) : ℝ) = (t : ℝ) := by exact_mod_cast Int.floor_add_fract t

theorem centuries_ttOf (t : ℚ) : (ttOf (epochAt t)).jcenturies = centuriesTT t := by
  have h := jd_ttOf (t := t)
  unfold Planets.jd at h
  unfold centuriesTT Iau.Epoch.jcenturies Iau.Epoch.daysSinceJ2000
  rw [← h]
  ring

theorem ttDays_at (t : ℚ) : ttDays (epochAt t) = mjdTT t := by
  unfold ttDays epochAt mjdTT
  simp only
  have := Int.floor_add_fract t
  linarith

theorem days_ut1Of (dat : ℚ → ℚ) (t d : ℚ) : (ut1Of dat (epochAt t) (d + dat (mjdTT t))).daysSinceJ2000 = daysUT1 t d := by
  have h2 : (ut1Of dat (epochAt t) (d + dat (mjdTT t))).daysSinceJ2000 =
      ((⌊t⌋ : ℤ) : ℝ) + (((Int.fract t * 86400 + 19 - dat (ttDays (epochAt t)) + (d + dat (mjdTT t)) : ℚ)) : ℝ) / 86400 - 51544.5 := by
    unfold ut1Of Iau.Epoch.daysSinceJ2000
    simp only
    rw [Int.floor_add_fract]
    rfl
  rw [h2, ttDays_at]
  unfold daysUT1
  rw [← floor_real t]
  push_cast [-Rat.cast_fract]
  ring

theorem sec2rad_rad (x : ℝ) : sec2rad x = PoleTide.rad x := by unfold sec2rad PoleTide.rad; ring

/-! ### The tide at one epoch -/

/-- Angles count modulo a full circle. -/
def Periodic (U : Nat → ℝ → ℝ → ℝ → ℝ → ℝ → ℝ → V3 → ℝ) : Prop :=
  ∀ N g l l' F D Om g1 l1 l1' F1 D1 Om1 r, Cong g g1 → Cong l l1 → Cong l' l1' → Cong F F1 → Cong D D1 → Cong Om Om1 →
    U N g l l' F D Om r = U N g1 l1 l1' F1 D1 Om1 r

theorem four_set {c : Coeffs ℝ} (hr : 2 ≤ c.rows) :
    ∃ c', (∀ {β : Type} (k : Coeffs ℝ → Res β), ((c.setC 1 1 0).bind fun c => (c.setC 1 0 0).bind fun c => (c.setC 0 0 0).bind fun c =>
      (c.setS 1 1 0).bind k) = k c') ∧ c'.clear = c.clear ∧
      ∀ l k : Nat, k ≤ l → c'.C l k = (if l < 2 then 0 else c.C l k) ∧ (0 < k → c'.S l k = if l < 2 then 0 else c.S l k) ∧ (2 ≤ l → c'.S l k = c.S l k) := by
  have eC : ∀ (d : Coeffs ℝ) (i j : Int), d.Has i j → d.setC i j 0 = .ok { d with C := Coeffs.put d.C i.toNat j.toNat 0 } :=
    fun d i j h => if_pos h
  have eS : ∀ (d : Coeffs ℝ) (i j : Int), d.Has i j → d.setS i j 0 = .ok { d with S := Coeffs.put d.S i.toNat j.toNat 0 } :=
    fun d i j h => if_pos h
  refine ⟨{ c with C := Coeffs.put (Coeffs.put (Coeffs.put c.C 1 1 0) 1 0 0) 0 0 0, S := Coeffs.put c.S 1 1 0 }, ?_, rfl, ?_⟩
  · intro β k
    rw [eC _ 1 1 (by unfold Coeffs.Has; (try dsimp only); omega), rb, eC _ 1 0 (by unfold Coeffs.Has; dsimp only; omega), rb,
      eC _ 0 0 (by unfold Coeffs.Has; (try dsimp only); omega), rb, eS _ 1 1 (by unfold Coeffs.Has; dsimp only; omega), rb]
    rfl
  · intro l k hk
    simp only [Coeffs.put]
    rcases Nat.lt_or_ge l 2 with hl | hl
    · have : (l = 0 ∧ k = 0) ∨ (l = 1 ∧ k = 0) ∨ (l = 1 ∧ k = 1) := by omega
      rcases this with ⟨rfl, rfl⟩ | ⟨rfl, rfl⟩ | ⟨rfl, rfl⟩ <;> simp
    · rw [if_neg (by omega), if_neg (by omega), if_neg (by omega), if_neg (by omega), if_neg (by omega), if_neg (by omega)]
      exact ⟨rfl, fun _ => rfl, fun _ => rfl⟩

variable {n : Nat} {Cf Sf : ℝ → ℝ → ℝ → ℝ → ℝ → ℝ → Nat → Nat → ℝ} {U : Nat → ℝ → ℝ → ℝ → ℝ → ℝ → ℝ → V3 → ℝ}

variable {σ : Type} {K : TideObj σ} {J : σ → Prop}

/-- An object of degree and order `n` evaluates to these coefficients as long as `J` holds of it. -/
structure Evaluates (K : TideObj σ) (n : Nat) (Cf Sf : ℝ → ℝ → ℝ → ℝ → ℝ → ℝ → Nat → Nat → ℝ) (J : σ → Prop) : Prop where
  get : ∀ s c, K.get (K.put s c) = c
  put : ∀ s c, J s → c.clear = (K.get s).clear → J (K.put s c)
  deg : ∀ s, J s → (K.get s).deg = n
  ord : ∀ s, J s → (K.get s).ord = n
  gm : ∀ s, J s → (K.get s).gm = 3.986004418e14
  re : ∀ s, J s → (K.get s).re = 6378136.6
  rows : ∀ s, J s → 2 ≤ (K.get s).rows
  eval : ∀ s, J s → ∀ (tt ut1 : Iau.Epoch) (l l' F D Om : ℝ), ∃ s', K.coeffs s tt ut1 ![l, l', F, D, Om] = .ok s' ∧ J s' ∧
    ∀ i j : Nat, j ≤ i → i ≤ n → (K.get s').C i j = Cf (Iau.gmst tt ut1) l l' F D Om i j ∧ (K.get s').S i j = Sf (Iau.gmst tt ut1) l l' F D Om i j

theorem ocean_evaluates : Evaluates oceanObj n Cf Sf (Evals n Cf Sf) where
  get _ _ := rfl
  put _ _ h hc := h.keep hc rfl rfl
  deg _ h := h.deg
  ord _ h := h.ord
  gm _ h := h.gm
  re _ h := h.re
  rows _ h := h.rows
  eval s h tt ut1 l l' F D Om := by
    obtain ⟨s', e, hv⟩ := h.eval tt ut1 l l' F D Om
    obtain ⟨k1, k2, k3⟩ := coeffs_clear e
    exact ⟨s', e, h.keep k1 k2 k3, hv⟩

/-- What the program keeps from epoch to epoch. -/
def KeepsTide (J : σ → Prop) (vec : List (Eop.Rec ℚ)) (s : σ × Eop.Series ℚ) : Prop :=
  J s.1 ∧ s.2.vec = vec ∧ s.2.CacheOk ∧ Eop.Sorted s.2.vec

/-- The tide at one epoch with whatever UT1 the series gives. -/
theorem tide_with (hK : Evaluates K n Cf Sf J) (dat : ℚ → ℚ) (h1 : 1 ≤ n) (h2 : n ≤ 180) {deg : Int} (hdeg : deg = n ∨ deg = -1)
    (hU : ∀ N g l l' F D Om v, U N g l l' F D Om v = Harmonic.potential 3.986004418e14 6378136.6 (Cf g l l' F D Om) (Sf g l l' F D Om) N N v)
    (hP : Periodic U) (W M : Epoch → Int → ℝ) {vec : List (Eop.Rec ℚ)} {s : σ × Eop.Series ℚ} (hs : KeepsTide J vec s) (hvne : vec ≠ [])
    (o : ℚ × List ℚ) (h0 : three o.2 0 ≠ 0) {st : Eop.Status} {d : ℚ} {ser : Eop.Series ℚ} (ed : s.2.approxDut1 dat (mjdTT o.1) = .ok (st, d, ser)) :
    ∃ s' g, tideStep K dat deg W M s (orbitOf o) = .ok (s', some g) ∧ KeepsTide J vec s' ∧
      Harmonic.IsGradient (tideAt U n (centuriesTT o.1) (daysUT1 o.1 (d - dat (mjdTT o.1)))) (three o.2 0) g := by
  obtain ⟨hev, hvec, hcache, hsort⟩ := hs
  obtain ⟨st', d', ser', ed', q1, q2⟩ := Eop.approx_vec dat hsort hcache (by rw [hvec]; exact hvne) (mjdTT o.1)
  rw [ed] at ed'
  injection ed' with ed'
  simp only [Prod.mk.injEq] at ed'
  obtain ⟨-, rfl, rfl⟩ := ed'
  have hd' : d = (d - dat (mjdTT o.1)) + dat (mjdTT o.1) := by ring
  set tt := ttOf (epochAt o.1) with htt
  set ut := ut1Of dat (epochAt o.1) d with hut
  obtain ⟨oc, e1, hoc, hcs⟩ := hK.eval s.1 hev tt ut (Fundarg.fal03 tt.jcenturies) (Fundarg.falp03 tt.jcenturies) (Fundarg.faf03 tt.jcenturies)
    (Fundarg.fad03 tt.jcenturies) (Fundarg.faom03 tt.jcenturies)
  obtain ⟨c, c1, c2, c3⟩ := four_set (hK.rows oc hoc)
  have hoc' : J (K.put oc c) := hK.put oc c hoc c2
  have hcd : c.deg = n := by rw [← hK.get oc c]; exact hK.deg _ hoc'
  have hco : c.ord = n := by rw [← hK.get oc c]; exact hK.ord _ hoc'
  have hcg : c.gm = 3.986004418e14 := by rw [← hK.get oc c]; exact hK.gm _ hoc'
  have hcr : c.re = 6378136.6 := by rw [← hK.get oc c]; exact hK.re _ hoc'
  obtain ⟨g, eg, hg⟩ := attraction_gradient c (r := three o.2 0) h0 h1 (by omega) hcd.ge hco.ge (by rw [hcg]; norm_num)
    (by rw [hcr]; norm_num) (W := ⟨183, W (epochAt o.1)⟩) (M := ⟨183, M (epochAt o.1)⟩) (by simp only; omega) (by simp only; omega)
  refine ⟨(K.put oc c, ser), g, ?_, ⟨hoc', q1.trans hvec, q2, by rw [q1]; exact hsort⟩, ?_⟩
  · unfold tideStep
    rw [show (orbitOf o).epoch = epochAt o.1 from rfl, show (orbitOf o).xyz = three o.2 0 from rfl, ttDays_at, ed]
    simp only [rb]
    rw [show argsAt (ttOf (epochAt o.1)) = ![Fundarg.fal03 tt.jcenturies, Fundarg.falp03 tt.jcenturies, Fundarg.faf03 tt.jcenturies,
      Fundarg.fad03 tt.jcenturies, Fundarg.faom03 tt.jcenturies] from rfl, e1]
    simp only [rb]
    rw [c1]
    have : attraction c (three o.2 0) deg ⟨183, W (epochAt o.1)⟩ ⟨183, M (epochAt o.1)⟩ = .ok (some g) := by
      rcases hdeg with rfl | rfl
      · exact eg
      · rw [attraction_all c hcd hco]; exact eg
    rw [this]
    rfl
  · refine (congrArg (fun V => Harmonic.IsGradient V (three o.2 0) g) (funext fun v => ?_)).mpr hg
    have hT : tt.jcenturies = centuriesTT o.1 := centuries_ttOf o.1
    have hTu : ut.daysSinceJ2000 = daysUT1 o.1 (d - dat (mjdTT o.1)) := by rw [hut]; nth_rewrite 1 [hd']; rw [days_ut1Of]
    obtain ⟨⟨p1, -⟩, ⟨p2, -⟩, ⟨p3, -⟩, ⟨p4, -⟩, ⟨p5, -⟩⟩ := Angle.delaunay_correct_partial tt.jcenturies
    have p0 := (Angle.gmst_correct tt ut).2
    rw [hT] at p0 p1 p2 p3 p4 p5
    rw [hTu] at p0
    simp only [sec2rad_rad] at p0 p1 p2 p3 p4 p5
    rw [hcg, hcr, Harmonic.potential_above _ _ (C := (K.get oc).C) (S := (K.get oc).S) h1 (fun l k hk _ => c3 l k hk)]
    unfold tideAt
    simp only
    have key : ∀ N, N ≤ n → Harmonic.potential 3.986004418e14 6378136.6 (K.get oc).C (K.get oc).S N N v =
        U N (Iau.eraIers (daysUT1 o.1 (d - dat (mjdTT o.1))) + PoleTide.rad (Iau.gmstPoly (centuriesTT o.1)))
          (PoleTide.rad (Fundarg.lPoly (centuriesTT o.1))) (PoleTide.rad (Fundarg.lpPoly (centuriesTT o.1)))
          (PoleTide.rad (Fundarg.fPoly (centuriesTT o.1))) (PoleTide.rad (Fundarg.dPoly (centuriesTT o.1)))
          (PoleTide.rad (Fundarg.omPoly (centuriesTT o.1))) v := by
      intro N hN
      rw [← hP N _ _ _ _ _ _ _ _ _ _ _ _ v p0 p1 p2 p3 p4 p5, hU, ← hT]
      exact congrFun (Harmonic.potential_eq fun i j hij hi => hcs i j hij (by omega)) v
    rw [key n le_rfl, key 1 h1]

/-! ### The loop -/

open Classical in
/-- The loop on rows of three tables; `I` is what holds of the objects before the rows that are left. -/
theorem accept_along {σ : Type} {I : List (ℚ × List ℚ) → σ → Prop} {f : σ → Orbit → Res (σ × Option V3)} {tol : ℝ} {P : ℚ × List ℚ → V3 → Prop} :
    ∀ {s : σ} {os qs as : List (ℚ × List ℚ)}, I os s → os.map (·.1) <+: qs.map (·.1) → os.map (·.1) <+: as.map (·.1) →
    (∀ s o os, I (o :: os) s → ∃ s' g, f s (orbitOf o) = .ok (s', some g) ∧ I os s' ∧ P o g) →
    ∃ gs, List.Forall₂ P os gs ∧
      (AllWithin tol qs as gs → accept f tol s (os.map orbitOf) (qs.map rotOf) (as.map fun r => ⟨epochAt r.1, three r.2 0⟩) = .ok 0) ∧
      (¬ AllWithin tol qs as gs → accept f tol s (os.map orbitOf) (qs.map rotOf) (as.map fun r => ⟨epochAt r.1, three r.2 0⟩) = .abort)
  | _, [], _, _, _, _, _, _ => ⟨[], .nil, fun _ => by simp [accept], fun h => absurd (fun i q r g _ _ h3 => by simp at h3) h⟩
  | _, o :: os, [], _, _, h, _, _ => by simp at h
  | _, o :: os, _ :: _, [], _, _, h, _ => by simp at h
  | s, o :: os, q :: qs, a :: as, hI, h1, h2, hf => by
    simp only [List.map_cons, List.cons_prefix_cons] at h1 h2
    obtain ⟨s', g, hg, hI', hgr⟩ := hf s o os hI
    obtain ⟨gs, hgs, k1, k2⟩ := accept_along (tol := tol) hI' h1.2 h2.2 hf
    have hb : (rotOf q).1 = (orbitOf o).epoch := by show epochAt q.1 = epochAt o.1; rw [h1.1]
    have hc : epochAt a.1 = (orbitOf o).epoch := by show epochAt a.1 = epochAt o.1; rw [h2.1]
    have hstep : accept f tol s ((o :: os).map orbitOf) ((q :: qs).map rotOf) ((a :: as).map fun r => ⟨epochAt r.1, three r.2 0⟩) =
        if Within tol q a g then accept f tol s' (os.map orbitOf) (qs.map rotOf) (as.map fun r => ⟨epochAt r.1, three r.2 0⟩) else .abort := by
      simp only [List.map_cons]
      rw [accept, hg]
      simp only [rb, rot_transpose]
      rw [if_neg (by rw [hb]; simp), if_neg (by rw [hc]; simp)]
      unfold Within
      by_cases w1 : |(three a.2 0).x - (toCelestial q.2 g).x| < tol <;> by_cases w2 : |(three a.2 0).y - (toCelestial q.2 g).y| < tol <;>
        by_cases w3 : |(three a.2 0).z - (toCelestial q.2 g).z| < tol <;> simp [w1, w2, w3]
    have hall : AllWithin tol (q :: qs) (a :: as) (g :: gs) ↔ Within tol q a g ∧ AllWithin tol qs as gs := by
      constructor
      · intro h
        exact ⟨h 0 q a g rfl rfl rfl, fun i q' r' g' e1 e2 e3 => h (i + 1) q' r' g' e1 e2 e3⟩
      · rintro ⟨h, h'⟩ i q' r' g' e1 e2 e3
        cases i with
        | zero =>
          simp only [List.getElem?_cons_zero, Option.some.injEq] at e1 e2 e3
          subst e1 e2 e3
          exact h
        | succ i => exact h' i q' r' g' e1 e2 e3
    refine ⟨g :: gs, .cons hgr hgs, ?_, ?_⟩
    · intro h
      obtain ⟨w, w'⟩ := hall.mp h
      rw [hstep, if_pos w, k1 w']
    · intro h
      rw [hstep]
      by_cases w : Within tol q a g
      · rw [if_pos w]
        exact k2 fun w' => h (hall.mpr ⟨w, w'⟩)
      · rw [if_neg w]

/-- Likewise; `I` is what the objects keep. -/
theorem accept_rows {σ : Type} {I : σ → Prop} {f : σ → Orbit → Res (σ × Option V3)} {tol : ℝ} {P : ℚ × List ℚ → V3 → Prop}
    {s : σ} {os qs as : List (ℚ × List ℚ)} (hI : I s) (h1 : os.map (·.1) <+: qs.map (·.1)) (h2 : os.map (·.1) <+: as.map (·.1))
    (hf : ∀ s, I s → ∀ o ∈ os, ∃ s' g, f s (orbitOf o) = .ok (s', some g) ∧ I s' ∧ P o g) :
    ∃ gs, List.Forall₂ P os gs ∧
      (AllWithin tol qs as gs → accept f tol s (os.map orbitOf) (qs.map rotOf) (as.map fun r => ⟨epochAt r.1, three r.2 0⟩) = .ok 0) ∧
      (¬ AllWithin tol qs as gs → accept f tol s (os.map orbitOf) (qs.map rotOf) (as.map fun r => ⟨epochAt r.1, three r.2 0⟩) = .abort) :=
  accept_along (I := fun os s => I s ∧ ∀ s, I s → ∀ o ∈ os, ∃ s' g, f s (orbitOf o) = .ok (s', some g) ∧ I s' ∧ P o g) ⟨hI, hf⟩ h1 h2 fun s o os h => by
    obtain ⟨s', g, e, h', hp⟩ := h.2 s h.1 o (by simp)
    exact ⟨s', g, e, ⟨h', fun s hs x hx => h.2 s hs x (by simp [hx])⟩, hp⟩

open Classical in
/-- The loop when rotations or accelerations end first. -/
theorem accept_along_short {σ : Type} {I : List (ℚ × List ℚ) → σ → Prop} {f : σ → Orbit → Res (σ × Option V3)} {tol : ℝ} {P : ℚ × List ℚ → V3 → Prop} {o : ℚ × List ℚ}
    {os' : List (ℚ × List ℚ)} :
    ∀ {s : σ} {os qs as : List (ℚ × List ℚ)}, I (os ++ [o]) s → os.map (·.1) <+: qs.map (·.1) → os.map (·.1) <+: as.map (·.1) →
    (os.map (·.1) = qs.map (·.1) ∨ (os ++ [o]).map (·.1) <+: qs.map (·.1) ∧ os.map (·.1) = as.map (·.1)) →
    (∀ s x xs, I (x :: xs) s → ∃ s' g, f s (orbitOf x) = .ok (s', some g) ∧ I xs s' ∧ P x g) →
    ∃ gs, List.Forall₂ P os gs ∧ (AllWithin tol qs as gs →
      accept f tol s ((os ++ o :: os').map orbitOf) (qs.map rotOf) (as.map fun r => ⟨epochAt r.1, three r.2 0⟩) = .ub)
  | s, [], qs, as, hI, _, _, h3, hf => by
    obtain ⟨s', g, hg, -⟩ := hf s o [] hI
    refine ⟨[], .nil, fun _ => ?_⟩
    simp only [List.nil_append, List.map_cons]
    rw [accept, hg]
    simp only [rb]
    cases qs with
    | nil => rfl
    | cons q qs =>
      rcases h3 with h3 | ⟨h3, h4⟩
      · simp at h3
      · have : as = [] := by simpa using h4.symm
        subst this
        simp only [List.nil_append, List.map_cons, List.map_nil, List.cons_prefix_cons] at h3
        have hb : (rotOf q).1 = (orbitOf o).epoch := by show epochAt q.1 = epochAt o.1; rw [h3.1]
        simp only [List.map_cons, List.map_nil]
        rw [if_neg (by rw [hb]; simp)]
  | _, x :: os, [], _, _, h, _, _, _ => by simp at h
  | _, x :: os, _ :: _, [], _, _, h, _, _ => by simp at h
  | s, x :: os, q :: qs, a :: as, hI, h1, h2, h3, hf => by
    simp only [List.map_cons, List.cons_prefix_cons] at h1 h2
    obtain ⟨s', g, hg, hI', hgr⟩ := hf s x (os ++ [o]) hI
    have h3' : os.map (·.1) = qs.map (·.1) ∨ (os ++ [o]).map (·.1) <+: qs.map (·.1) ∧ os.map (·.1) = as.map (·.1) := by
      simp only [List.cons_append, List.map_cons, List.cons_prefix_cons, List.cons.injEq] at h3
      rcases h3 with h | h
      · exact Or.inl h.2
      · exact Or.inr ⟨h.1.2, h.2.2⟩
    obtain ⟨gs, hgs, k1⟩ := accept_along_short (tol := tol) (o := o) (os' := os') hI' h1.2 h2.2 h3' hf
    have hb : (rotOf q).1 = (orbitOf x).epoch := by show epochAt q.1 = epochAt x.1; rw [h1.1]
    have hc : epochAt a.1 = (orbitOf x).epoch := by show epochAt a.1 = epochAt x.1; rw [h2.1]
    refine ⟨g :: gs, .cons hgr hgs, fun h => ?_⟩
    obtain ⟨w1, w2, w3⟩ := h 0 q a g rfl rfl rfl
    simp only [List.cons_append, List.map_cons]
    rw [accept, hg]
    simp only [rb, rot_transpose]
    rw [if_neg (by rw [hb]; simp), if_neg (by rw [hc]; simp), if_neg (by simpa using w1), if_neg (by simpa using w2), if_neg (by simpa using w3)]
    exact k1 fun i q' r' g' e1 e2 e3 => h (i + 1) q' r' g' e1 e2 e3

theorem accept_short {σ : Type} {I : σ → Prop} {f : σ → Orbit → Res (σ × Option V3)} {tol : ℝ} {P : ℚ × List ℚ → V3 → Prop} {o : ℚ × List ℚ}
    {os' : List (ℚ × List ℚ)} {s : σ} {os qs as : List (ℚ × List ℚ)} (hI : I s) (h1 : os.map (·.1) <+: qs.map (·.1)) (h2 : os.map (·.1) <+: as.map (·.1))
    (h3 : os.map (·.1) = qs.map (·.1) ∨ (os ++ [o]).map (·.1) <+: qs.map (·.1) ∧ os.map (·.1) = as.map (·.1))
    (hf : ∀ s, I s → ∀ x ∈ os ++ [o], ∃ s' g, f s (orbitOf x) = .ok (s', some g) ∧ I s' ∧ P x g) :
    ∃ gs, List.Forall₂ P os gs ∧ (AllWithin tol qs as gs →
      accept f tol s ((os ++ o :: os').map orbitOf) (qs.map rotOf) (as.map fun r => ⟨epochAt r.1, three r.2 0⟩) = .ub) :=
  accept_along_short (I := fun os s => I s ∧ ∀ s, I s → ∀ o ∈ os, ∃ s' g, f s (orbitOf o) = .ok (s', some g) ∧ I s' ∧ P o g) ⟨hI, hf⟩ h1 h2 h3 fun s o os h => by
    obtain ⟨s', g, e, h', hp⟩ := h.2 s h.1 o (by simp)
    exact ⟨s', g, e, ⟨h', fun s hs x hx => h.2 s hs x (by simp [hx])⟩, hp⟩

/-! ### The programs -/

/-- The Earth orientation file: format recognised, records in time order. -/
structure Recorded (tt dat : ℚ → ℚ) (lines : List (List Char)) (rs : List (Eop.Rec ℚ)) : Prop where
  holds : ∃ c20 : Bool, Eop.chooseSeries (some lines) = some c20 ∧ Eop.Holds (if c20 then Eop.Is20 tt dat else Eop.Is14 tt dat) lines rs
  sorted : Eop.Sorted rs

/-- Every epoch of the orbit lies between two records from two days before to three days after the first day. -/
def Covers (rs : List (Eop.Rec ℚ)) (os : List (ℚ × List ℚ)) : Prop :=
  ∀ o1 ∈ os.head?, ∀ o ∈ os, ∃ a b, Between rs (mjdTT o.1) a b ∧ (⌊o1.1⌋ : ℚ) - 2 ≤ a.t ∧ b.t < (⌊o1.1⌋ : ℚ) + 3

theorem between_inRange {rs : List (Eop.Rec ℚ)} {t s f : ℚ} {a b : Eop.Rec ℚ} (h : Between rs t a b) (ha : s ≤ a.t) (hb : b.t < f) :
    Between (Eop.inRange s f rs) t a b := by
  obtain ⟨⟨pre, post, rfl⟩, h1, h2⟩ := h
  refine ⟨⟨Eop.inRange s f pre, Eop.inRange s f post, ?_⟩, h1, h2⟩
  unfold Eop.inRange
  rw [List.filter_append, List.filter_cons_of_pos (by simp; constructor <;> linarith), List.filter_cons_of_pos (by simp; constructor <;> linarith)]

/-- The program with whatever UT1 the series gives at the epochs of the orbit. -/
theorem check_with (hK : Evaluates K n Cf Sf J) {tt dat : ℚ → ℚ} (h1 : 1 ≤ n) (h2 : n ≤ 180) {deg : Int} (hdeg : deg = n ∨ deg = -1)
    (hU : ∀ N g l l' F D Om v, U N g l l' F D Om v = Harmonic.potential 3.986004418e14 6378136.6 (Cf g l l' F D Om) (Sf g l l' F D Om) N N v)
    (hP : Periodic U) {make : Res (Option σ)} {oc : σ} (hm : make = .ok (some oc)) (hev : J oc)
    {orbit acc rot : List Char} {eop : List (List Char)} {o1 : ℚ × List ℚ} {os as qs : List (ℚ × List ℚ)} {rs : List (Eop.Rec ℚ)}
    (ho : Table 512 9 orbit (o1 :: os)) (ha : Table 256 3 acc as) (hq : Table 1024 9 rot qs) (he : Recorded tt dat eop rs)
    (hvne : Eop.inRange ((⌊o1.1⌋ : ℚ) - 2) ((⌊o1.1⌋ : ℚ) + 3) rs ≠ []) (h0 : ∀ o ∈ o1 :: os, three o.2 0 ≠ 0) {D : ℚ → ℚ → Prop}
    (hD : ∀ ser : Eop.Series ℚ, ser.vec = Eop.inRange ((⌊o1.1⌋ : ℚ) - 2) ((⌊o1.1⌋ : ℚ) + 3) rs → ser.CacheOk → Eop.Sorted ser.vec →
      ∀ o ∈ o1 :: os, ∃ st d ser', ser.approxDut1 dat (mjdTT o.1) = .ok (st, d, ser') ∧ D o.1 (d - dat (mjdTT o.1)))
    (W M : Epoch → Int → ℝ) (junkO junkR : Fin 10 → ℚ) (junkA : Fin 4 → ℚ) {junkE : List ℚ} (hj : 8 ≤ junkE.length) :
    ∃ (I : σ × Eop.Series ℚ → Prop) (s : _), I s ∧
      (∀ s, I s → ∀ o ∈ o1 :: os, ∃ s' g, tideStep K dat deg W M s (orbitOf o) = .ok (s', some g) ∧ I s' ∧ ∃ d, D o.1 d ∧
        Harmonic.IsGradient (tideAt U n (centuriesTT o.1) (daysUT1 o.1 d)) (three o.2 0) g) ∧
      checkTide K tt dat make deg W M junkO junkR junkA junkE (some orbit) (some acc) (some rot) (some eop) =
        accept (tideStep K dat deg W M) 1e-11 s ((o1 :: os).map orbitOf) (qs.map rotOf) (as.map fun r => ⟨epochAt r.1, three r.2 0⟩) := by
  obtain ⟨⟨c20, hh, hr⟩, hs⟩ := he
  obtain ⟨ser, e1, e2, e3, e4⟩ := Eop.parseC04_complete tt dat junkE hj ((⌊o1.1⌋ : ℚ) - 2) ((⌊o1.1⌋ : ℚ) + 3) (by linarith) c20 hh hr hs Eop.Series.new
  refine ⟨KeepsTide J (Eop.inRange ((⌊o1.1⌋ : ℚ) - 2) ((⌊o1.1⌋ : ℚ) + 3) rs), (oc, ser), ⟨hev, e2, e3, e4⟩, ?_, ?_⟩
  · intro s hs o ho
    obtain ⟨st, d, ser', ed, hd⟩ := hD s.2 hs.2.1 hs.2.2.1 hs.2.2.2 o ho
    obtain ⟨s', g, p1, p2, p3⟩ := tide_with hK dat h1 h2 hdeg hU hP W M hs hvne o (h0 o ho) ed
    exact ⟨s', g, p1, p2, _, hd, p3⟩
  · unfold checkTide
    rw [bench_orbit ho, bench_accelerations ha, parseRotary_rows hq]
    simp only [rb, List.map_cons]
    rw [show ((epochAt o1.1).1 : ℚ) = (⌊o1.1⌋ : ℚ) from rfl, e1, hm]
    simp only [rb, ne_eq, not_true_eq_false, if_false]
    rfl

theorem covered {dat : ℚ → ℚ} {rs : List (Eop.Rec ℚ)} {o1 : ℚ × List ℚ} {os : List (ℚ × List ℚ)} (hc : Covers rs (o1 :: os)) :
    Eop.inRange ((⌊o1.1⌋ : ℚ) - 2) ((⌊o1.1⌋ : ℚ) + 3) rs ≠ [] ∧
    ∀ ser : Eop.Series ℚ, ser.vec = Eop.inRange ((⌊o1.1⌋ : ℚ) - 2) ((⌊o1.1⌋ : ℚ) + 3) rs → ser.CacheOk → Eop.Sorted ser.vec →
      ∀ o ∈ o1 :: os, ∃ st d ser', ser.approxDut1 dat (mjdTT o.1) = .ok (st, d, ser') ∧
        ∃ a b, Between rs (mjdTT o.1) a b ∧ d - dat (mjdTT o.1) = ut1Tai a b (mjdTT o.1) := by
  refine ⟨?_, ?_⟩
  · obtain ⟨a, b, hb, l1, l2⟩ := hc o1 rfl o1 (by simp)
    obtain ⟨⟨pre, post, e⟩, -⟩ := between_inRange hb l1 l2
    rw [e]
    simp
  · intro ser hv hcache hsort o ho
    obtain ⟨a, b, hb, l1, l2⟩ := hc o1 rfl o ho
    obtain ⟨⟨pre, post, e⟩, hat, htb⟩ := between_inRange hb l1 l2
    obtain ⟨d, ser', ed, hd⟩ := (Eop.approx_dut1_spec dat hsort hcache (mjdTT o.1)).2.2 pre a b post (hv.trans e) hat htb
    exact ⟨_, d, ser', ed, a, b, hb, hd⟩

theorem check_tide (hK : Evaluates K n Cf Sf J) {tt dat : ℚ → ℚ} (h1 : 1 ≤ n) (h2 : n ≤ 180) {deg : Int} (hdeg : deg = n ∨ deg = -1)
    (hU : ∀ N g l l' F D Om v, U N g l l' F D Om v = Harmonic.potential 3.986004418e14 6378136.6 (Cf g l l' F D Om) (Sf g l l' F D Om) N N v)
    (hP : Periodic U) {make : Res (Option σ)} {oc : σ} (hm : make = .ok (some oc)) (hev : J oc)
    {orbit acc rot : List Char} {eop : List (List Char)} {os as qs : List (ℚ × List ℚ)} {rs : List (Eop.Rec ℚ)} (ho : Table 512 9 orbit os)
    (ha : Table 256 3 acc as) (hq : Table 1024 9 rot qs) (he : Recorded tt dat eop rs) (hc : Covers rs os) (hne : os ≠ [])
    (h3 : os.map (·.1) <+: qs.map (·.1)) (h4 : os.map (·.1) <+: as.map (·.1)) (h0 : ∀ o ∈ os, three o.2 0 ≠ 0) (W M : Epoch → Int → ℝ)
    (junkO junkR : Fin 10 → ℚ) (junkA : Fin 4 → ℚ) {junkE : List ℚ} (hj : 8 ≤ junkE.length) :
    ∃ gs, TideAccels U n rs os gs ∧
      (AllWithin 1e-11 qs as gs → checkTide K tt dat make deg W M junkO junkR junkA junkE (some orbit) (some acc) (some rot) (some eop) = .ok 0) ∧
      (¬ AllWithin 1e-11 qs as gs → checkTide K tt dat make deg W M junkO junkR junkA junkE (some orbit) (some acc) (some rot) (some eop) = .abort) := by
  obtain ⟨o1, os', rfl⟩ : ∃ o1 os', os = o1 :: os' := by
    cases os with
    | nil => exact absurd rfl hne
    | cons o1 os' => exact ⟨o1, os', rfl⟩
  obtain ⟨c1, c2⟩ := covered (dat := dat) hc
  obtain ⟨I, s, hs, hstep, heq⟩ := check_with hK h1 h2 hdeg hU hP hm hev ho ha hq he c1 h0
    (D := fun t d => ∃ a b, Between rs (mjdTT t) a b ∧ d = ut1Tai a b (mjdTT t)) c2 W M junkO junkR junkA hj
  obtain ⟨gs, g1, g2, g3⟩ := accept_rows (tol := 1e-11) hs h3 h4 hstep
  refine ⟨gs, ?_, by rw [heq]; exact g2, by rw [heq]; exact g3⟩
  refine g1.imp fun o g h => ?_
  obtain ⟨d, ⟨a, b, hb, rfl⟩, hg⟩ := h
  exact ⟨a, b, hb, hg⟩

/-- C94 fails on an orbit without rows: the first element of an empty vector is read. -/
theorem check_empty_fails (K : TideObj σ) (tt dat : ℚ → ℚ) (make : Res (Option σ)) (deg : Int) (W M : Epoch → Int → ℝ) (junkO junkR : Fin 10 → ℚ)
    (junkA : Fin 4 → ℚ) (junkE : List ℚ) {orbit acc rot : List Char} {as qs : List (ℚ × List ℚ)} (eop : Option (List (List Char)))
    (ho : Table 512 9 orbit []) (ha : Table 256 3 acc as) (hq : Table 1024 9 rot qs) :
    checkTide K tt dat make deg W M junkO junkR junkA junkE (some orbit) (some acc) (some rot) eop = .ub := by
  unfold checkTide
  rw [bench_orbit ho, bench_accelerations ha, parseRotary_rows hq]
  rfl

theorem making {m : Res Tide.Ocean} {o : Tide.Ocean} (h : m = .ok o) : (m.bind fun o => .ok (some o)) = .ok (some o) := by rw [h]; rfl

section Files
open Verif.Groops Verif.Icgem Verif.Doodson Verif.Chars

variable {T : Type} [LinearOrder T] {cal : Cal T} {disk : List Int → Option (List Char)} {dir : List Int} {list : List (List Int)}
  {waves : List (Wave T)} {tt dat : ℚ → ℚ} {md mo : Int}

theorem waves_periodic : Periodic fun N g l l' F D Om => wavesPotential waves md mo N g l l' F D Om := by
  intro N g l l' F D Om g1 l1 l1' F1 D1 Om1 r hg hl hl' hF hD hO
  show wavesPotential _ _ _ _ _ _ _ _ _ _ _ = wavesPotential _ _ _ _ _ _ _ _ _ _ _
  unfold wavesPotential Wave.potential
  congr 1
  refine List.map_congr_left fun w _ => ?_
  obtain ⟨e1, e2⟩ := cos_cong (angle_cong w.d hg hl hl' hF hD hO)
  rw [e1, e2]

theorem all_periodic (dood : List DC) (adm : List (List ℚ)) : Periodic fun N g l l' F D Om => allPotential waves dood adm md mo N g l l' F D Om := by
  intro N g l l' F D Om g1 l1 l1' F1 D1 Om1 r hg hl hl' hF hD hO
  show allPotential _ _ _ _ _ _ _ _ _ _ _ _ _ = allPotential _ _ _ _ _ _ _ _ _ _ _ _ _
  unfold allPotential Wave.potential
  refine Finset.sum_congr rfl fun f _ => Finset.sum_congr rfl fun k _ => ?_
  obtain ⟨e1, e2⟩ := cos_cong (angle_cong dood[f] hg hl hl' hF hD hO)
  rw [e1, e2]

theorem waves_conventional (hc : ∀ w ∈ waves, w.Constants 3.986004418e14 6378136.6) (N : Nat) (g l l' F D Om : ℝ) (v : V3) :
    wavesPotential waves md mo N g l l' F D Om v = Harmonic.potential 3.986004418e14 6378136.6
      (fun i j => (waves.map fun w => w.at md mo Record.C (angle w.d g l l' F D Om) i j).sum)
      (fun i j => (waves.map fun w => w.at md mo Record.S (angle w.d g l l' F D Om) i j).sum) N N v := by
  rw [← waves_potential hc]
  norm_num

/-- The input of a program: the tables of the benchmark, the Earth orientation, and the files of a tide model that have the constants of the
Conventions, all read to degree `n`, one of the cosine files to order `n`. -/
structure Input (cal : Cal T) (disk : List Int → Option (List Char)) (dir : List Int) (list : List (List Int)) (md mo : Int) (waves : List (Wave T))
    (n : Nat) (tt dat : ℚ → ℚ) (orbit acc rot : List Char) (eop : List (List Char)) (os as qs : List (ℚ × List ℚ)) (rs : List (Eop.Rec ℚ)) : Prop where
  stored : StoredModel cal disk dir md mo list waves
  degree : ∀ w ∈ waves, w.cos.degree md = n ∧ w.sin.degree md = n
  full : ∃ w ∈ waves, w.cos.Full md mo
  constants : ∀ w ∈ waves, w.Constants 3.986004418e14 6378136.6
  orbit : Table 512 9 orbit os
  acc : Table 256 3 acc as
  rot : Table 1024 9 rot qs
  eop : Recorded tt dat eop rs
  covers : Covers rs os
  some : os ≠ []
  rots : os.map (·.1) <+: qs.map (·.1)
  accs : os.map (·.1) <+: as.map (·.1)
  away : ∀ o ∈ os, three o.2 0 ≠ 0

variable {orbit acc rot : List Char} {eop : List (List Char)} {os as qs : List (ℚ × List ℚ)} {rs : List (Eop.Rec ℚ)}

/-- C94, ocean tide with the major waves of FES2014b: exit status 0 if in every row the benchmark is within 1e-11 m/s² of the gradient of the
potential of the waves of degrees 2 to 180, sidereal time and arguments being those of the Conventions at the epoch of the row; otherwise
an assertion is violated. Missing: files with other constants (`Groops.ocean_force_fails`), rows missing in a table (`check_short_fails`),
an empty orbit (`check_empty_fails`), epochs outside the Earth orientation (`check_late_fails`). -/
theorem check_fes_partial (h : Input cal disk dir list 180 180 waves 180 tt dat orbit acc rot eop os as qs rs) (junkErr : ErrorModel)
    (junkG : Entry T) (junkC : Nat → Nat → ℝ) (W M : Epoch → Int → ℝ) (junkO junkR : Fin 10 → ℚ) (junkA : Fin 4 → ℚ) {junkE : List ℚ}
    (hj : 8 ≤ junkE.length) :
    ∃ gs, TideAccels (wavesPotential waves 180 180) 180 rs os gs ∧
      (AllWithin 1e-11 qs as gs → checkFes cal disk junkErr junkG junkC (some list) dir tt dat W M junkO junkR junkA junkE (some orbit) (some acc)
        (some rot) (some eop) = .ok 0) ∧
      (¬ AllWithin 1e-11 qs as gs → checkFes cal disk junkErr junkG junkC (some list) dir tt dat W M junkO junkR junkA junkE (some orbit) (some acc)
        (some rot) (some eop) = .abort) := by
  obtain ⟨o, e, ho⟩ := ocean_evals (junk := junkC) (junkErr := junkErr) (junkE := junkG) h.stored h.degree h.full (by norm_num)
  exact check_tide ocean_evaluates (by norm_num) le_rfl (Or.inl rfl) (waves_conventional h.constants) waves_periodic (making e) ho h.orbit h.acc h.rot h.eop h.covers h.some h.rots h.accs
    h.away W M junkO junkR junkA hj

/-- C94, EOT11a: likewise up to the degree `n` of the files. -/
theorem check_eot_partial {n : Nat} (h : Input cal disk dir list (-1) (-1) waves n tt dat orbit acc rot eop os as qs rs) (h1 : 1 ≤ n) (h2 : n ≤ 180)
    (junkErr : ErrorModel) (junkG : Entry T) (junkC : Nat → Nat → ℝ) (W M : Epoch → Int → ℝ) (junkO junkR : Fin 10 → ℚ) (junkA : Fin 4 → ℚ)
    {junkE : List ℚ} (hj : 8 ≤ junkE.length) :
    ∃ gs, TideAccels (wavesPotential waves (-1) (-1)) n rs os gs ∧
      (AllWithin 1e-11 qs as gs → checkEot cal disk junkErr junkG junkC (some list) dir tt dat W M junkO junkR junkA junkE (some orbit) (some acc)
        (some rot) (some eop) = .ok 0) ∧
      (¬ AllWithin 1e-11 qs as gs → checkEot cal disk junkErr junkG junkC (some list) dir tt dat W M junkO junkR junkA junkE (some orbit) (some acc)
        (some rot) (some eop) = .abort) := by
  obtain ⟨o, e, ho⟩ := ocean_evals (junk := junkC) (junkErr := junkErr) (junkE := junkG) h.stored h.degree h.full h1
  exact check_tide ocean_evaluates h1 h2 (Or.inr rfl) (waves_conventional h.constants) waves_periodic (making e) ho h.orbit h.acc h.rot h.eop h.covers h.some h.rots h.accs h.away
    W M junkO junkR junkA hj

/-- The files of admittances: Doodson numbers of all waves, and a row for every major wave. -/
structure AdmittanceFiles (waves : List (Wave T)) (f2 f3 : List (List Char)) (dood : List DC) (adm : List (List ℚ)) : Prop where
  numbers : List.Forall₂ (fun line (d : DC) => line.length < 124 ∧ IntsAre line [d.i0, d.i1, d.i2, d.i3, d.i4, d.i5]) f2 dood
  some : dood ≠ []
  rows : RowsAre dood.length f3 adm
  count : adm.length = waves.length

variable {f2 f3 : List (List Char)} {dood : List DC} {adm : List (List ℚ)}

/-- C94, FES2014b with admittances: likewise with the potential of all waves. -/
theorem check_fes_admittance_partial (h : Input cal disk dir list 180 180 waves 180 tt dat orbit acc rot eop os as qs rs)
    (hf : AdmittanceFiles waves f2 f3 dood adm) (junkErr : ErrorModel) (junkG : Entry T) (junkC : Nat → Nat → ℝ) {junkI : List Int}
    (hI : junkI.length = 6) (junkM : Nat → Nat → ℚ) (W M : Epoch → Int → ℝ) (junkO junkR : Fin 10 → ℚ) (junkA : Fin 4 → ℚ) {junkE : List ℚ}
    (hj : 8 ≤ junkE.length) :
    ∃ gs, TideAccels (allPotential waves dood adm 180 180) 180 rs os gs ∧
      (AllWithin 1e-11 qs as gs → checkFesAdm cal disk junkErr junkG junkC junkI junkM (some list) (some f2) (some f3) dir tt dat W M junkO junkR junkA
        junkE (some orbit) (some acc) (some rot) (some eop) = .ok 0) ∧
      (¬ AllWithin 1e-11 qs as gs → checkFesAdm cal disk junkErr junkG junkC junkI junkM (some list) (some f2) (some f3) dir tt dat W M junkO junkR
        junkA junkE (some orbit) (some acc) (some rot) (some eop) = .abort) := by
  obtain ⟨o, e, ho⟩ := admittance_evals (junk := junkC) (junkErr := junkErr) (junkE := junkG) (junkA := junkM) h.stored h.degree h.full (by norm_num)
    hI hf.numbers hf.some hf.rows hf.count
  exact check_tide ocean_evaluates (by norm_num) le_rfl (Or.inl rfl) (fun N g l l' F D Om v => (all_potential h.constants dood adm g l l' F D Om v).symm)
    (all_periodic dood adm) (making e) ho h.orbit h.acc h.rot h.eop h.covers h.some h.rots h.accs h.away W M junkO junkR junkA hj

/-- C94, EOT11a with admittances. -/
theorem check_eot_admittance_partial {n : Nat} (h : Input cal disk dir list (-1) (-1) waves n tt dat orbit acc rot eop os as qs rs) (h1 : 1 ≤ n)
    (h2 : n ≤ 180) (hf : AdmittanceFiles waves f2 f3 dood adm) (junkErr : ErrorModel) (junkG : Entry T) (junkC : Nat → Nat → ℝ) {junkI : List Int}
    (hI : junkI.length = 6) (junkM : Nat → Nat → ℚ) (W M : Epoch → Int → ℝ) (junkO junkR : Fin 10 → ℚ) (junkA : Fin 4 → ℚ) {junkE : List ℚ}
    (hj : 8 ≤ junkE.length) :
    ∃ gs, TideAccels (allPotential waves dood adm (-1) (-1)) n rs os gs ∧
      (AllWithin 1e-11 qs as gs → checkEotAdm cal disk junkErr junkG junkC junkI junkM (some list) (some f2) (some f3) dir tt dat W M junkO junkR junkA
        junkE (some orbit) (some acc) (some rot) (some eop) = .ok 0) ∧
      (¬ AllWithin 1e-11 qs as gs → checkEotAdm cal disk junkErr junkG junkC junkI junkM (some list) (some f2) (some f3) dir tt dat W M junkO junkR
        junkA junkE (some orbit) (some acc) (some rot) (some eop) = .abort) := by
  obtain ⟨o, e, ho⟩ := admittance_evals (junk := junkC) (junkErr := junkErr) (junkE := junkG) (junkA := junkM) h.stored h.degree h.full h1
    hI hf.numbers hf.some hf.rows hf.count
  exact check_tide ocean_evaluates h1 h2 (Or.inr rfl) (fun N g l l' F D Om v => (all_potential h.constants dood adm g l l' F D Om v).symm)
    (all_periodic dood adm) (making e) ho h.orbit h.acc h.rot h.eop h.covers h.some h.rots h.accs h.away W M junkO junkR junkA hj

/-- C94 fails when rotations or accelerations have fewer rows than the orbit, those they have being within the tolerance: the program reads
behind the end of a vector. -/
theorem check_short_fails {o1 : ℚ × List ℚ} {os os' : List (ℚ × List ℚ)} {o : ℚ × List ℚ} (hs : StoredModel cal disk dir 180 180 list waves)
    (hn : ∀ w ∈ waves, w.cos.degree 180 = 180 ∧ w.sin.degree 180 = 180) (hf : ∃ w ∈ waves, w.cos.Full 180 180)
    (hc : ∀ w ∈ waves, w.Constants 3.986004418e14 6378136.6) (ho : Table 512 9 orbit (o1 :: os ++ o :: os')) (ha : Table 256 3 acc as)
    (hq : Table 1024 9 rot qs) (he : Recorded tt dat eop rs) (hcov : Covers rs (o1 :: os ++ o :: os'))
    (h0 : ∀ x ∈ o1 :: os ++ o :: os', three x.2 0 ≠ 0) (h1 : (o1 :: os).map (·.1) <+: qs.map (·.1)) (h2 : (o1 :: os).map (·.1) <+: as.map (·.1))
    (h3 : (o1 :: os).map (·.1) = qs.map (·.1) ∨ (o1 :: os ++ [o]).map (·.1) <+: qs.map (·.1) ∧ (o1 :: os).map (·.1) = as.map (·.1))
    (junkErr : ErrorModel) (junkG : Entry T) (junkC : Nat → Nat → ℝ) (W M : Epoch → Int → ℝ) (junkO junkR : Fin 10 → ℚ) (junkA : Fin 4 → ℚ)
    {junkE : List ℚ} (hj : 8 ≤ junkE.length) :
    ∃ gs, TideAccels (wavesPotential waves 180 180) 180 rs (o1 :: os) gs ∧ (AllWithin 1e-11 qs as gs →
      checkFes cal disk junkErr junkG junkC (some list) dir tt dat W M junkO junkR junkA junkE (some orbit) (some acc) (some rot) (some eop) = .ub) := by
  obtain ⟨oc, e, hev⟩ := ocean_evals (junk := junkC) (junkErr := junkErr) (junkE := junkG) hs hn hf (by norm_num)
  obtain ⟨c1, c2⟩ := covered (dat := dat) hcov
  obtain ⟨I, s, hs, hstep, heq⟩ := check_with ocean_evaluates (n := 180) (by norm_num) le_rfl (Or.inl rfl) (waves_conventional hc) waves_periodic (making e) hev ho ha hq he c1 h0
    (D := fun t d => ∃ a b, Between rs (mjdTT t) a b ∧ d = ut1Tai a b (mjdTT t)) c2 W M junkO junkR junkA hj
  obtain ⟨gs, g1, g2⟩ := accept_short (tol := 1e-11) (o := o) (os := o1 :: os) (os' := os') hs h1 h2 h3 (fun t ht x hx => hstep t ht x (by
    show x ∈ (o1 :: os) ++ o :: os'
    rcases List.mem_append.mp hx with h | h
    · exact List.mem_append.mpr (Or.inl h)
    · rw [List.mem_singleton.mp h]
      exact List.mem_append.mpr (Or.inr (by simp))))
  refine ⟨gs, ?_, fun h => ?_⟩
  · refine g1.imp fun o g h => ?_
    obtain ⟨d, ⟨a, b, hb, rfl⟩, hg⟩ := h
    exact ⟨a, b, hb, hg⟩
  · exact heq.trans (g2 h)

/-- C94 fails at epochs that the Earth orientation read does not reach, and nothing tells: with `rn` the last record before the third day after
the first day of the orbit, later epochs of the orbit are computed with UT1-UTC of `rn`. -/
theorem check_late_fails {o1 : ℚ × List ℚ} {os : List (ℚ × List ℚ)} (hs : StoredModel cal disk dir 180 180 list waves)
    (hn : ∀ w ∈ waves, w.cos.degree 180 = 180 ∧ w.sin.degree 180 = 180) (hf : ∃ w ∈ waves, w.cos.Full 180 180)
    (hc : ∀ w ∈ waves, w.Constants 3.986004418e14 6378136.6) (ho : Table 512 9 orbit (o1 :: os)) (ha : Table 256 3 acc as)
    (hq : Table 1024 9 rot qs) {pre : List (Eop.Rec ℚ)} {rn : Eop.Rec ℚ} {post : List (Eop.Rec ℚ)} (he : Recorded tt dat eop (pre ++ rn :: post))
    (hr1 : (⌊o1.1⌋ : ℚ) - 2 ≤ rn.t) (hr2 : rn.t < (⌊o1.1⌋ : ℚ) + 3) (hr3 : ∀ r ∈ post, (⌊o1.1⌋ : ℚ) + 3 ≤ r.t)
    (hlate : ∀ o ∈ o1 :: os, rn.t ≤ mjdTT o.1)
    (h0 : ∀ x ∈ o1 :: os, three x.2 0 ≠ 0) (h1 : (o1 :: os).map (·.1) <+: qs.map (·.1)) (h2 : (o1 :: os).map (·.1) <+: as.map (·.1))
    (junkErr : ErrorModel) (junkG : Entry T) (junkC : Nat → Nat → ℝ) (W M : Epoch → Int → ℝ) (junkO junkR : Fin 10 → ℚ) (junkA : Fin 4 → ℚ)
    {junkE : List ℚ} (hj : 8 ≤ junkE.length) :
    ∃ gs, List.Forall₂ (fun o g => Harmonic.IsGradient (tideAt (wavesPotential waves 180 180) 180 (centuriesTT o.1)
        (daysUT1 o.1 (rn.dut - dat (mjdTT o.1)))) (three o.2 0) g) (o1 :: os) gs ∧ (AllWithin 1e-11 qs as gs →
      checkFes cal disk junkErr junkG junkC (some list) dir tt dat W M junkO junkR junkA junkE (some orbit) (some acc) (some rot) (some eop) = .ok 0) := by
  obtain ⟨oc, e, hev⟩ := ocean_evals (junk := junkC) (junkErr := junkErr) (junkE := junkG) hs hn hf (by norm_num)
  have hv : Eop.inRange ((⌊o1.1⌋ : ℚ) - 2) ((⌊o1.1⌋ : ℚ) + 3) (pre ++ rn :: post) = Eop.inRange ((⌊o1.1⌋ : ℚ) - 2) ((⌊o1.1⌋ : ℚ) + 3) pre ++ [rn] := by
    have hp : Eop.inRange ((⌊o1.1⌋ : ℚ) - 2) ((⌊o1.1⌋ : ℚ) + 3) post = [] := by
      rw [Eop.inRange, List.filter_eq_nil_iff]
      intro r hr
      have := hr3 r hr
      simp only [decide_eq_true_eq, not_and, not_lt]
      exact fun _ => this
    unfold Eop.inRange at hp ⊢
    rw [List.filter_append, List.filter_cons_of_pos (by simp; constructor <;> linarith), hp]
  obtain ⟨I, s, hs, hstep, heq⟩ := check_with ocean_evaluates (n := 180) (by norm_num) le_rfl (Or.inl rfl) (waves_conventional hc) waves_periodic (making e) hev ho ha hq he
    (by rw [hv]; simp) h0 (D := fun t d => d = rn.dut - dat (mjdTT t)) (fun ser hvec hcache hsort o ho => by
      obtain ⟨ser', ed⟩ := (Eop.approx_dut1_spec dat hsort hcache (mjdTT o.1)).2.1 _ rn (hvec.trans hv) (hlate o ho)
      exact ⟨_, _, ser', ed, rfl⟩) W M junkO junkR junkA hj
  obtain ⟨gs, g1, g2, -⟩ := accept_rows (tol := 1e-11) hs h1 h2 hstep
  refine ⟨gs, ?_, fun h => heq.trans (g2 h)⟩
  refine g1.imp fun o g h => ?_
  obtain ⟨d, rfl, hg⟩ := h
  exact hg

end Files

end Verif.Costg

/-! ### An example: a wave of degree 2, two epochs -/

namespace Verif.Costg
open Verif Verif.Groops Verif.Icgem Verif.Icgem.Head Verif.Doodson Verif.Chars

/-- A gravity file of degree 2 with the constants of the Conventions. -/
def exGfc2 : Gfc Int where
  header := ["modelname T".toList, "max_degree 2".toList, "errors no".toList, "earth_gravity_constant 3.986004418e14".toList,
    "radius 6378136.6".toList]
  settings := [.modelName "T".toList, .maxDegree 2, .errors .no, .gm 3.986004418e14, .radius 6378136.6]
  errors := .no
  tail := []
  data := ["gfc  2 2 1.5e-3 2.0".toList]
  records := [⟨.static, 2, 2, 3 / 2000, 2, none, none⟩]

theorem exGfc2_ok : exGfc2.Ok exCal (-1) (-1) where
  header := by
    refine .gives (plain_of (by decide) (by decide) (by decide)) ⟨"T".toList, ⟨0, 0, rfl, by decide, by decide⟩,
      ⟨0, rfl, by decide, by decide⟩, by decide⟩ ?_
    refine .gives (plain_of (by decide) (by decide) (by decide)) ⟨['2'], [], ⟨0, 0, rfl, by simp, by decide⟩, 0, ⟨false, ['2']⟩,
      ⟨by simp, by decide⟩, by decide, rfl, by simp, by decide, by decide⟩ ?_
    refine .gives (plain_of (by decide) (by decide) (by decide)) ⟨"no".toList, ⟨0, 0, rfl, by decide, by decide⟩, [], rfl, by simp⟩ ?_
    refine .gives (plain_of (by decide) (by decide) (by decide)) ⟨"3.986004418e14".toList, ⟨0, 0, rfl, by decide, by decide⟩,
      ⟨false, ['3'], some "986004418".toList, some ('e', none, ['1', '4'])⟩, [], Dec.ok_of (by decide), by decide +kernel, by decide,
      by unfold Ends; decide⟩ ?_
    refine .gives (plain_of (by decide) (by decide) (by decide)) ⟨"6378136.6".toList, ⟨0, 0, rfl, by decide, by decide⟩,
      ⟨false, "6378136".toList, some ['6'], none⟩, [], Dec.ok_of (by decide), by decide +kernel, by decide, by unfold Ends; decide⟩ .nil
  short := by simp [exGfc2]
  errors := rfl
  name := show 1 < 64 by decide
  tail := by simp [exGfc2]
  one := by simp [exGfc2]
  lines := by
    rw [if_neg (show ¬ (lastOf Setting.format? false exGfc2.settings = true) from show ¬ (false = true) by decide)]
    refine .cons ⟨by decide, _, fortran_refl _, noFortran_of (by decide),
        Line1.gfc (cal := exCal) (line := " 2 2 1.5e-3 2.0".toList) (rest := []) ?_⟩ .nil
    exact ⟨" 2 1.5e-3 2.0".toList, " 1.5e-3 2.0".toList, " 2.0".toList,
      ⟨[' '], ⟨false, ['2']⟩, by decide, ⟨by decide, by decide⟩, rfl, rfl, by simp [isDig], by decide, by decide⟩,
      ⟨[' '], ⟨false, ['2']⟩, by decide, ⟨by decide, by decide⟩, rfl, rfl, by simp [isDig], by decide, by decide⟩,
      ⟨[' '], ⟨false, ['1'], some ['5'], some ('e', some true, ['3'])⟩, by decide, Dec.ok_of (by decide), by decide +kernel, rfl,
        fun _ => by simp [Ends, isDig]⟩,
      ⟨[' '], ⟨false, ['2'], some ['0'], none⟩, by decide, Dec.ok_of (by decide), by decide +kernel, rfl, fun _ => by simp [Ends]⟩⟩
  static := by simp [exGfc2]
  triangle := by simp [exGfc2]
  order := by
    show 0 ≤ (2 : Int) ∧ (2 : Int) ≤ 2
    decide
  degree := le_rfl

def dC04 (u : String) : List Dec := [num "0" "059", num "0" "247", num "0" u, num "0" "0005", num "0" "", num "0" ""]

/-- Two days of Earth orientation in the format C04/14. -/
def exC04 : List (List Char) := [' ' :: Eop.h1c0414, ' ' :: Eop.h2c0414, ' ' :: Eop.h3c0414,
  "2018   1   1".toList ++ ("  58119".toList ++ joined (dC04 "2166")), "2018   1   2".toList ++ ("  58120".toList ++ joined (dC04 "2156"))]

def exTT (utc : ℚ) : ℚ := utc + (37 + 32.184) / 86400
def exRecs : List (Eop.Rec ℚ) := [⟨exTT 58119, 0.059, 0.247, 0.2166, 0.0005, 0, 0, 37, 0, 0⟩, ⟨exTT 58120, 0.059, 0.247, 0.2156, 0.0005, 0, 0, 37, 0, 0⟩]

theorem exRecorded : Recorded exTT (fun _ => 37) exC04 exRecs where
  holds := by
    refine ⟨false, by decide +kernel, ?_⟩
    refine .comment (by decide) (.inr ⟨_, .inl rfl⟩) (.comment (by decide) (.inr ⟨_, .inl rfl⟩) (.comment (by decide) (.inr ⟨_, .inl rfl⟩) ?_))
    have ok : ∀ u ∈ ["2166", "2156"], LineIs (joined (dC04 u)) ((dC04 u).map Dec.value) := by
      intro u hu
      refine joined_is _ fun d hd => ?_
      simp only [dC04, List.mem_cons, List.not_mem_nil, or_false] at hd hu
      rcases hu with rfl | rfl <;> rcases hd with rfl | rfl | rfl | rfl | rfl | rfl <;> exact Dec.ok_of (by decide)
    refine .data (by decide +kernel) ⟨58119, _, _, ⟨"2018   1   1".toList, rfl, rfl, by rw [← Eop.isComment_iff]; decide⟩,
      ⟨2, ⟨false, "58119".toList⟩, ⟨by decide, by decide⟩, rfl, rfl, by decide +kernel, by decide, by decide⟩, ?_, by decide +kernel, by decide +kernel, rfl, rfl⟩
      (.data (by decide +kernel) ⟨58120, _, _, ⟨"2018   1   2".toList, rfl, rfl, by rw [← Eop.isComment_iff]; decide⟩,
      ⟨2, ⟨false, "58120".toList⟩, ⟨by decide, by decide⟩, rfl, rfl, by decide +kernel, by decide, by decide⟩, ?_, by decide +kernel, by decide +kernel, rfl, rfl⟩ .nil)
    · have := ok "2166" (by decide)
      rwa [show (dC04 "2166").map Dec.value = [0.059, 0.247, 0.2166, 0.0005, 0, 0] from by decide +kernel] at this
    · have := ok "2156" (by decide)
      rwa [show (dC04 "2156").map Dec.value = [0.059, 0.247, 0.2156, 0.0005, 0, 0] from by decide +kernel] at this
  sorted := by unfold Eop.Sorted; decide +kernel

/-- The hypotheses of `check_eot_partial` and `check_eot_admittance_partial` are met; the tide is not zero. -/
theorem exInput : Input exCal (exDisk exGfc2 exGfc2) (bytes "data") [bytes "TiME22_162.556_pi1_cos.gfc TiME22_162.556_pi1_sin.gfc"] (-1) (-1)
    [exWave exGfc2 exGfc2] 2 exTT (fun _ => 37) exOrbit exAcc exRot exC04 [rowOf dOrbit1, rowOf dOrbit2] [rowOf dAcc1, rowOf dAcc2]
    [rowOf dRot1, rowOf dRot2] exRecs where
  stored := exStored_of exGfc2_ok exGfc2_ok
  degree := by
    intro w hw
    rw [List.mem_singleton.mp hw]
    exact ⟨rfl, rfl⟩
  full := ⟨_, List.mem_singleton.mpr rfl, _, List.mem_singleton.mpr rfl, rfl, rfl, le_rfl⟩
  constants := by
    intro w hw
    rw [List.mem_singleton.mp hw]
    exact ⟨rfl, rfl, rfl, rfl⟩
  orbit := exOrbit_table
  acc := exAcc_table
  rot := exRot_table
  eop := exRecorded
  covers := by
    intro o1 h1 o ho
    simp only [List.head?_cons, Option.mem_def, Option.some.injEq] at h1
    subst h1
    refine ⟨_, _, ⟨⟨[], [], rfl⟩, ?_, ?_⟩, by decide +kernel, by decide +kernel⟩ <;>
    · simp only [List.mem_cons, List.not_mem_nil, or_false] at ho
      rcases ho with rfl | rfl <;> decide +kernel
  some := by simp
  rots := by decide +kernel
  accs := by decide +kernel
  away := by
    intro o ho
    simp only [List.mem_cons, List.not_mem_nil, or_false] at ho
    rcases ho with rfl | rfl <;> exact three_ne (by decide +kernel)

example : (exWave exGfc2 exGfc2).cos.value (-1) (-1) Record.C 2 2 = 3 / 2000 := by
  unfold Gfc.value
  rw [if_pos (by show (2 : Int) ≤ 2; decide)]
  simp [exWave, exGfc2]

/-- Sidereal time of the example is computed with UT1 between the two days: UT1-TAI is near -36.7836 s at the first epoch. -/
example : ∃ a b, Between exRecs (mjdTT (rowOf dOrbit1).1) a b ∧
    ut1Tai a b (mjdTT (rowOf dOrbit1).1) = -36.7834 - 0.001 * (0.25 - 18 / 86400) :=
  ⟨_, _, ⟨⟨[], [], rfl⟩, by decide +kernel, by decide +kernel⟩, by decide +kernel⟩

theorem exAdm (c s : Gfc Int) : AdmittanceFiles [exWave c s] ["1 1 -3 0 0  1".toList] ["0.5".toList] [⟨1, 1, -3, 0, 0, 1, 0⟩] [[1 / 2]] where
  numbers := by
    refine .cons ⟨by decide, ?_⟩ .nil
    exact ⟨" 1 -3 0 0  1".toList, ⟨0, ⟨false, ['1']⟩, ⟨by decide, by decide⟩, rfl, rfl, by decide, by decide, by decide⟩,
      " -3 0 0  1".toList, ⟨1, ⟨false, ['1']⟩, ⟨by decide, by decide⟩, rfl, rfl, by decide, by decide, by decide⟩,
      " 0 0  1".toList, ⟨1, ⟨true, ['3']⟩, ⟨by decide, by decide⟩, rfl, rfl, by decide, by decide, by decide⟩,
      " 0  1".toList, ⟨1, ⟨false, ['0']⟩, ⟨by decide, by decide⟩, rfl, rfl, by decide, by decide, by decide⟩,
      "  1".toList, ⟨1, ⟨false, ['0']⟩, ⟨by decide, by decide⟩, rfl, rfl, by decide, by decide, by decide⟩,
      [], ⟨2, ⟨false, ['1']⟩, ⟨by decide, by decide⟩, rfl, rfl, by decide, by decide, by decide⟩, trivial⟩
  some := by simp
  rows := by
    refine .cons ⟨by decide, ?_, rfl⟩ .nil
    exact ⟨0, ⟨false, ['0'], some ['5'], none⟩, [], Dec.ok_of (by decide), by decide +kernel, by decide, by unfold Ends; decide,
      by unfold LineIs Ends; decide⟩
  count := rfl

example (junkErr : ErrorModel) (junkG : Entry Int) (junkC : Nat → Nat → ℝ) (W M : Epoch → Int → ℝ) (junkO junkR : Fin 10 → ℚ) (junkA : Fin 4 → ℚ) :=
  check_eot_partial exInput (by norm_num) (by norm_num) junkErr junkG junkC W M junkO junkR junkA (junkE := List.replicate 8 0) (by decide)

example (junkErr : ErrorModel) (junkG : Entry Int) (junkC : Nat → Nat → ℝ) (junkM : Nat → Nat → ℚ) (W M : Epoch → Int → ℝ)
    (junkO junkR : Fin 10 → ℚ) (junkA : Fin 4 → ℚ) :=
  check_eot_admittance_partial exInput (by norm_num) (by norm_num) (exAdm _ _) junkErr junkG junkC (junkI := List.replicate 6 0) (by decide) junkM W M
    junkO junkR junkA (junkE := List.replicate 8 0) (by decide)

/-- A gravity file of degree 180. -/
def exGfcFes : Gfc Int where
  header := ["modelname T".toList, "max_degree 180".toList, "errors no".toList, "earth_gravity_constant 3.986004418e14".toList,
    "radius 6378136.6".toList]
  settings := [.modelName "T".toList, .maxDegree 180, .errors .no, .gm 3.986004418e14, .radius 6378136.6]
  errors := .no
  tail := []
  data := ["gfc  2 2 1.5e-3 2.0".toList, "gfc  180 180 1.5e-3 2.0".toList]
  records := [⟨.static, 2, 2, 3 / 2000, 2, none, none⟩, ⟨.static, 180, 180, 3 / 2000, 2, none, none⟩]

theorem exGfcFes_ok : exGfcFes.Ok exCal 180 180 where
  header := by
    refine .gives (plain_of (by decide) (by decide) (by decide)) ⟨"T".toList, ⟨0, 0, rfl, by decide, by decide⟩,
      ⟨0, rfl, by decide, by decide⟩, by decide⟩ ?_
    refine .gives (plain_of (by decide) (by decide) (by decide)) ⟨"180".toList, [], ⟨0, 0, rfl, by decide, by decide⟩, 0, ⟨false, "180".toList⟩,
      ⟨by decide, by decide⟩, by decide, rfl, by simp, by decide, by decide⟩ ?_
    refine .gives (plain_of (by decide) (by decide) (by decide)) ⟨"no".toList, ⟨0, 0, rfl, by decide, by decide⟩, [], rfl, by simp⟩ ?_
    refine .gives (plain_of (by decide) (by decide) (by decide)) ⟨"3.986004418e14".toList, ⟨0, 0, rfl, by decide, by decide⟩,
      ⟨false, ['3'], some "986004418".toList, some ('e', none, ['1', '4'])⟩, [], Dec.ok_of (by decide), by decide +kernel, by decide,
      by unfold Ends; decide⟩ ?_
    refine .gives (plain_of (by decide) (by decide) (by decide)) ⟨"6378136.6".toList, ⟨0, 0, rfl, by decide, by decide⟩,
      ⟨false, "6378136".toList, some ['6'], none⟩, [], Dec.ok_of (by decide), by decide +kernel, by decide, by unfold Ends; decide⟩ .nil
  short := by simp [exGfcFes]
  errors := rfl
  name := show 1 < 64 by decide
  tail := by simp [exGfcFes]
  one := by simp [exGfcFes]
  lines := by
    rw [if_neg (show ¬ (lastOf Setting.format? false exGfcFes.settings = true) from show ¬ (false = true) by decide)]
    refine .cons ⟨by decide, _, fortran_refl _, noFortran_of (by decide),
        Line1.gfc (cal := exCal) (line := " 2 2 1.5e-3 2.0".toList) (rest := []) ?_⟩
      (.cons ⟨by decide, _, fortran_refl _, noFortran_of (by decide),
        Line1.gfc (cal := exCal) (line := " 180 180 1.5e-3 2.0".toList) (rest := []) ?_⟩ .nil)
    · exact ⟨" 2 1.5e-3 2.0".toList, " 1.5e-3 2.0".toList, " 2.0".toList,
        ⟨[' '], ⟨false, ['2']⟩, by decide, ⟨by decide, by decide⟩, rfl, rfl, by simp [isDig], by decide, by decide⟩,
        ⟨[' '], ⟨false, ['2']⟩, by decide, ⟨by decide, by decide⟩, rfl, rfl, by simp [isDig], by decide, by decide⟩,
        ⟨[' '], ⟨false, ['1'], some ['5'], some ('e', some true, ['3'])⟩, by decide, Dec.ok_of (by decide), by decide +kernel, rfl,
          fun _ => by simp [Ends, isDig]⟩,
        ⟨[' '], ⟨false, ['2'], some ['0'], none⟩, by decide, Dec.ok_of (by decide), by decide +kernel, rfl, fun _ => by simp [Ends]⟩⟩
    · exact ⟨" 180 1.5e-3 2.0".toList, " 1.5e-3 2.0".toList, " 2.0".toList,
        ⟨[' '], ⟨false, "180".toList⟩, by decide, ⟨by decide, by decide⟩, rfl, rfl, by simp [isDig], by decide, by decide⟩,
        ⟨[' '], ⟨false, "180".toList⟩, by decide, ⟨by decide, by decide⟩, rfl, rfl, by simp [isDig], by decide, by decide⟩,
        ⟨[' '], ⟨false, ['1'], some ['5'], some ('e', some true, ['3'])⟩, by decide, Dec.ok_of (by decide), by decide +kernel, rfl,
          fun _ => by simp [Ends, isDig]⟩,
        ⟨[' '], ⟨false, ['2'], some ['0'], none⟩, by decide, Dec.ok_of (by decide), by decide +kernel, rfl, fun _ => by simp [Ends]⟩⟩
  static := by simp [exGfcFes]
  triangle := by simp [exGfcFes]
  order := by
    show 0 ≤ (180 : Int) ∧ (180 : Int) ≤ 180
    decide
  degree := le_rfl

/-- The hypotheses of `check_fes_partial` and `check_fes_admittance_partial` are met. -/
theorem exInputFes : Input exCal (exDisk exGfcFes exGfcFes) (bytes "data") [bytes "TiME22_162.556_pi1_cos.gfc TiME22_162.556_pi1_sin.gfc"] 180 180
    [exWave exGfcFes exGfcFes] 180 exTT (fun _ => 37) exOrbit exAcc exRot exC04 [rowOf dOrbit1, rowOf dOrbit2] [rowOf dAcc1, rowOf dAcc2]
    [rowOf dRot1, rowOf dRot2] exRecs where
  stored := exStored_of exGfcFes_ok exGfcFes_ok
  degree := by
    intro w hw
    rw [List.mem_singleton.mp hw]
    exact ⟨rfl, rfl⟩
  full := ⟨_, List.mem_singleton.mpr rfl, ⟨.static, 180, 180, 3 / 2000, 2, none, none⟩, by simp [exWave, exGfcFes], rfl, rfl, le_rfl⟩
  constants := by
    intro w hw
    rw [List.mem_singleton.mp hw]
    exact ⟨rfl, rfl, rfl, rfl⟩
  orbit := exInput.orbit
  acc := exInput.acc
  rot := exInput.rot
  eop := exInput.eop
  covers := exInput.covers
  some := exInput.some
  rots := exInput.rots
  accs := exInput.accs
  away := exInput.away

example (junkErr : ErrorModel) (junkG : Entry Int) (junkC : Nat → Nat → ℝ) (W M : Epoch → Int → ℝ) (junkO junkR : Fin 10 → ℚ) (junkA : Fin 4 → ℚ) :=
  check_fes_partial exInputFes junkErr junkG junkC W M junkO junkR junkA (junkE := List.replicate 8 0) (by decide)

example (junkErr : ErrorModel) (junkG : Entry Int) (junkC : Nat → Nat → ℝ) (junkM : Nat → Nat → ℚ) (W M : Epoch → Int → ℝ)
    (junkO junkR : Fin 10 → ℚ) (junkA : Fin 4 → ℚ) :=
  check_fes_admittance_partial exInputFes (exAdm _ _) junkErr junkG junkC (junkI := List.replicate 6 0) (by decide) junkM W M
    junkO junkR junkA (junkE := List.replicate 8 0) (by decide)

end Verif.Costg
