import Verif.Model.CostgSolid
import Verif.Spec.CostgSolid
import Verif.Props.CostgTide
import Verif.Props.PlanetState
import Verif.Props.SolidTide
/-
C97: the check of the solid Earth tide against the benchmark.
-/
namespace Verif.SolidTide
open Verif Verif.Angle

theorem theta_angle (d : Doodson.DC) (g l l' F D Om : ℝ) : theta d g ![l, l', F, D, Om] = Tide.angle d g l l' F D Om := by
  unfold theta Tide.angle
  simp only [Matrix.cons_val]

theorem exp_cong {x y : ℝ} (h : Cong x y) : Complex.exp (Complex.I * x) = Complex.exp (Complex.I * y) := by
  obtain ⟨c, s⟩ := Groops.cos_cong h
  rw [mul_comm Complex.I, mul_comm Complex.I, Complex.exp_mul_I, Complex.exp_mul_I, ← Complex.ofReal_cos, ← Complex.ofReal_sin, ← Complex.ofReal_cos,
    ← Complex.ofReal_sin, c, s]

/-- The corrections depend on the angles modulo a full circle. -/
theorem total_cong (Re : ℝ) (bs : List Body) {g l l' F D Om g1 l1 l1' F1 D1 Om1 : ℝ} (hg : Cong g g1) (hl : Cong l l1) (hl' : Cong l' l1')
    (hF : Cong F F1) (hD : Cong D D1) (hO : Cong Om Om1) :
    total Re bs g ![l, l', F, D, Om] = total Re bs g1 ![l1, l1', F1, D1, Om1] := by
  have hs : ∀ m, second (table65.map row65) g ![l, l', F, D, Om] m = second (table65.map row65) g1 ![l1, l1', F1, D1, Om1] m := by
    intro m
    unfold second
    congr 3
    refine List.map_congr_left fun r _ => ?_
    rw [theta_angle, theta_angle, exp_cong (Groops.angle_cong r.d hg hl hl' hF hD hO)]
  funext n m
  unfold total
  rw [hs 0, hs m]

end Verif.SolidTide

namespace Verif.Costg
open Verif Verif.Tide Verif.Angle

theorem rot_mul (q : ℚ × List ℚ) (v : V3) : (rotOf q).2 * v = toTerrestrial q.2 v := by
  unfold toTerrestrial
  generalize hq : three q.2 0 = a
  generalize hq2 : three q.2 3 = b
  generalize hq3 : three q.2 6 = c
  unfold rotOf
  rw [hq, hq2, hq3, M3.mulVec_def]
  ext <;> simp [V3.dot]

/-! ### One epoch -/

/-- What the program keeps from epoch to epoch. -/
structure KeepsSolid (vec : List (Eop.Rec ℚ)) (s : SolidState) : Prop where
  sunRatio : s.tide.sunRatio = 1.32712442076e20 / 3.986004418e14
  moonRatio : s.tide.moonRatio = 0.49028010560e13 / 3.986004418e14
  deg : s.tide.mcs.deg = 4
  ord : s.tide.mcs.ord = 4
  rows : s.tide.mcs.rows = 5
  gm : s.tide.mcs.gm = 3.986004418e14
  re : s.tide.mcs.re = 6378136.6
  vec : s.eop.vec = vec
  cache : s.eop.CacheOk
  sorted : Eop.Sorted s.eop.vec

/-- The tide at one epoch with whatever UT1 the series gives. -/
theorem solid_with {sp : Planets.Spice} {e : Planets.Ephemeris} {tdb : ℝ → ℝ} (hs : Planets.Documented sp e tdb) (dat : ℚ → ℚ)
    (W M : Epoch → Int → ℝ) {vec : List (Eop.Rec ℚ)} {s : SolidState} (hk : KeepsSolid vec s) (hvne : vec ≠ []) (o q : ℚ × List ℚ)
    (h0 : three o.2 0 ≠ 0) {sun moon : V3} (hsun : BodyAt e tdb 10 o.1 sun) (hmoon : BodyAt e tdb 301 o.1 moon)
    {st : Eop.Status} {d : ℚ} {ser : Eop.Series ℚ} (ed : s.eop.approxDut1 dat (mjdTT o.1) = .ok (st, d, ser)) :
    ∃ s' g, solidStep sp dat W M s (orbitOf o) (rotOf q).2 = .ok (s', .inr (toCelestial q.2 g)) ∧ KeepsSolid vec s' ∧
      Harmonic.IsGradient (solidAt (toTerrestrial q.2 sun) (toTerrestrial q.2 moon) (centuriesTT o.1) (daysUT1 o.1 (d - dat (mjdTT o.1))))
        (three o.2 0) g := by
  obtain ⟨b, vb, E, vE, hb, hE, rfl⟩ := hsun
  obtain ⟨b', vb', E', vE', hb', hE', rfl⟩ := hmoon
  rw [hE] at hE'
  injection hE' with hE'
  injection hE' with h1 h2
  subst h1 h2
  obtain ⟨st', d', ser', ed', q1, q2⟩ := Eop.approx_vec dat hk.sorted hk.cache (by rw [hk.vec]; exact hvne) (mjdTT o.1)
  rw [ed] at ed'
  injection ed' with ed'
  simp only [Prod.mk.injEq] at ed'
  obtain ⟨-, rfl, rfl⟩ := ed'
  have hd' : d = (d - dat (mjdTT o.1)) + dat (mjdTT o.1) := by ring
  set tt := ttOf (epochAt o.1) with htt
  set ut := ut1Of dat (epochAt o.1) d with hut
  set S := toTerrestrial q.2 (Planets.metres (b - E)) with hS
  set L := toTerrestrial q.2 (Planets.metres (b' - E)) with hL
  obtain ⟨t, e1, f, -, g1, g2, g3, g4, g5, g6, g7, -⟩ := SolidTide.stokes_formula s.tide hk.rows tt ut L S
    ![Fundarg.fal03 tt.jcenturies, Fundarg.falp03 tt.jcenturies, Fundarg.faf03 tt.jcenturies, Fundarg.fad03 tt.jcenturies,
      Fundarg.faom03 tt.jcenturies]
  have hcd : t.mcs.deg = 4 := g5.trans hk.deg
  have hco : t.mcs.ord = 4 := g6.trans hk.ord
  have hcg : t.mcs.gm = 3.986004418e14 := g4.trans hk.gm
  have hcr : t.mcs.re = 6378136.6 := g3.trans hk.re
  obtain ⟨g, eg, hg⟩ := attraction_gradient t.mcs (r := three o.2 0) h0 (n := 4) (by norm_num) (by norm_num) hcd.ge hco.ge (by rw [hcg]; norm_num)
    (by rw [hcr]; norm_num) (W := ⟨7, W (epochAt o.1)⟩) (M := ⟨7, M (epochAt o.1)⟩) (by norm_num) (by norm_num)
  refine ⟨⟨t, ser, S, L, toCelestial q.2 g⟩, g, ?_, ⟨g1.trans hk.sunRatio, g2.trans hk.moonRatio, hcd, hco, g7.trans hk.rows, hcg, hcr,
    q1.trans hk.vec, q2, by rw [q1]; exact hk.sorted⟩, ?_⟩
  · unfold solidStep
    rw [show (orbitOf o).epoch = epochAt o.1 from rfl, show (orbitOf o).xyz = three o.2 0 from rfl, ttDays_at, ed,
      Planets.planet_position sp e tdb hs .sun tt s.sun b vb E vE (by rw [htt, jd_ttOf]; exact hb) (by rw [htt, jd_ttOf]; exact hE),
      Planets.planet_position sp e tdb hs .moon tt s.moon b' vb' E vE (by rw [htt, jd_ttOf]; exact hb') (by rw [htt, jd_ttOf]; exact hE)]
    simp only [rb, ne_eq, not_true_eq_false, if_false]
    rw [rot_mul, rot_mul, show argsAt tt = ![Fundarg.fal03 tt.jcenturies, Fundarg.falp03 tt.jcenturies, Fundarg.faf03 tt.jcenturies,
      Fundarg.fad03 tt.jcenturies, Fundarg.faom03 tt.jcenturies] from rfl, e1]
    simp only [rb]
    rw [attraction_all t.mcs (n := 4) hcd hco, eg]
    simp only [rb, Option.getD_some, rot_transpose]
    rfl
  · have hT : tt.jcenturies = centuriesTT o.1 := centuries_ttOf o.1
    have hTu : ut.daysSinceJ2000 = daysUT1 o.1 (d - dat (mjdTT o.1)) := by rw [hut]; nth_rewrite 1 [hd']; rw [days_ut1Of]
    obtain ⟨⟨p1, -⟩, ⟨p2, -⟩, ⟨p3, -⟩, ⟨p4, -⟩, ⟨p5, -⟩⟩ := Angle.delaunay_correct_partial tt.jcenturies
    have p0 := (Angle.gmst_correct tt ut).2
    simp only [sec2rad_rad] at p0 p1 p2 p3 p4 p5
    have ht := SolidTide.total_cong s.tide.mcs.re [⟨s.tide.sunRatio, S⟩, ⟨s.tide.moonRatio, L⟩] p0 p1 p2 p3 p4 p5
    rw [hk.re, hk.sunRatio, hk.moonRatio, hT, hTu] at ht
    rw [hk.re, hk.sunRatio, hk.moonRatio, hT, ht] at f
    refine (congrArg (fun V => Harmonic.IsGradient V (three o.2 0) g) (funext fun v => ?_)).mpr hg
    rw [hcg, hcr]
    unfold solidAt
    refine congrFun (Harmonic.potential_eq fun i j _ _ => ?_) v
    rw [← f i j]
    simp

/-! ### The loop -/

open Classical in
/-- The loop on rows of three tables; `I` is what the objects keep. -/
theorem acceptRot_rows {σ : Type} {I : σ → Prop} {f : σ → Orbit → M3 → Res (σ × (Int ⊕ V3))} {tol : ℝ} {P : ℚ × List ℚ → ℚ × List ℚ → V3 → Prop} :
    ∀ {s : σ} {os qs as : List (ℚ × List ℚ)}, I s → os.map (·.1) <+: qs.map (·.1) → os.map (·.1) <+: as.map (·.1) →
    (∀ s, I s → ∀ o ∈ os, ∀ q, ∃ s' g, f s (orbitOf o) (rotOf q).2 = .ok (s', .inr (toCelestial q.2 g)) ∧ I s' ∧ P o q g) →
    ∃ gs : List V3, (gs.length = os.length ∧ ∀ (i : Nat) o q g, os[i]? = some o → qs[i]? = some q → gs[i]? = some g → P o q g) ∧
      (AllWithin tol qs as gs → acceptRot f tol s (os.map orbitOf) (qs.map rotOf) (as.map fun r => ⟨epochAt r.1, three r.2 0⟩) = .ok 0) ∧
      (¬ AllWithin tol qs as gs → acceptRot f tol s (os.map orbitOf) (qs.map rotOf) (as.map fun r => ⟨epochAt r.1, three r.2 0⟩) = .abort)
  | _, [], _, _, _, _, _, _ => ⟨[], ⟨rfl, fun _ _ _ _ h => by simp at h⟩, fun _ => by simp [acceptRot], fun h => absurd (fun i q r g _ _ h3 => by simp at h3) h⟩
  | _, o :: os, [], _, _, h, _, _ => by simp at h
  | _, o :: os, _ :: _, [], _, _, h, _ => by simp at h
  | s, o :: os, q :: qs, a :: as, hI, h1, h2, hf => by
    simp only [List.map_cons, List.cons_prefix_cons] at h1 h2
    obtain ⟨s', g, hg, hI', hgr⟩ := hf s hI o (by simp) q
    obtain ⟨gs, ⟨hl, hgs⟩, k1, k2⟩ := acceptRot_rows (tol := tol) hI' h1.2 h2.2 (fun t ht x hx => hf t ht x (by simp [hx]))
    have hb : (rotOf q).1 = (orbitOf o).epoch := by show epochAt q.1 = epochAt o.1; rw [h1.1]
    have hc : epochAt a.1 = (orbitOf o).epoch := by show epochAt a.1 = epochAt o.1; rw [h2.1]
    have hstep : acceptRot f tol s ((o :: os).map orbitOf) ((q :: qs).map rotOf) ((a :: as).map fun r => ⟨epochAt r.1, three r.2 0⟩) =
        if Within tol q a g then acceptRot f tol s' (os.map orbitOf) (qs.map rotOf) (as.map fun r => ⟨epochAt r.1, three r.2 0⟩) else .abort := by
      simp only [List.map_cons]
      rw [acceptRot]
      simp only
      rw [if_neg (by rw [hb]; simp), hg]
      simp only [rb]
      rw [if_neg (by rw [hc]; simp)]
      unfold Within
      by_cases w1 : |(three a.2 0).x - (toCelestial q.2 g).x| < tol <;> by_cases w2 : |(three a.2 0).y - (toCelestial q.2 g).y| < tol <;>
        by_cases w3 : |(three a.2 0).z - (toCelestial q.2 g).z| < tol <;> simp [w1, w2, w3]
    have hall : AllWithin tol (q :: qs) (a :: as) (g :: gs) ↔ Within tol q a g ∧ AllWithin tol qs as gs := by
      constructor
      · intro h
        exact ⟨h 0 q a g rfl rfl rfl, fun i q' r' g' e1 e2 e3 => h (i + 1) q' r' g' e1 e2 e3⟩
      · rintro ⟨h, h'⟩ i q' r' g' e1 e2 e3
        cases i with
        | zero =>
          simp only [List.getElem?_cons_zero, Option.some.injEq] at e1 e2 e3
          subst e1 e2 e3
          exact h
        | succ i => exact h' i q' r' g' e1 e2 e3
    refine ⟨g :: gs, ⟨by simp [hl], ?_⟩, ?_, ?_⟩
    · intro i o' q' g' e1 e2 e3
      cases i with
      | zero =>
        simp only [List.getElem?_cons_zero, Option.some.injEq] at e1 e2 e3
        subst e1 e2 e3
        exact hgr
      | succ i => exact hgs i o' q' g' e1 e2 e3
    · intro h
      obtain ⟨w, w'⟩ := hall.mp h
      rw [hstep, if_pos w, k1 w']
    · intro h
      rw [hstep]
      by_cases w : Within tol q a g
      · rw [if_pos w]
        exact k2 fun w' => h (hall.mpr ⟨w, w'⟩)
      · rw [if_neg w]

/-- The loop when rotations or accelerations end first. -/
theorem acceptRot_short {σ : Type} {I : σ → Prop} {f : σ → Orbit → M3 → Res (σ × (Int ⊕ V3))} {tol : ℝ} {P : ℚ × List ℚ → ℚ × List ℚ → V3 → Prop}
    {o : ℚ × List ℚ} {os' : List (ℚ × List ℚ)} :
    ∀ {s : σ} {os qs as : List (ℚ × List ℚ)}, I s → os.map (·.1) <+: qs.map (·.1) → os.map (·.1) <+: as.map (·.1) →
    (os.map (·.1) = qs.map (·.1) ∨ (os ++ [o]).map (·.1) <+: qs.map (·.1) ∧ os.map (·.1) = as.map (·.1)) →
    (∀ s, I s → ∀ x ∈ os ++ [o], ∀ q, ∃ s' g, f s (orbitOf x) (rotOf q).2 = .ok (s', .inr (toCelestial q.2 g)) ∧ I s' ∧ P x q g) →
    ∃ gs : List V3, (gs.length = os.length ∧ ∀ (i : Nat) o q g, os[i]? = some o → qs[i]? = some q → gs[i]? = some g → P o q g) ∧
      (AllWithin tol qs as gs →
        acceptRot f tol s ((os ++ o :: os').map orbitOf) (qs.map rotOf) (as.map fun r => ⟨epochAt r.1, three r.2 0⟩) = .ub)
  | s, [], qs, as, hI, _, _, h3, hf => by
    refine ⟨[], ⟨rfl, fun _ _ _ _ h => by simp at h⟩, fun _ => ?_⟩
    simp only [List.nil_append, List.map_cons]
    cases qs with
    | nil => rw [List.map_nil, acceptRot]
    | cons q qs =>
      rcases h3 with h3 | ⟨h3, h4⟩
      · simp at h3
      · have : as = [] := by simpa using h4.symm
        subst this
        simp only [List.nil_append, List.map_cons, List.map_nil, List.cons_prefix_cons] at h3
        obtain ⟨s', g, hg, -⟩ := hf s hI o (by simp) q
        have hb : (rotOf q).1 = (orbitOf o).epoch := by show epochAt q.1 = epochAt o.1; rw [h3.1]
        simp only [List.map_cons, List.map_nil]
        rw [acceptRot]
        simp only
        rw [if_neg (by rw [hb]; simp), hg]
        rfl
  | _, x :: os, [], _, _, h, _, _, _ => by simp at h
  | _, x :: os, _ :: _, [], _, _, h, _, _ => by simp at h
  | s, x :: os, q :: qs, a :: as, hI, h1, h2, h3, hf => by
    simp only [List.map_cons, List.cons_prefix_cons] at h1 h2
    obtain ⟨s', g, hg, hI', hgr⟩ := hf s hI x (by simp) q
    have h3' : os.map (·.1) = qs.map (·.1) ∨ (os ++ [o]).map (·.1) <+: qs.map (·.1) ∧ os.map (·.1) = as.map (·.1) := by
      simp only [List.cons_append, List.map_cons, List.cons_prefix_cons, List.cons.injEq] at h3
      rcases h3 with h | h
      · exact Or.inl h.2
      · exact Or.inr ⟨h.1.2, h.2.2⟩
    obtain ⟨gs, ⟨hl, hgs⟩, k1⟩ := acceptRot_short (tol := tol) (o := o) (os' := os') hI' h1.2 h2.2 h3'
      (fun t ht y hy => hf t ht y (List.mem_cons_of_mem _ hy))
    have hb : (rotOf q).1 = (orbitOf x).epoch := by show epochAt q.1 = epochAt x.1; rw [h1.1]
    have hc : epochAt a.1 = (orbitOf x).epoch := by show epochAt a.1 = epochAt x.1; rw [h2.1]
    refine ⟨g :: gs, ⟨by simp [hl], ?_⟩, fun h => ?_⟩
    · intro i o' q' g' e1 e2 e3
      cases i with
      | zero =>
        simp only [List.getElem?_cons_zero, Option.some.injEq] at e1 e2 e3
        subst e1 e2 e3
        exact hgr
      | succ i => exact hgs i o' q' g' e1 e2 e3
    · obtain ⟨w1, w2, w3⟩ := h 0 q a g rfl rfl rfl
      simp only [List.cons_append, List.map_cons]
      rw [acceptRot]
      simp only
      rw [if_neg (by rw [hb]; simp), hg]
      simp only [rb]
      rw [if_neg (by rw [hc]; simp), if_neg (by simpa using w1), if_neg (by simpa using w2), if_neg (by simpa using w3)]
      exact k1 fun i q' r' g' e1 e2 e3 => h (i + 1) q' r' g' e1 e2 e3

/-! ### The program -/

section Program

variable {sp : Planets.Spice} {e : Planets.Ephemeris} {tdb : ℝ → ℝ} {tt dat : ℚ → ℚ} {orbit acc rot : List Char} {eop : List (List Char)}
  {as qs : List (ℚ × List ℚ)} {rs : List (Eop.Rec ℚ)}

/-- The ephemeris has Sun, Moon and Earth at every epoch of the orbit. -/
def Seen (e : Planets.Ephemeris) (tdb : ℝ → ℝ) (os : List (ℚ × List ℚ)) : Prop :=
  ∀ o ∈ os, ∃ sun moon, BodyAt e tdb 10 o.1 sun ∧ BodyAt e tdb 301 o.1 moon

/-- The program with whatever UT1 the series gives at the epochs of the orbit. -/
theorem solid_program (hs : Planets.Documented sp e tdb) {o1 : ℚ × List ℚ} {os : List (ℚ × List ℚ)} (ho : Table 512 9 orbit (o1 :: os))
    (ha : Table 256 3 acc as) (hq : Table 1024 9 rot qs) (he : Recorded tt dat eop rs) (hseen : Seen e tdb (o1 :: os))
    (hvne : Eop.inRange ((⌊o1.1⌋ : ℚ) - 2) ((⌊o1.1⌋ : ℚ) + 3) rs ≠ []) (h0 : ∀ o ∈ o1 :: os, three o.2 0 ≠ 0) {D : ℚ → ℚ → Prop}
    (hD : ∀ ser : Eop.Series ℚ, ser.vec = Eop.inRange ((⌊o1.1⌋ : ℚ) - 2) ((⌊o1.1⌋ : ℚ) + 3) rs → ser.CacheOk → Eop.Sorted ser.vec →
      ∀ o ∈ o1 :: os, ∃ st d ser', ser.approxDut1 dat (mjdTT o.1) = .ok (st, d, ser') ∧ D o.1 (d - dat (mjdTT o.1)))
    (junkS : (Nat → Nat → ℝ) × (Nat → Nat → ℝ)) (v : V3 × V3 × V3) (W M : Epoch → Int → ℝ) (junkO junkR : Fin 10 → ℚ) (junkA : Fin 4 → ℚ)
    {junkE : List ℚ} (hj : 8 ≤ junkE.length) :
    ∃ (I : SolidState → Prop) (s : _), I s ∧
      (∀ s, I s → ∀ o ∈ o1 :: os, ∀ q, ∃ s' g, solidStep sp dat W M s (orbitOf o) (rotOf q).2 = .ok (s', .inr (toCelestial q.2 g)) ∧ I s' ∧
        ∃ sun moon d, BodyAt e tdb 10 o.1 sun ∧ BodyAt e tdb 301 o.1 moon ∧ D o.1 d ∧
        Harmonic.IsGradient (solidAt (toTerrestrial q.2 sun) (toTerrestrial q.2 moon) (centuriesTT o.1) (daysUT1 o.1 d)) (three o.2 0) g) ∧
      checkSolid sp tt dat junkS v W M junkO junkR junkA junkE (some orbit) (some acc) (some rot) (some eop) =
        acceptRot (solidStep sp dat W M) 1e-11 s ((o1 :: os).map orbitOf) (qs.map rotOf) (as.map fun r => ⟨epochAt r.1, three r.2 0⟩) := by
  obtain ⟨⟨c20, hh, hr⟩, hsr⟩ := he
  obtain ⟨ser, e1, e2, e3, e4⟩ := Eop.parseC04_complete tt dat junkE hj ((⌊o1.1⌋ : ℚ) - 2) ((⌊o1.1⌋ : ℚ) + 3) (by linarith) c20 hh hr hsr Eop.Series.new
  refine ⟨KeepsSolid (Eop.inRange ((⌊o1.1⌋ : ℚ) - 2) ((⌊o1.1⌋ : ℚ) + 3) rs),
    ⟨SolidTide.Tide.make junkS.1 junkS.2 3.986004418e14 6378136.6 gmSun gmMoon, ser, v.1, v.2.1, v.2.2⟩,
    ⟨rfl, rfl, rfl, rfl, rfl, rfl, rfl, e2, e3, e4⟩, ?_, ?_⟩
  · intro s hk o ho q
    obtain ⟨st, d, ser', ed, hd⟩ := hD s.eop hk.vec hk.cache hk.sorted o ho
    obtain ⟨sun, moon, b1, b2⟩ := hseen o ho
    obtain ⟨s', g, p1, p2, p3⟩ := solid_with hs dat W M hk hvne o q (h0 o ho) b1 b2 ed
    exact ⟨s', g, p1, p2, sun, moon, _, b1, b2, hd, p3⟩
  · unfold checkSolid
    rw [bench_orbit ho, bench_accelerations ha, parseRotary_rows hq]
    simp only [rb, List.map_cons]
    rw [show ((epochAt o1.1).1 : ℚ) = (⌊o1.1⌋ : ℚ) from rfl, e1]
    simp only [rb, ne_eq, not_true_eq_false, if_false]
    rfl

/-- The input of the program: the tables of the benchmark, the Earth orientation, the ephemeris. -/
structure SolidInput (e : Planets.Ephemeris) (tdb : ℝ → ℝ) (tt dat : ℚ → ℚ) (orbit acc rot : List Char) (eop : List (List Char))
    (os as qs : List (ℚ × List ℚ)) (rs : List (Eop.Rec ℚ)) : Prop where
  orbit : Table 512 9 orbit os
  acc : Table 256 3 acc as
  rot : Table 1024 9 rot qs
  eop : Recorded tt dat eop rs
  covers : Covers rs os
  seen : Seen e tdb os
  some : os ≠ []
  rots : os.map (·.1) <+: qs.map (·.1)
  accs : os.map (·.1) <+: as.map (·.1)
  away : ∀ o ∈ os, three o.2 0 ≠ 0

variable {os : List (ℚ × List ℚ)}

/-- C97: exit status 0 if in every row the benchmark is within 1e-11 m/s² of the gradient of the potential of the solid Earth tide, for the
positions of Sun and Moon of the ephemeris and the sidereal time and arguments of the Conventions at the epoch of the row; otherwise an
assertion is violated. Missing: rows missing in a table (`check_solid_short_fails`), an empty orbit (`check_solid_empty_fails`), epochs
outside the Earth orientation (`check_solid_late_fails`). -/
theorem check_solid_partial (hs : Planets.Documented sp e tdb) (h : SolidInput e tdb tt dat orbit acc rot eop os as qs rs)
    (junkS : (Nat → Nat → ℝ) × (Nat → Nat → ℝ)) (v : V3 × V3 × V3) (W M : Epoch → Int → ℝ) (junkO junkR : Fin 10 → ℚ) (junkA : Fin 4 → ℚ)
    {junkE : List ℚ} (hj : 8 ≤ junkE.length) :
    ∃ gs, SolidAccels e tdb rs os qs gs ∧
      (AllWithin 1e-11 qs as gs → checkSolid sp tt dat junkS v W M junkO junkR junkA junkE (some orbit) (some acc) (some rot) (some eop) = .ok 0) ∧
      (¬ AllWithin 1e-11 qs as gs → checkSolid sp tt dat junkS v W M junkO junkR junkA junkE (some orbit) (some acc) (some rot) (some eop) = .abort) := by
  obtain ⟨o1, os', rfl⟩ : ∃ o1 os', os = o1 :: os' := by
    cases os with
    | nil => exact absurd rfl h.some
    | cons o1 os' => exact ⟨o1, os', rfl⟩
  obtain ⟨c1, c2⟩ := covered (dat := dat) h.covers
  obtain ⟨I, s, hI, hstep, heq⟩ := solid_program hs h.orbit h.acc h.rot h.eop h.seen c1 h.away
    (D := fun t d => ∃ a b, Between rs (mjdTT t) a b ∧ d = ut1Tai a b (mjdTT t)) c2 junkS v W M junkO junkR junkA hj
  obtain ⟨gs, ⟨hl, g1⟩, g2, g3⟩ := acceptRot_rows (tol := 1e-11) hI h.rots h.accs hstep
  refine ⟨gs, ⟨hl, fun i o q g i1 i2 i3 => ?_⟩, by rw [heq]; exact g2, by rw [heq]; exact g3⟩
  obtain ⟨sun, moon, d, b1, b2, ⟨a, b, hb, rfl⟩, hg⟩ := g1 i o q g i1 i2 i3
  exact ⟨sun, moon, a, b, b1, b2, hb, hg⟩

/-- C97 fails on an orbit without rows: the first element of an empty vector is read. -/
theorem check_solid_empty_fails (sp : Planets.Spice) (tt dat : ℚ → ℚ) (junkS : (Nat → Nat → ℝ) × (Nat → Nat → ℝ)) (v : V3 × V3 × V3)
    (W M : Epoch → Int → ℝ) (junkO junkR : Fin 10 → ℚ) (junkA : Fin 4 → ℚ) (junkE : List ℚ) (eop : Option (List (List Char)))
    (ho : Table 512 9 orbit []) (ha : Table 256 3 acc as) (hq : Table 1024 9 rot qs) :
    checkSolid sp tt dat junkS v W M junkO junkR junkA junkE (some orbit) (some acc) (some rot) eop = .ub := by
  unfold checkSolid
  rw [bench_orbit ho, bench_accelerations ha, parseRotary_rows hq]
  rfl

/-- C97 fails when rotations or accelerations have fewer rows than the orbit, those they have being within the tolerance: the program reads
behind the end of a vector. -/
theorem check_solid_short_fails (hs : Planets.Documented sp e tdb) {o1 : ℚ × List ℚ} {os os' : List (ℚ × List ℚ)} {o : ℚ × List ℚ}
    (ho : Table 512 9 orbit (o1 :: os ++ o :: os')) (ha : Table 256 3 acc as) (hq : Table 1024 9 rot qs) (he : Recorded tt dat eop rs)
    (hcov : Covers rs (o1 :: os ++ o :: os')) (hseen : Seen e tdb (o1 :: os ++ o :: os')) (h0 : ∀ x ∈ o1 :: os ++ o :: os', three x.2 0 ≠ 0)
    (h1 : (o1 :: os).map (·.1) <+: qs.map (·.1)) (h2 : (o1 :: os).map (·.1) <+: as.map (·.1))
    (h3 : (o1 :: os).map (·.1) = qs.map (·.1) ∨ (o1 :: os ++ [o]).map (·.1) <+: qs.map (·.1) ∧ (o1 :: os).map (·.1) = as.map (·.1))
    (junkS : (Nat → Nat → ℝ) × (Nat → Nat → ℝ)) (v : V3 × V3 × V3) (W M : Epoch → Int → ℝ) (junkO junkR : Fin 10 → ℚ) (junkA : Fin 4 → ℚ)
    {junkE : List ℚ} (hj : 8 ≤ junkE.length) :
    ∃ gs, SolidAccels e tdb rs (o1 :: os) qs gs ∧ (AllWithin 1e-11 qs as gs →
      checkSolid sp tt dat junkS v W M junkO junkR junkA junkE (some orbit) (some acc) (some rot) (some eop) = .ub) := by
  obtain ⟨c1, c2⟩ := covered (dat := dat) hcov
  obtain ⟨I, s, hI, hstep, heq⟩ := solid_program hs ho ha hq he hseen c1 h0
    (D := fun t d => ∃ a b, Between rs (mjdTT t) a b ∧ d = ut1Tai a b (mjdTT t)) c2 junkS v W M junkO junkR junkA hj
  obtain ⟨gs, ⟨hl, g1⟩, g2⟩ := acceptRot_short (tol := 1e-11) (o := o) (os := o1 :: os) (os' := os') hI h1 h2 h3 (fun t ht x hx => hstep t ht x (by
    show x ∈ (o1 :: os) ++ o :: os'
    rcases List.mem_append.mp hx with h | h
    · exact List.mem_append.mpr (Or.inl h)
    · rw [List.mem_singleton.mp h]
      exact List.mem_append.mpr (Or.inr (by simp))))
  refine ⟨gs, ⟨hl, fun i o q g i1 i2 i3 => ?_⟩, fun h => heq.trans (g2 h)⟩
  obtain ⟨sun, moon, d, b1, b2, ⟨a, b, hb, rfl⟩, hg⟩ := g1 i o q g i1 i2 i3
  exact ⟨sun, moon, a, b, b1, b2, hb, hg⟩

/-- C97 fails at epochs that the Earth orientation read does not reach, and nothing tells: with `rn` the last record before the third day after
the first day of the orbit, later epochs of the orbit are computed with UT1-UTC of `rn`. -/
theorem check_solid_late_fails (hs : Planets.Documented sp e tdb) {o1 : ℚ × List ℚ} {os : List (ℚ × List ℚ)} (ho : Table 512 9 orbit (o1 :: os))
    (ha : Table 256 3 acc as) (hq : Table 1024 9 rot qs) {pre : List (Eop.Rec ℚ)} {rn : Eop.Rec ℚ} {post : List (Eop.Rec ℚ)}
    (he : Recorded tt dat eop (pre ++ rn :: post)) (hseen : Seen e tdb (o1 :: os))
    (hr1 : (⌊o1.1⌋ : ℚ) - 2 ≤ rn.t) (hr2 : rn.t < (⌊o1.1⌋ : ℚ) + 3) (hr3 : ∀ r ∈ post, (⌊o1.1⌋ : ℚ) + 3 ≤ r.t)
    (hlate : ∀ o ∈ o1 :: os, rn.t ≤ mjdTT o.1)
    (h0 : ∀ x ∈ o1 :: os, three x.2 0 ≠ 0) (h1 : (o1 :: os).map (·.1) <+: qs.map (·.1)) (h2 : (o1 :: os).map (·.1) <+: as.map (·.1))
    (junkS : (Nat → Nat → ℝ) × (Nat → Nat → ℝ)) (v : V3 × V3 × V3) (W M : Epoch → Int → ℝ) (junkO junkR : Fin 10 → ℚ) (junkA : Fin 4 → ℚ)
    {junkE : List ℚ} (hj : 8 ≤ junkE.length) :
    ∃ gs : List V3, (gs.length = (o1 :: os).length ∧ ∀ (i : Nat) o q g, (o1 :: os)[i]? = some o → qs[i]? = some q → gs[i]? = some g →
        ∃ sun moon, BodyAt e tdb 10 o.1 sun ∧ BodyAt e tdb 301 o.1 moon ∧
        Harmonic.IsGradient (solidAt (toTerrestrial q.2 sun) (toTerrestrial q.2 moon) (centuriesTT o.1) (daysUT1 o.1 (rn.dut - dat (mjdTT o.1))))
          (three o.2 0) g) ∧ (AllWithin 1e-11 qs as gs →
      checkSolid sp tt dat junkS v W M junkO junkR junkA junkE (some orbit) (some acc) (some rot) (some eop) = .ok 0) := by
  have hv : Eop.inRange ((⌊o1.1⌋ : ℚ) - 2) ((⌊o1.1⌋ : ℚ) + 3) (pre ++ rn :: post) = Eop.inRange ((⌊o1.1⌋ : ℚ) - 2) ((⌊o1.1⌋ : ℚ) + 3) pre ++ [rn] := by
    have hp : Eop.inRange ((⌊o1.1⌋ : ℚ) - 2) ((⌊o1.1⌋ : ℚ) + 3) post = [] := by
      rw [Eop.inRange, List.filter_eq_nil_iff]
      intro r hr
      have := hr3 r hr
      simp only [decide_eq_true_eq, not_and, not_lt]
      exact fun _ => this
    unfold Eop.inRange at hp ⊢
    rw [List.filter_append, List.filter_cons_of_pos (by simp; constructor <;> linarith), hp]
  obtain ⟨I, s, hI, hstep, heq⟩ := solid_program hs ho ha hq he hseen (by rw [hv]; simp) h0 (D := fun t d => d = rn.dut - dat (mjdTT t))
    (fun ser hvec hcache hsort o ho => by
      obtain ⟨ser', ed⟩ := (Eop.approx_dut1_spec dat hsort hcache (mjdTT o.1)).2.1 _ rn (hvec.trans hv) (hlate o ho)
      exact ⟨_, _, ser', ed, rfl⟩) junkS v W M junkO junkR junkA hj
  obtain ⟨gs, ⟨hl, g1⟩, g2, -⟩ := acceptRot_rows (tol := 1e-11) hI h1 h2 hstep
  refine ⟨gs, ⟨hl, fun i o q g i1 i2 i3 => ?_⟩, fun h => heq.trans (g2 h)⟩
  obtain ⟨sun, moon, d, b1, b2, rfl, hg⟩ := g1 i o q g i1 i2 i3
  exact ⟨sun, moon, b1, b2, hg⟩

end Program

/-! ### An example: two epochs, the bodies on straight lines -/

theorem exSolid : SolidInput Planets.line id exTT (fun _ => 37) exOrbit exAcc exRot exC04 [rowOf dOrbit1, rowOf dOrbit2] [rowOf dAcc1, rowOf dAcc2]
    [rowOf dRot1, rowOf dRot2] exRecs where
  orbit := exOrbit_table
  acc := exAcc_table
  rot := exRot_table
  eop := exRecorded
  covers := exInput.covers
  seen := by
    intro o _
    have h : ∀ i t, 0 ≤ i → Planets.line i t = some (⟨i * t, i, 2 * t⟩, ⟨i, 0, 2⟩) := fun i t hi => if_neg (by omega)
    exact ⟨_, _, ⟨_, _, _, _, h 10 _ (by norm_num), h 399 _ (by norm_num), rfl⟩, ⟨_, _, _, _, h 301 _ (by norm_num), h 399 _ (by norm_num), rfl⟩⟩
  some := by simp
  rots := by decide +kernel
  accs := by decide +kernel
  away := exInput.away

example : Planets.Documented (Planets.spiceOf Planets.line id .abort) Planets.line id := Planets.documented_spiceOf _ _ _

example (junkS : (Nat → Nat → ℝ) × (Nat → Nat → ℝ)) (v : V3 × V3 × V3) (W M : Epoch → Int → ℝ) (junkO junkR : Fin 10 → ℚ) (junkA : Fin 4 → ℚ) :=
  check_solid_partial (Planets.documented_spiceOf _ _ .abort) exSolid junkS v W M junkO junkR junkA (junkE := List.replicate 8 0) (by decide)

end Verif.Costg
