import Verif.Props.RoundedEopsCheck
import Verif.Spec.RoundedSofa
/-
C126: the comparisons with SOFA at random epochs.
-/
namespace Verif.RoundedSofa
open Verif Verif.Iau Verif.Rounding Verif.Rounded Verif.Fundarg
open Verif.Angle (sec2rad)
open Verif.RoundedOrient (Clock exactClock)
open Verif.RoundedEops (RadToSec lit_near)
open Verif.EarthRot (tioLocator)

/-- Two angles close to a third that is not close to a full turn are close to each other. -/
theorem near_clear {x y E e d δ : ℝ} (hx : Angle e x E) (hy : Angle d y E) (hc : Clear δ E) (h1 : 1e-15 + e + 2 * d < δ) (h2 : 1e-15 + 2 * e + d < δ) :
    |x - y| ≤ e + d := by
  obtain ⟨⟨k, hk⟩, x0, x1⟩ := hx
  obtain ⟨⟨l, hl⟩, y0, y1⟩ := hy
  have hk' := abs_le.mp hk
  have hl' := abs_le.mp hl
  have hp := Real.pi_pos
  have step : ∀ {m n : ℤ}, m < n → 2 * Real.pi * m + 2 * Real.pi ≤ 2 * Real.pi * n := by
    intro m n h
    have : (m : ℝ) + 1 ≤ n := by exact_mod_cast h
    nlinarith
  rcases lt_trichotomy k l with h | rfl | h
  · exfalso
    have := step h
    have c := hc (-k)
    push_cast at c
    have : |E - 2 * Real.pi * -(k : ℝ)| ≤ 1e-15 + 2 * e + d := by rw [abs_le]; constructor <;> linarith
    linarith
  · rw [abs_le]; constructor <;> linarith
  · exfalso
    have := step h
    have c := hc (-l)
    push_cast at c
    have : |E - 2 * Real.pi * -(l : ℝ)| ≤ 1e-15 + e + 2 * d := by rw [abs_le]; constructor <;> linarith
    linarith

theorem u_le : u ≤ 1.111e-16 := by unfold u; norm_num

theorem turn_le {fl : Arith} (hf : Faithful fl) : D2PI fl ≤ 2 * Real.pi + 1e-15 := by
  have h := (abs_le.mp (app_D2PI hf).2).2
  have := u_lt
  linarith

/-- C126: at the epochs drawn the Earth rotation angle is that of the Conventions to 3.3e-13 rad. -/
theorem era00_drawn {fl : Arith} (hf : Faithful fl) (ut1 : Epoch) {f tu t : ℝ} (h : Sees ut1 f tu t) (hr : |ut1.daysSinceJ2000| ≤ 14612) :
    Angle 3.3e-13 (Rounded.era00 fl f tu) (eraIers ut1.daysSinceJ2000) := by
  refine ⟨?_, (anp_range hf _).1, (anp_range hf _).2.trans (turn_le hf)⟩
  have hfr : App 1 (2 * u) f ut1.f := ⟨by rw [abs_of_nonneg ut1.f_nonneg]; exact ut1.f_lt.le, h.frac⟩
  have hu := u_pos
  have hul := u_lt
  have htu : App 14612 (4 * u * 14613) tu ut1.daysSinceJ2000 :=
    ⟨hr, h.days.trans (by gcongr; linarith)⟩
  have hs := u_sq
  have h1 := ((hfr.add (App.lit hf 0.7790572732640 (M := 0.78) (by norm_num [abs_of_pos]))).fl hf).mono (M' := 1.78) (e' := 4.6 * u)
    (by norm_num) (by nlinarith)
  have h2 := (((App.lit hf 0.00273781191135448 (M := 0.00274) (by norm_num [abs_of_pos])).mul htu).pr hf 1).mono (M' := 40.1) (e' := 241 * u)
    (by norm_num) (by nlinarith)
  have h12 := ((h1.add h2).fl hf).mono (M' := 41.88) (e' := 288 * u) (by norm_num) (by nlinarith)
  have h3 := (((app_D2PI hf).mul h12).pr hf 0).mono (M' := 263.2) (e' := 2340 * u) (by norm_num) (by nlinarith)
  have h4 := ((h3.add (app_DPI hf)).fl hf).mono (M' := 266.4) (e' := 2612 * u) (by norm_num) (by nlinarith)
  have h5 := anp_near hf (fl (fl.pr 0 (D2PI fl * fl (fl (f + Rounded.lit fl 0.7790572732640) +
    fl.pr 1 (Rounded.lit fl 0.00273781191135448 * tu))) + DPI fl))
  have h6 := (h5.trans (Near.of_app h4)).mono (e' := 3.3e-13) (by
    have := h4.abs'
    have := u_le
    nlinarith)
  refine h6.cong ⟨51545 - ut1.mjd, ?_⟩
  unfold eraIers Epoch.daysSinceJ2000
  push_cast
  ring

section
variable {fl : Arith} {r2s : ℝ → ℝ}

theorem seconds_bounds : 2.06264e5 ≤ 648000 / Real.pi ∧ 648000 / Real.pi ≤ 2.06265e5 := by
  have hp := Real.pi_pos
  have h1 := pi_lt
  have h2 := pi_gt
  exact ⟨by rw [le_div_iff₀ hp]; linarith, by rw [div_le_iff₀ hp]; linarith⟩

/-- A difference in arcseconds, up to rounding. -/
theorem seconds_near (hf : Faithful fl) (hr : RadToSec r2s) (x : ℝ) :
    |x| * 2.06263e5 ≤ r2s |fl x| ∧ r2s |fl x| ≤ |x| * 2.06266e5 := by
  obtain ⟨K1, K2⟩ := seconds_bounds
  unfold RadToSec at hr
  generalize 648000 / Real.pi = K at K1 K2 hr
  have hu := u_pos
  have hul := u_lt
  have K0 : 0 ≤ K := by linarith
  have r := hf.rel x
  have r1 := abs_sub_abs_le_abs_sub (fl x) x
  have r2 := abs_sub_abs_le_abs_sub x (fl x)
  rw [abs_sub_comm x] at r2
  have z := hr |fl x|
  rw [abs_of_nonneg (mul_nonneg (abs_nonneg _) K0 : 0 ≤ |fl x| * K)] at z
  have z' := abs_le.mp z
  have ux := mul_le_mul_of_nonneg_right hul.le (abs_nonneg x)
  have y0 := abs_nonneg (fl x)
  have x0 := abs_nonneg x
  have b0 : 0 ≤ |fl x| * K := mul_nonneg y0 K0
  have uz := mul_le_mul_of_nonneg_right hul.le b0
  have k1 := mul_le_mul_of_nonneg_left K1 y0
  have k2 := mul_le_mul_of_nonneg_left K2 y0
  constructor <;> linarith

/-- What the assertion says. -/
theorem agree_of_close (hf : Faithful fl) (hr : RadToSec r2s) {x y : ℝ} (h : |x - y| ≤ 4.8e-13) : agree fl r2s x y := by
  have l := abs_le.mp (lit_near hf (c := 1e-7) (by norm_num))
  have := (seconds_near hf hr (x - y)).2
  have hul := u_lt
  unfold agree
  linarith

theorem close_of_agree (hf : Faithful fl) (hr : RadToSec r2s) {x y : ℝ} (h : agree fl r2s x y) : |x - y| ≤ 4.9e-13 := by
  have l := abs_le.mp (lit_near hf (c := 1e-7) (by norm_num))
  have := (seconds_near hf hr (x - y)).1
  have hul := u_lt
  unfold agree at h
  linarith

variable {s2r : ℝ → ℝ} {ck : Clock}

theorem Drawn.abs_le {e : Epoch} (h : Drawn e) : |e.daysSinceJ2000| ≤ 14612 := by
  rw [_root_.abs_le]; exact ⟨by linarith [h.1], by linarith [h.2]⟩

theorem Drawn.cents {e : Epoch} (h : Drawn e) : -0.1001 ≤ e.jcenturies ∧ e.jcenturies ≤ 0.4001 := by
  have : e.jcenturies = e.daysSinceJ2000 / 36525 := rfl
  rw [this]
  constructor
  · rw [le_div_iff₀ (by norm_num)]; linarith [h.1]
  · rw [div_le_iff₀ (by norm_num)]; linarith [h.2]

/-- C126: the comparison of the Earth rotation angle succeeds for every draw, if SOFA is accurate to 1.4e-13 rad and no angle drawn is within 1e-12 rad of a full
turn. -/
theorem era_check_partial (hf : Faithful fl) (hr : RadToSec r2s) (hck : ∀ e, Sees e (ck.frac e) (ck.days e) (ck.cents e)) (sofa : Epoch → ℝ) (draws : List Epoch)
    (hd : ∀ e ∈ draws, Drawn e) (hs : ∀ e ∈ draws, Angle 1.4e-13 (sofa e) (eraIers e.daysSinceJ2000))
    (hc : ∀ e ∈ draws, Clear 1e-12 (eraIers e.daysSinceJ2000)) : eraCheck fl r2s ck sofa draws = .ok 0 := by
  induction draws with
  | nil => rfl
  | cons e es ih =>
    have m := era00_drawn hf e (hck e) (hd e List.mem_cons_self).abs_le
    have k := near_clear (hs e List.mem_cons_self) m (hc e List.mem_cons_self) (by norm_num) (by norm_num)
    rw [eraCheck, if_pos (agree_of_close hf hr (k.trans (by norm_num)))]
    exact ih (fun x hx => hd x (List.mem_cons_of_mem _ hx)) (fun x hx => hs x (List.mem_cons_of_mem _ hx)) (fun x hx => hc x (List.mem_cons_of_mem _ hx))

/-- C126: if it succeeds, SOFA's angles are those of the Conventions to 8.3e-13 rad. -/
theorem era_check_sound (hf : Faithful fl) (hr : RadToSec r2s) (hck : ∀ e, Sees e (ck.frac e) (ck.days e) (ck.cents e)) (sofa : Epoch → ℝ) (draws : List Epoch)
    (hd : ∀ e ∈ draws, Drawn e) (h : eraCheck fl r2s ck sofa draws = .ok 0) : ∀ e ∈ draws, Near 8.3e-13 (sofa e) (eraIers e.daysSinceJ2000) := by
  induction draws with
  | nil => intro e he; cases he
  | cons e es ih =>
    rw [eraCheck] at h
    by_cases ha : agree fl r2s (sofa e) (Rounded.era00 fl (ck.frac e) (ck.days e))
    · rw [if_pos ha] at h
      intro x hx
      rcases List.mem_cons.mp hx with rfl | hx
      · have m := era00_drawn hf x (hck x) (hd x List.mem_cons_self).abs_le
        exact ((show Near 4.9e-13 (sofa x) _ from ⟨0, by simpa using close_of_agree hf hr ha⟩).trans m.1).mono (by norm_num)
      · exact ih (fun y hy => hd y (List.mem_cons_of_mem _ hy)) h x hx
    · rw [if_neg ha] at h; cases h

/-- C126 fails: the angles are compared as numbers, although they are given between 0 and a full turn. On 1 January 2000 at 17:17:17 UT1 the Earth rotation angle is a
full turn; there, an angle from SOFA that is accurate to 1e-13 rad can be on the other side, and the program aborts, whatever the rounding. -/
theorem era_check_wrap_fails (hf : Faithful fl) (hr : RadToSec r2s) (ck : Clock) :
    ∃ (e : Epoch) (sofa : Epoch → ℝ), Drawn e ∧ Angle 1e-13 (sofa e) (eraIers e.daysSinceJ2000) ∧ eraCheck fl r2s ck sofa [e] = .abort := by
  have hp := Real.pi_pos
  have hp1 := pi_lt
  have hp2 := pi_gt
  refine ⟨⟨51544, 0.5 + (1 - 0.7790572732640) / 1.00273781191135448, by norm_num, by norm_num⟩, fun _ =>
    if Rounded.era00 fl (ck.frac ⟨51544, 0.5 + (1 - 0.7790572732640) / 1.00273781191135448, by norm_num, by norm_num⟩)
      (ck.days ⟨51544, 0.5 + (1 - 0.7790572732640) / 1.00273781191135448, by norm_num, by norm_num⟩) ≤ 3 then 2 * Real.pi - 1e-13 else 0, ?_, ?_, ?_⟩
  · constructor <;> norm_num [Epoch.daysSinceJ2000]
  · have e : eraIers (Epoch.daysSinceJ2000 ⟨51544, 0.5 + (1 - 0.7790572732640) / 1.00273781191135448, by norm_num, by norm_num⟩) = 2 * Real.pi := by
      unfold eraIers Epoch.daysSinceJ2000
      norm_num
    rw [e]
    dsimp only
    split
    · exact ⟨⟨0, by norm_num [abs_of_pos]⟩, by linarith, by linarith⟩
    · exact ⟨⟨-1, by norm_num⟩, le_refl _, by linarith⟩
  · rw [eraCheck]
    generalize hm : Rounded.era00 fl (ck.frac _) (ck.days _) = m
    rw [if_neg]
    intro h
    have k := abs_le.mp (close_of_agree hf hr h)
    have m0 : 0 ≤ m := by rw [← hm]; exact (anp_range hf _).1
    split at k
    · linarith [k.2]
    · linarith [k.1]

/-- C126: the comparison of the TIO locator succeeds for every draw, if SOFA is accurate to 4.7e-13 rad. -/
theorem sp_check (hf : Faithful fl) (hs : SecToRad s2r) (hr : RadToSec r2s) (hck : ∀ e, Sees e (ck.frac e) (ck.days e) (ck.cents e)) (sofa : Epoch → ℝ)
    (draws : List Epoch) (hd : ∀ e ∈ draws, Drawn e) (h : ∀ e ∈ draws, |sofa e - tioLocator e.jcenturies| ≤ 4.7e-13) :
    spCheck fl s2r r2s ck sofa draws = .ok 0 := by
  induction draws with
  | nil => rfl
  | cons e es ih =>
    have d := (hd e List.mem_cons_self).cents
    have m := RoundedGcrs.tio_rounded hf hs (hck e).cents (abs_le.mpr ⟨by linarith [d.1], by linarith [d.2]⟩)
    rw [abs_sub_comm] at m
    rw [spCheck, if_pos (agree_of_close hf hr (((abs_sub_le _ _ _).trans (add_le_add (h e List.mem_cons_self) m)).trans (by norm_num)))]
    exact ih (fun x hx => hd x (List.mem_cons_of_mem _ hx)) (fun x hx => h x (List.mem_cons_of_mem _ hx))

/-- C126: if it succeeds, SOFA's locators are those of the Conventions to 5e-13 rad. -/
theorem sp_check_sound (hf : Faithful fl) (hs : SecToRad s2r) (hr : RadToSec r2s) (hck : ∀ e, Sees e (ck.frac e) (ck.days e) (ck.cents e)) (sofa : Epoch → ℝ)
    (draws : List Epoch) (hd : ∀ e ∈ draws, Drawn e) (h : spCheck fl s2r r2s ck sofa draws = .ok 0) :
    ∀ e ∈ draws, |sofa e - tioLocator e.jcenturies| ≤ 5e-13 := by
  induction draws with
  | nil => intro e he; cases he
  | cons e es ih =>
    rw [spCheck] at h
    by_cases ha : agree fl r2s (sofa e) (RoundedGcrs.sp00 fl s2r (ck.cents e))
    · rw [if_pos ha] at h
      intro x hx
      rcases List.mem_cons.mp hx with rfl | hx
      · have d := (hd x List.mem_cons_self).cents
        have m := RoundedGcrs.tio_rounded hf hs (hck x).cents (abs_le.mpr ⟨by linarith [d.1], by linarith [d.2]⟩)
        exact ((abs_sub_le _ _ _).trans (add_le_add (close_of_agree hf hr ha) m)).trans (by norm_num)
      · exact ih (fun y hy => hd y (List.mem_cons_of_mem _ hy)) h x hx
    · rw [if_neg ha] at h; cases h

/-- C126: at the epochs drawn sidereal time is that of the Conventions to 3.6e-13 rad. -/
theorem gmst_drawn (hf : Faithful fl) (hs : SecToRad s2r) (tt ut1 : Epoch) {f tu t f' tu' t' : ℝ} (hut : Sees ut1 f tu t)
    (htt : Sees tt f' tu' t') (hr : |ut1.daysSinceJ2000| ≤ 14612) (hr' : |tt.jcenturies| ≤ 1) :
    Angle 3.6e-13 (Rounded.gmst fl s2r t' f tu) (eraIers ut1.daysSinceJ2000 + sec2rad (gmstPoly tt.jcenturies)) := by
  refine ⟨?_, (anp_range hf _).1, (anp_range hf _).2.trans (turn_le hf)⟩
  have hu := u_pos
  have hul := u_lt
  have hp := Real.pi_pos
  have hp1 := pi_lt
  have ht : App 1 (4 * u) t' tt.jcenturies := ⟨hr', htt.cents⟩
  have k5 : App 4e-8 (4e-8 * u) (horner fl t' [-0.0000000368]) (-0.0000000368) := by
    rw [mul_comm]
    exact App.lit hf _ (by rw [abs_le]; constructor <;> norm_num)
  have k4 := (ht.horner hf (c := -0.000029956) (C := 3e-5) (by rw [abs_le]; constructor <;> norm_num) (by norm_num) k5).mono
    (M' := 1) (e' := 1 * u) (by norm_num) (by nlinarith)
  have k3 := (ht.horner hf (c := -0.00000044) (C := 1e-6) (by rw [abs_le]; constructor <;> norm_num) (by norm_num) k4).mono
    (M' := 1.1) (e' := 10 * u) (by norm_num) (by nlinarith)
  have k2 := (ht.horner hf (c := 1.3915817) (C := 1.4) (by rw [abs_le]; constructor <;> norm_num) (by norm_num) k3).mono
    (M' := 2.5) (e' := 30 * u) (by norm_num) (by nlinarith)
  have k1 := (ht.horner hf (c := 4612.156534) (C := 4613) (by rw [abs_le]; constructor <;> norm_num) (by norm_num) k2).mono
    (M' := 4616) (e' := 9400 * u) (by norm_num) (by nlinarith)
  have k' := (ht.horner hf (c := 0.014506) (C := 0.02) (by rw [abs_le]; constructor <;> norm_num) (by norm_num) k1).mono
    (M' := 4617) (e' := 1e-10) (by norm_num) (by nlinarith)
  generalize hP' : horner fl t' [0.014506, 4612.156534, 1.3915817, -0.00000044, -0.000029956, -0.0000000368] = P' at k'
  have hP : 0.014506 + tt.jcenturies * (4612.156534 + tt.jcenturies * (1.3915817 + tt.jcenturies * (-0.00000044 +
      tt.jcenturies * (-0.000029956 + tt.jcenturies * -0.0000000368)))) = gmstPoly tt.jcenturies := by
    unfold gmstPoly; ring
  rw [hP] at k'
  have hc : (0 : ℝ) < 2 * Real.pi / 1296000 := by positivity
  have hcl : 2 * Real.pi / 1296000 ≤ 5e-6 := by rw [div_le_iff₀ (by norm_num)]; linarith
  have h2 : |P' * (2 * Real.pi / 1296000)| ≤ 4618 * 5e-6 := by
    rw [abs_mul, abs_of_pos hc]
    exact mul_le_mul (k'.abs'.trans (by norm_num)) hcl hc.le (by norm_num)
  have h1 := (hs P').trans (mul_le_mul_of_nonneg_left h2 (by positivity : (0 : ℝ) ≤ 4 * u))
  have hS : |s2r P' - sec2rad (gmstPoly tt.jcenturies)| ≤ 1e-14 := by
    have h3 : |(P' - gmstPoly tt.jcenturies) * (2 * Real.pi / 1296000)| ≤ 1e-10 * 5e-6 := by
      rw [abs_mul, abs_of_pos hc]
      exact mul_le_mul k'.2 hcl hc.le (by norm_num)
    unfold sec2rad
    calc |s2r P' - gmstPoly tt.jcenturies * (2 * Real.pi / 1296000)|
        = |(s2r P' - P' * (2 * Real.pi / 1296000)) + (P' - gmstPoly tt.jcenturies) * (2 * Real.pi / 1296000)| := by congr 1; ring
      _ ≤ 4 * u * (4618 * 5e-6) + 1e-10 * 5e-6 := (abs_add_le _ _).trans (add_le_add h1 h3)
      _ ≤ 1e-14 := by linarith
  have hSa : |s2r P'| ≤ 1 := by
    have := abs_sub_abs_le_abs_sub (s2r P') (P' * (2 * Real.pi / 1296000))
    linarith
  have hE := (era00_drawn hf ut1 hut hr).1
  have hEa : |Rounded.era00 fl f tu| ≤ 6.284 := anp_abs hf _
  have hsum : |Rounded.era00 fl f tu + s2r P'| ≤ 7.3 := (abs_add_le _ _).trans (by linarith)
  have g1 := (hE.add (⟨0, by simpa using hS⟩ : Near 1e-14 (s2r P') _)).fl hf hsum
  have g2 := (anp_near hf (fl (Rounded.era00 fl f tu + s2r P'))).trans g1
  unfold Rounded.gmst
  rw [hP']
  refine g2.mono ?_
  have := abs_fl hf hsum
  nlinarith

/-- IAU 2000 and IAU 2006 sidereal times are apart, but for the days around J2000. -/
theorem polys_apart {t : ℝ} (h1 : -0.1001 ≤ t) (h2 : t ≤ 0.4001) (h : 1e-3 ≤ |t|) :
    1.6e-12 ≤ |sec2rad (gmst00Poly t) - sec2rad (gmstPoly t)| ∧ |sec2rad (gmst00Poly t) - sec2rad (gmstPoly t)| ≤ 1 := by
  have hp := Real.pi_pos
  have hp1 := pi_lt
  have hp2 := pi_gt
  have e : sec2rad (gmst00Poly t) - sec2rad (gmstPoly t) =
      t * (0.00086566 + 0.00509551 * t - 0.000093 * t ^ 2 + 0.000048776 * t ^ 3 + 0.0000000368 * t ^ 4) * (2 * Real.pi / 1296000) := by
    unfold sec2rad gmst00Poly gmstPoly; ring
  have c1 : 4.8e-6 ≤ 2 * Real.pi / 1296000 := by rw [le_div_iff₀ (by norm_num)]; linarith
  have c2 : 2 * Real.pi / 1296000 ≤ 5e-6 := by rw [div_le_iff₀ (by norm_num)]; linarith
  have t2 : 0 ≤ t ^ 2 := by positivity
  have t2' : t ^ 2 ≤ 0.17 := by nlinarith
  have t3 : -0.05 ≤ t ^ 3 ∧ t ^ 3 ≤ 0.1 := by constructor <;> nlinarith
  have t4 : 0 ≤ t ^ 4 := by positivity
  have t4' : t ^ 4 ≤ 1 := by
    have : t ^ 4 = t ^ 2 * t ^ 2 := by ring
    nlinarith
  have ta : |t| ≤ 1 := abs_le.mpr ⟨by linarith, by linarith⟩
  obtain ⟨g, hg⟩ : ∃ g, g = 0.00086566 + 0.00509551 * t - 0.000093 * t ^ 2 + 0.000048776 * t ^ 3 + 0.0000000368 * t ^ 4 := ⟨_, rfl⟩
  have g1 : 3.35e-4 ≤ g := by rw [hg]; linarith [t3.1, t3.2]
  have g2 : g ≤ 1 := by rw [hg]; linarith [t3.1, t3.2]
  rw [e, ← hg, abs_mul, abs_mul, abs_of_pos (by linarith : 0 < g), abs_of_pos (by linarith : 0 < 2 * Real.pi / 1296000)]
  have m1 : 1e-3 * 3.35e-4 ≤ |t| * g := mul_le_mul h g1 (by norm_num) (abs_nonneg _)
  have m2 : |t| * g ≤ 1 * 1 := mul_le_mul ta g2 (by linarith) (by norm_num)
  constructor
  · exact le_trans (by norm_num) (mul_le_mul m1 c1 (by norm_num) (by positivity : 0 ≤ |t| * g))
  · exact (mul_le_mul m2 c2 (by linarith) (by norm_num)).trans (by norm_num)

/-- C126: the comparison of sidereal time succeeds for every draw, if SOFA is accurate to 1e-13 rad, no angle drawn is within 1e-12 rad of a full turn and no epoch
drawn is within 37 days of J2000. -/
theorem gmst_check_partial (hf : Faithful fl) (hs : SecToRad s2r) (hr : RadToSec r2s) (hck : ∀ e, Sees e (ck.frac e) (ck.days e) (ck.cents e))
    (sofa wrong : Epoch → Epoch → ℝ) (draws : List (Epoch × Epoch)) (hd : ∀ e ∈ draws, Drawn e.1 ∧ Drawn e.2)
    (h6 : ∀ e ∈ draws, Angle 1e-13 (sofa e.1 e.2) (eraIers e.2.daysSinceJ2000 + sec2rad (gmstPoly e.1.jcenturies)))
    (h0 : ∀ e ∈ draws, Angle 1e-13 (wrong e.1 e.2) (eraIers e.2.daysSinceJ2000 + sec2rad (gmst00Poly e.1.jcenturies)))
    (hc : ∀ e ∈ draws, Clear 1e-12 (eraIers e.2.daysSinceJ2000 + sec2rad (gmstPoly e.1.jcenturies))) (ht : ∀ e ∈ draws, 1e-3 ≤ |e.1.jcenturies|) :
    gmstCheck fl s2r r2s ck sofa wrong draws = .ok 0 := by
  have hp := Real.pi_pos
  have hp2 := pi_gt
  induction draws with
  | nil => rfl
  | cons x es ih =>
    obtain ⟨tt, ut1⟩ := x
    obtain ⟨d1, d2⟩ := hd _ List.mem_cons_self
    obtain ⟨c1, c2⟩ := d1.cents
    have a6 := h6 _ List.mem_cons_self
    have a0 := h0 _ List.mem_cons_self
    have m := gmst_drawn hf hs tt ut1 (hck ut1) (hck tt) d2.abs_le (abs_le.mpr ⟨by linarith, by linarith⟩)
    have k := near_clear a6 m (hc _ List.mem_cons_self) (by norm_num) (by norm_num)
    obtain ⟨p1, p2⟩ := polys_apart c1 c2 (ht _ List.mem_cons_self)
    simp only at p1 p2 a0 a6 k
    generalize hm : Rounded.gmst fl s2r (ck.cents tt) (ck.frac ut1) (ck.days ut1) = mine at k m
    have far : 1.1e-12 ≤ |wrong tt ut1 - mine| := by
      obtain ⟨⟨i, hi⟩, -⟩ := a0
      obtain ⟨⟨j, hj⟩, -⟩ := m
      have i' := abs_le.mp hi
      have j' := abs_le.mp hj
      by_contra hn
      push Not at hn
      have n' := abs_lt.mp hn
      have q := abs_le.mp p2
      have hij : i = j := by
        rcases lt_trichotomy i j with h | h | h
        · exfalso
          have : (i : ℝ) + 1 ≤ j := by exact_mod_cast h
          have : 2 * Real.pi * i + 2 * Real.pi ≤ 2 * Real.pi * j := by nlinarith
          linarith
        · exact h
        · exfalso
          have : (j : ℝ) + 1 ≤ i := by exact_mod_cast h
          have : 2 * Real.pi * j + 2 * Real.pi ≤ 2 * Real.pi * i := by nlinarith
          linarith
      subst hij
      have : |sec2rad (gmst00Poly tt.jcenturies) - sec2rad (gmstPoly tt.jcenturies)| ≤ 1.1e-12 + 4.6e-13 := by rw [abs_le]; constructor <;> linarith
      linarith
    have s1 := (seconds_near hf hr (wrong tt ut1 - mine)).1
    have s2 := (seconds_near hf hr (sofa tt ut1 - mine)).2
    rw [gmstCheck, hm, if_pos (agree_of_close hf hr (k.trans (by norm_num))), if_pos (by linarith)]
    exact ih (fun x hx => hd x (List.mem_cons_of_mem _ hx)) (fun x hx => h6 x (List.mem_cons_of_mem _ hx)) (fun x hx => h0 x (List.mem_cons_of_mem _ hx))
      (fun x hx => hc x (List.mem_cons_of_mem _ hx)) (fun x hx => ht x (List.mem_cons_of_mem _ hx))

/-- C126 fails: the comparison of sidereal time also asserts that IAU 2000 is further from the library than IAU 2006. At J2000 the two are the same, to the last bit in
SOFA: the program aborts if that epoch is among those drawn, whatever the rounding, the library and the rest of SOFA do. -/
theorem gmst_check_j2000_fails (hf : Faithful fl) (s2r r2s : ℝ → ℝ) (ck : Clock) (F : ℝ → ℝ → ℝ) (era cents : Epoch → ℝ) (draws : List (Epoch × Epoch))
    (h : ∃ e ∈ draws, cents e.1 = 0) : gmstCheck fl s2r r2s ck (sofaGmst fl F era cents iau2006) (sofaGmst fl F era cents iau2000) draws = .abort := by
  have zero : ∀ k, fl.pr k 0 = 0 := by
    intro k
    have := hf.prel k 0
    simpa using this
  have same : ∀ tt ut1, cents tt = 0 → sofaGmst fl F era cents iau2000 tt ut1 = sofaGmst fl F era cents iau2006 tt ut1 := by
    intro tt ut1 h
    unfold sofaGmst iau2000 iau2006
    rw [h]
    simp only [horner, zero_mul, zero]
  induction draws with
  | nil => obtain ⟨e, he, -⟩ := h; cases he
  | cons x es ih =>
    obtain ⟨tt, ut1⟩ := x
    rw [gmstCheck]
    obtain ⟨e, he, h0⟩ := h
    rcases List.mem_cons.mp he with rfl | he
    · rw [same tt ut1 h0]
      simp
    · have := ih ⟨e, he, h0⟩
      split
      · split
        · exact this
        · rfl
      · rfl

end

/-- An epoch in 2010 at which the Earth rotation angle is half a turn. -/
noncomputable def halfTurn : Epoch :=
  ⟨55293, 51544.5 + (3760.5 - 0.7790572732640) / 1.00273781191135448 - 55293, by norm_num, by norm_num⟩

noncomputable def j2000 : Epoch := ⟨51544, 0.5, by norm_num, by norm_num⟩

/-- With rounding to nearest and a SOFA that is exact, the three comparisons succeed in 2010; that of sidereal time aborts if J2000 is drawn next. -/
example (b : ℕ → Bool) :
    let s2r := fun x => x * (2 * Real.pi / 1296000)
    let r2s := fun x => x * (648000 / Real.pi)
    let ck := exactClock fun _ => 37
    Drawn halfTurn ∧ Drawn j2000 ∧ eraCheck (rnArith b) r2s ck (fun _ => Real.pi) [halfTurn] = .ok 0 ∧
    spCheck (rnArith b) s2r r2s ck (fun e => tioLocator e.jcenturies) [halfTurn, j2000] = .ok 0 ∧
    gmstCheck (rnArith b) s2r r2s ck (fun tt _ => Real.pi + sec2rad (gmstPoly tt.jcenturies)) (fun tt _ => Real.pi + sec2rad (gmst00Poly tt.jcenturies))
      [(halfTurn, halfTurn)] = .ok 0 ∧
    gmstCheck (rnArith b) s2r r2s ck (sofaGmst (rnArith b) (fun x y => x + s2r y) (fun e => e.f) Epoch.jcenturies iau2006)
      (sofaGmst (rnArith b) (fun x y => x + s2r y) (fun e => e.f) Epoch.jcenturies iau2000) [(halfTurn, halfTurn), (j2000, j2000)] = .abort := by
  intro s2r r2s ck
  have hp := Real.pi_pos
  have hp1 := pi_lt
  have hp2 := pi_gt
  have hu := u_pos
  have d1 : Drawn halfTurn := by constructor <;> norm_num [halfTurn, Epoch.daysSinceJ2000]
  have d2 : Drawn j2000 := by constructor <;> norm_num [j2000, Epoch.daysSinceJ2000]
  have t1 : 0.1 ≤ halfTurn.jcenturies ∧ halfTurn.jcenturies ≤ 0.11 := by constructor <;> norm_num [halfTurn, Epoch.jcenturies, Epoch.daysSinceJ2000]
  have era : eraIers halfTurn.daysSinceJ2000 = 2 * Real.pi * 3760.5 := by
    unfold eraIers halfTurn Epoch.daysSinceJ2000
    norm_num
  have hr2s : RadToSec r2s := fun x => by
    simp only [r2s, sub_self, abs_zero]
    positivity
  have hck := (RoundedOrient.exactClock_ok fun _ => 37).sees
  have small : ∀ {y : ℝ}, 0 ≤ y → y ≤ 600 → 0 ≤ sec2rad y ∧ sec2rad y ≤ 1 := by
    intro y h1 h2
    unfold sec2rad
    have c2 : 2 * Real.pi / 1296000 ≤ 1 / 600 := by rw [div_le_iff₀ (by norm_num)]; linarith
    exact ⟨by positivity, (mul_le_mul h2 c2 (by positivity) (by norm_num)).trans (by norm_num)⟩
  have angle : ∀ {s : ℝ}, 0 ≤ s → s ≤ 1 → ∀ {ε : ℝ}, 0 ≤ ε → Angle ε (Real.pi + s) (2 * Real.pi * 3760.5 + s) := by
    intro s s0 s1 ε hε
    refine ⟨⟨-3760, ?_⟩, by linarith, by linarith⟩
    have : Real.pi + s - (2 * Real.pi * 3760.5 + s) - 2 * Real.pi * ((-3760 : ℤ) : ℝ) = 0 := by push_cast; ring
    rw [this, abs_zero]
    exact hε
  have clear : ∀ {s : ℝ}, 0 ≤ s → s ≤ 1 → Clear 1e-12 (2 * Real.pi * 3760.5 + s) := by
    intro s s0 s1 k
    rcases le_or_gt k 3760 with h | h
    · have : (k : ℝ) ≤ 3760 := by exact_mod_cast h
      have : 2 * Real.pi * k ≤ 2 * Real.pi * 3760 := by nlinarith
      refine le_trans ?_ (le_abs_self _)
      linarith
    · have : (3761 : ℝ) ≤ k := by exact_mod_cast h
      have : 2 * Real.pi * 3761 ≤ 2 * Real.pi * k := by nlinarith
      refine le_trans ?_ (neg_le_abs _)
      linarith
  have t2 : 0.01 ≤ halfTurn.jcenturies ^ 2 ∧ halfTurn.jcenturies ^ 2 ≤ 0.0121 := by constructor <;> nlinarith [t1.1, t1.2]
  have t3 : 0 ≤ halfTurn.jcenturies ^ 3 ∧ halfTurn.jcenturies ^ 3 ≤ 1 := ⟨pow_nonneg (by linarith [t1.1]) _, pow_le_one₀ (by linarith [t1.1]) (by linarith [t1.2])⟩
  have t4 : 0 ≤ halfTurn.jcenturies ^ 4 ∧ halfTurn.jcenturies ^ 4 ≤ 1 := ⟨pow_nonneg (by linarith [t1.1]) _, pow_le_one₀ (by linarith [t1.1]) (by linarith [t1.2])⟩
  have t5 : 0 ≤ halfTurn.jcenturies ^ 5 ∧ halfTurn.jcenturies ^ 5 ≤ 1 := ⟨pow_nonneg (by linarith [t1.1]) _, pow_le_one₀ (by linarith [t1.1]) (by linarith [t1.2])⟩
  have p6 := small (y := gmstPoly halfTurn.jcenturies) (by unfold gmstPoly; linarith [t1.1, t2.1, t3.2, t4.2, t5.2]) (by unfold gmstPoly; linarith [t1.2, t2.2, t3.1, t4.1, t5.1])
  have p0 := small (y := gmst00Poly halfTurn.jcenturies) (by unfold gmst00Poly; linarith [t1.1, t2.1, t3.2, t4.1]) (by unfold gmst00Poly; linarith [t1.2, t2.2, t3.1, t4.2])
  have one : ∀ {P : Epoch → Prop}, P halfTurn → ∀ e ∈ [halfTurn], P e := by
    intro P h e he
    rw [List.mem_singleton.mp he]
    exact h
  have pair : ∀ {P : Epoch × Epoch → Prop}, P (halfTurn, halfTurn) → ∀ e ∈ [(halfTurn, halfTurn)], P e := by
    intro P h e he
    rw [List.mem_singleton.mp he]
    exact h
  refine ⟨d1, d2, era_check_partial (rn_faithful b) hr2s hck _ _ (one d1) (one ?_) (one ?_),
    sp_check (rn_faithful b) s2r_exact hr2s hck _ _ (fun e he => ?_) (fun e _ => by norm_num),
    gmst_check_partial (rn_faithful b) s2r_exact hr2s hck _ _ _ (pair ⟨d1, d1⟩) (pair ?_) (pair ?_) (pair ?_) (pair ?_),
    gmst_check_j2000_fails (rn_faithful b) _ _ _ _ _ _ _ ⟨(j2000, j2000), by simp, by norm_num [j2000, Epoch.jcenturies, Epoch.daysSinceJ2000]⟩⟩
  · simpa [era] using angle (s := 0) le_rfl (by norm_num) (ε := 1.4e-13) (by norm_num)
  · simpa [era] using clear (s := 0) le_rfl (by norm_num)
  · simp only [List.mem_cons, List.not_mem_nil, or_false] at he
    rcases he with rfl | rfl
    · exact d1
    · exact d2
  · simp only [era]; exact angle p6.1 p6.2 (by norm_num)
  · simp only [era]; exact angle p0.1 p0.2 (by norm_num)
  · simp only [era]; exact clear p6.1 p6.2
  · exact le_trans (by norm_num) (t1.1.trans (le_abs_self _))

end Verif.RoundedSofa
