import Verif.Proof.Rounding
import Verif.Proof.RoundNearest
import Verif.Spec.Angle
import Verif.Props.Angle
/-
C92: angles computed in double precision.
-/
namespace Verif.Rounding
open Verif.Rounded Verif.Angle Verif.Iau Verif.Fundarg Verif.Doodson

/-- C92: a normalised angle is the angle given up to a few roundings and whole turns, and not outside [0, 2π]. -/
theorem anp_rounded {fl : Arith} (hf : Faithful fl) (a : ℝ) :
    (0 ≤ Rounded.anp fl a ∧ Rounded.anp fl a ≤ fl (2 * Real.pi)) ∧ Near (u * (1.1 * |a| + 13)) (Rounded.anp fl a) a :=
  ⟨anp_range hf a, anp_near hf a⟩

/-- C92 fails: `anp` is documented to give angles in [0, 2π), but a small negative angle gives 2π itself, the double that stands for a full
turn. -/
theorem anp_rounded_fails {fl : Arith} (hf : Faithful fl) : ∃ a, IsDouble a ∧ Rounded.anp fl a = fl (2 * Real.pi) := by
  obtain ⟨hb1, hb2⟩ := D2PI_bounds hf
  have hD : IsDouble (D2PI fl) := hf.isDouble _
  refine ⟨-(2 : ℝ) ^ (-60 : ℤ), ⟨-1, -60, by norm_num, by simp⟩, ?_⟩
  have hfm : fmod (-(2 : ℝ) ^ (-60 : ℤ)) (D2PI fl) = -(2 : ℝ) ^ (-60 : ℤ) := by
    unfold fmod trunc
    have hlt : -(2 : ℝ) ^ (-60 : ℤ) / D2PI fl < 0 := div_neg_of_neg_of_pos (by norm_num) (by linarith)
    have hc : ⌈-(2 : ℝ) ^ (-60 : ℤ) / D2PI fl⌉ = 0 := by
      rw [Int.ceil_eq_iff]
      refine ⟨?_, by simpa using hlt.le⟩
      rw [lt_div_iff₀ (by linarith)]; norm_num; linarith
    rw [if_neg (not_le.mpr hlt), hc]; simp
  unfold Rounded.anp
  simp only
  rw [hfm, if_pos (by norm_num)]
  have h1 := hf.nearest (-(2 : ℝ) ^ (-60 : ℤ) + D2PI fl) _ hD
  have hq : (0 : ℝ) < (2 : ℝ) ^ (-60 : ℤ) := by positivity
  rw [show D2PI fl - (-(2 : ℝ) ^ (-60 : ℤ) + D2PI fl) = (2 : ℝ) ^ (-60 : ℤ) by ring, abs_of_pos hq] at h1
  -- both are doubles between 4 and 8, less than one unit apart
  have key : ∀ x, IsDouble x → 4 < x → ∃ n : ℤ, x = n * (2 : ℝ) ^ (-50 : ℤ) := by
    rintro x ⟨m, e, hm, rfl⟩ hx
    have he : -50 ≤ e := by
      by_contra hlt
      have hle : (2 : ℝ) ^ e ≤ (2 : ℝ) ^ (-51 : ℤ) := zpow_le_zpow_right₀ (by norm_num) (by omega)
      have hmm : (m : ℝ) ≤ 2 ^ 53 := by
        have : m ≤ 2 ^ 53 := (le_abs_self m).trans hm.le
        exact_mod_cast this
      have : (m : ℝ) * (2 : ℝ) ^ e ≤ 2 ^ 53 * (2 : ℝ) ^ (-51 : ℤ) := by
        have h0 : (0 : ℝ) < (2 : ℝ) ^ e := by positivity
        exact mul_le_mul hmm hle h0.le (by norm_num)
      norm_num at this; linarith
    obtain ⟨k, rfl⟩ : ∃ k : ℕ, e = -50 + k := ⟨(e + 50).toNat, by omega⟩
    refine ⟨m * 2 ^ k, ?_⟩
    rw [zpow_add₀ (by norm_num), zpow_natCast]; push_cast; ring
  have h2 := abs_le.mp h1
  norm_num at h2
  obtain ⟨n, hn⟩ := key _ (hf.isDouble (-(2 : ℝ) ^ (-60 : ℤ) + D2PI fl)) (by norm_num; linarith [h2.1])
  obtain ⟨n', hn'⟩ := key _ hD (by linarith)
  have hnn : n = n' := by
    have h3 : |((n - n' : ℤ) : ℝ)| < 1 := by
      have h4 : ((n - n' : ℤ) : ℝ) = (fl (-(2 : ℝ) ^ (-60 : ℤ) + D2PI fl) - D2PI fl) * 2 ^ 50 := by
        rw [hn, hn']
        push_cast; norm_num; ring
      rw [h4, abs_lt]
      norm_num
      constructor <;> linarith [h2.1, h2.2]
    have h5 : |n - n'| < 1 := by exact_mod_cast h3
    have := Int.abs_lt_one_iff.mp h5
    omega
  rw [hn, hnn, ← hn']; rfl

/-- The epoch as the program sees it: days since J2000, fraction of the day and Julian centuries are those of the epoch up to a few units in
the last place. -/
structure Sees (e : Epoch) (f tu t : ℝ) : Prop where
  frac : |f - e.f| ≤ 2 * u
  days : |tu - e.daysSinceJ2000| ≤ 4 * u * (|e.daysSinceJ2000| + 1)
  cents : |t - e.jcenturies| ≤ 4 * u

/-- C92: within a century of J2000 the Earth rotation angle is that of the Conventions to 1e-12 rad. -/
theorem era00_rounded {fl : Arith} (hf : Faithful fl) (ut1 : Epoch) {f tu t : ℝ} (h : Sees ut1 f tu t)
    (hr : |ut1.daysSinceJ2000| ≤ 36525) : Near 1e-12 (Rounded.era00 fl f tu) (eraIers ut1.daysSinceJ2000) := by
  have hfr : App 1 (2 * u) f ut1.f := ⟨by rw [abs_of_nonneg ut1.f_nonneg]; exact ut1.f_lt.le, h.frac⟩
  have hu := u_pos
  have hul := u_lt
  have htu : App 36525 (4 * u * 36526) tu ut1.daysSinceJ2000 :=
    ⟨hr, h.days.trans (by gcongr; linarith)⟩
  have hs := u_sq
  have h1 := ((hfr.add (App.lit hf 0.7790572732640 (M := 0.78) (by norm_num [abs_of_pos]))).fl hf).mono (M' := 1.78) (e' := 4.6 * u)
    (by norm_num) (by nlinarith)
  have h2 := (((App.lit hf 0.00273781191135448 (M := 0.00274) (by norm_num [abs_of_pos])).mul htu).pr hf 1).mono (M' := 100.1) (e' := 602 * u)
    (by norm_num) (by nlinarith)
  have h12 := ((h1.add h2).fl hf).mono (M' := 101.88) (e' := 709 * u) (by norm_num) (by nlinarith)
  have h3 := (((app_D2PI hf).mul h12).pr hf 0).mono (M' := 640.2) (e' := 5740 * u) (by norm_num) (by nlinarith)
  have h4 := ((h3.add (app_DPI hf)).fl hf).mono (M' := 643.4) (e' := 6390 * u) (by norm_num) (by nlinarith)
  have h5 := anp_near hf (fl (fl.pr 0 (D2PI fl * fl (fl (f + Rounded.lit fl 0.7790572732640) +
    fl.pr 1 (Rounded.lit fl 0.00273781191135448 * tu))) + DPI fl))
  have h6 := (h5.trans (Near.of_app h4)).mono (e' := 1e-12) (by
    have := h4.abs'
    nlinarith)
  refine h6.cong ⟨51545 - ut1.mjd, ?_⟩
  unfold eraIers Epoch.daysSinceJ2000
  push_cast
  ring

theorem delaunay_near {fl : Arith} {s2r : ℝ → ℝ} (hf : Faithful fl) (hs : SecToRad s2r) {t' t c0 c1 c2 c3 c4 : ℝ} (ht : App 1 (4 * u) t' t)
    (h0 : |c0| ≤ 1.3e6) (h1 : |c1| ≤ 1.74e9) (h2 : |c2| ≤ 32) (h3 : |c3| ≤ 0.06) (h4 : |c4| ≤ 0.0003) :
    Near 1e-11 (delaunay fl s2r [c0, c1, c2, c3, c4] t') (sec2rad (c0 + t * (c1 + t * (c2 + t * (c3 + t * c4))))) := by
  have k4 : App 0.0003 (u * 0.0003) (horner fl t' [c4]) c4 := App.lit hf c4 h4
  rw [mul_comm] at k4
  have hs' := u_sq
  have hu := u_lt
  have hu0 := u_pos
  have k3 := (ht.horner hf h3 (by norm_num) k4).mono (M' := 0.061) (e' := 1 * u) (by norm_num) (by nlinarith)
  have k2 := (ht.horner hf h2 (by norm_num) k3).mono (M' := 33) (e' := 70 * u) (by norm_num) (by nlinarith)
  have k1 := (ht.horner hf h1 (by norm_num) k2).mono (M' := 1.741e9) (e' := 3.49e9 * u) (by norm_num) (by nlinarith)
  have k' := (ht.horner hf h0 (by norm_num) k1).mono (M' := 2e9) (e' := 1.7e-6) (by norm_num) (by linarith)
  refine (near_s2r hs rfl k'.2).mono ?_
  have := pi_lt
  have hp := Real.pi_pos
  nlinarith

/-- C92: within a century of J2000 the Delaunay arguments are those of the Conventions to 1e-11 rad. -/
theorem delaunay_rounded {fl : Arith} {s2r : ℝ → ℝ} (hf : Faithful fl) (hs : SecToRad s2r) {t' t : ℝ} (ht : |t' - t| ≤ 4 * u) (hr : |t| ≤ 1) :
    Near 1e-11 (Rounded.fundarg fl s2r t' 0) (sec2rad (lPoly t)) ∧ Near 1e-11 (Rounded.fundarg fl s2r t' 1) (sec2rad (lpPoly t)) ∧
    Near 1e-11 (Rounded.fundarg fl s2r t' 2) (sec2rad (fPoly t)) ∧ Near 1e-11 (Rounded.fundarg fl s2r t' 3) (sec2rad (dPoly t)) ∧
    Near 1e-11 (Rounded.fundarg fl s2r t' 4) (sec2rad (omPoly t)) := by
  have key : ∀ {c0 c1 c2 c3 c4 y : ℝ}, |c0| ≤ 1.3e6 → |c1| ≤ 1.74e9 → |c2| ≤ 32 → |c3| ≤ 0.06 → |c4| ≤ 0.0003 →
      c0 + t * (c1 + t * (c2 + t * (c3 + t * c4))) = y → Near 1e-11 (delaunay fl s2r [c0, c1, c2, c3, c4] t') (sec2rad y) := by
    rintro c0 c1 c2 c3 c4 y h0 h1 h2 h3 h4 rfl
    exact delaunay_near hf hs ⟨hr, ht⟩ h0 h1 h2 h3 h4
  refine ⟨key ?_ ?_ ?_ ?_ ?_ ?_, key ?_ ?_ ?_ ?_ ?_ ?_, key ?_ ?_ ?_ ?_ ?_ ?_, key ?_ ?_ ?_ ?_ ?_ ?_, key ?_ ?_ ?_ ?_ ?_ ?_⟩
  all_goals first | (rw [abs_le]; constructor <;> norm_num) | skip
  · unfold lPoly; ring
  · unfold lpPoly; ring
  · unfold fPoly; ring
  · unfold dPoly; ring
  · unfold omPoly; ring

/-- C92: within a century of J2000 Greenwich mean sidereal time is that of the Conventions to 2e-12 rad. -/
theorem gmst_rounded {fl : Arith} {s2r : ℝ → ℝ} (hf : Faithful fl) (hs : SecToRad s2r) (tt ut1 : Epoch) {f tu t f' tu' t' : ℝ} (hut : Sees ut1 f tu t)
    (htt : Sees tt f' tu' t') (hr : |ut1.daysSinceJ2000| ≤ 36525) (hr' : |tt.jcenturies| ≤ 1) :
    Near 2e-12 (Rounded.gmst fl s2r t' f tu) (eraIers ut1.daysSinceJ2000 + sec2rad (gmstPoly tt.jcenturies)) := by
  have hu := u_pos
  have hul := u_lt
  have hp := Real.pi_pos
  have hp1 := pi_lt
  have ht : App 1 (4 * u) t' tt.jcenturies := ⟨hr', htt.cents⟩
  have k5 : App 4e-8 (4e-8 * u) (horner fl t' [-0.0000000368]) (-0.0000000368) := by
    rw [mul_comm]
    exact App.lit hf _ (by rw [abs_le]; constructor <;> norm_num)
  have k4 := (ht.horner hf (c := -0.000029956) (C := 3e-5) (by rw [abs_le]; constructor <;> norm_num) (by norm_num) k5).mono
    (M' := 1) (e' := 1 * u) (by norm_num) (by nlinarith)
  have k3 := (ht.horner hf (c := -0.00000044) (C := 1e-6) (by rw [abs_le]; constructor <;> norm_num) (by norm_num) k4).mono
    (M' := 1.1) (e' := 10 * u) (by norm_num) (by nlinarith)
  have k2 := (ht.horner hf (c := 1.3915817) (C := 1.4) (by rw [abs_le]; constructor <;> norm_num) (by norm_num) k3).mono
    (M' := 2.5) (e' := 30 * u) (by norm_num) (by nlinarith)
  have k1 := (ht.horner hf (c := 4612.156534) (C := 4613) (by rw [abs_le]; constructor <;> norm_num) (by norm_num) k2).mono
    (M' := 4616) (e' := 9400 * u) (by norm_num) (by nlinarith)
  have k' := (ht.horner hf (c := 0.014506) (C := 0.02) (by rw [abs_le]; constructor <;> norm_num) (by norm_num) k1).mono
    (M' := 4617) (e' := 1e-9) (by norm_num) (by nlinarith)
  generalize hP' : horner fl t' [0.014506, 4612.156534, 1.3915817, -0.00000044, -0.000029956, -0.0000000368] = P' at k'
  have hP : 0.014506 + tt.jcenturies * (4612.156534 + tt.jcenturies * (1.3915817 + tt.jcenturies * (-0.00000044 +
      tt.jcenturies * (-0.000029956 + tt.jcenturies * -0.0000000368)))) = gmstPoly tt.jcenturies := by
    unfold gmstPoly; ring
  rw [hP] at k'
  have hc : (0 : ℝ) < 2 * Real.pi / 1296000 := by positivity
  have hcl : 2 * Real.pi / 1296000 ≤ 5e-6 := by rw [div_le_iff₀ (by norm_num)]; linarith
  have hS : |s2r P' - sec2rad (gmstPoly tt.jcenturies)| ≤ 2e-14 := by
    have h1 := hs P'
    have h2 : |P' * (2 * Real.pi / 1296000)| ≤ 4618 * 5e-6 := by
      rw [abs_mul, abs_of_pos hc]
      exact mul_le_mul (k'.abs'.trans (by norm_num)) hcl hc.le (by norm_num)
    have h3 : |(P' - gmstPoly tt.jcenturies) * (2 * Real.pi / 1296000)| ≤ 1e-9 * 5e-6 := by
      rw [abs_mul, abs_of_pos hc]
      exact mul_le_mul k'.2 hcl hc.le (by norm_num)
    unfold sec2rad
    calc |s2r P' - gmstPoly tt.jcenturies * (2 * Real.pi / 1296000)|
        = |(s2r P' - P' * (2 * Real.pi / 1296000)) + (P' - gmstPoly tt.jcenturies) * (2 * Real.pi / 1296000)| := by congr 1; ring
      _ ≤ 4 * u * (4618 * 5e-6) + 1e-9 * 5e-6 :=
        (abs_add_le _ _).trans (add_le_add (h1.trans (mul_le_mul_of_nonneg_left h2 (by positivity))) h3)
      _ ≤ 2e-14 := by nlinarith
  have hSa : |s2r P'| ≤ 1 := by
    have h1 := abs_sub_abs_le_abs_sub (s2r P') (P' * (2 * Real.pi / 1296000))
    have h2 := hs P'
    have h3 : |P' * (2 * Real.pi / 1296000)| ≤ 4618 * 5e-6 := by
      rw [abs_mul, abs_of_pos hc]
      exact mul_le_mul (k'.abs'.trans (by norm_num)) hcl hc.le (by norm_num)
    nlinarith
  have hE := era00_rounded hf ut1 hut hr
  have hEa : |Rounded.era00 fl f tu| ≤ 6.284 := anp_abs hf _
  have hsum : |Rounded.era00 fl f tu + s2r P'| ≤ 7.3 := (abs_add_le _ _).trans (by linarith)
  have h1 := (hE.add (⟨0, by simpa using hS⟩ : Near 2e-14 (s2r P') _)).fl hf hsum
  have h2 := (anp_near hf (fl (Rounded.era00 fl f tu + s2r P'))).trans h1
  unfold Rounded.gmst
  rw [hP']
  refine h2.mono ?_
  have := abs_fl hf hsum
  nlinarith

/-- C92: within a century of J2000 the Doodson variables, from the epoch on in double precision, are those of the Conventions to 5e-11 rad. -/
theorem doodson_rounded {fl : Arith} {s2r : ℝ → ℝ} (hf : Faithful fl) (hs : SecToRad s2r) (tt ut1 : Epoch) {f tu t f' tu' t' : ℝ} (hut : Sees ut1 f tu t)
    (htt : Sees tt f' tu' t') (hr : |ut1.daysSinceJ2000| ≤ 36525) (hr' : |tt.jcenturies| ≤ 1) :
    let T := tt.jcenturies
    let s := sec2rad (fPoly T) + sec2rad (omPoly T)
    let v := Rounded.delaunay2doodson fl (Rounded.fundarg fl s2r t') (Rounded.gmst fl s2r t' f tu)
    Near 2.3e-11 (v 0) (eraIers ut1.daysSinceJ2000 + sec2rad (gmstPoly T) + Real.pi - s) ∧ Near 2.1e-11 (v 1) s ∧
      Near 3.1e-11 (v 2) (s - sec2rad (dPoly T)) ∧ Near 3.1e-11 (v 3) (s - sec2rad (lPoly T)) ∧
      Near 1.1e-11 (v 4) (-sec2rad (omPoly T)) ∧ Near 4.1e-11 (v 5) (s - sec2rad (dPoly T) - sec2rad (lpPoly T)) := by
  intro T s v
  have hu := u_pos
  have hul := u_lt
  obtain ⟨a0, a1, a2, a3, a4⟩ := delaunay_rounded hf hs htt.cents hr'
  have hg := gmst_rounded hf hs tt ut1 hut htt hr hr'
  have hga : |Rounded.gmst fl s2r t' f tu| ≤ 6.284 := anp_abs hf _
  have hab : ∀ (cs : List ℝ), |delaunay fl s2r cs t'| ≤ 6.284 := by
    intro cs
    have h1 := hs (fmod (horner fl t' cs) 1296000)
    have h2 := fmod_abs (by norm_num : (0 : ℝ) < 1296000) (horner fl t' cs)
    have hp := Real.pi_pos
    have hp1 := pi_lt
    have h3 : |fmod (horner fl t' cs) 1296000 * (2 * Real.pi / 1296000)| ≤ 2 * Real.pi := by
      rw [abs_mul, abs_of_pos (by positivity : 0 < 2 * Real.pi / 1296000)]
      calc _ ≤ 1296000 * (2 * Real.pi / 1296000) := by gcongr
        _ = 2 * Real.pi := by ring
    have h4 := abs_sub_abs_le_abs_sub (s2r (fmod (horner fl t' cs) 1296000)) (fmod (horner fl t' cs) 1296000 * (2 * Real.pi / 1296000))
    unfold delaunay
    nlinarith
  have b0 : |Rounded.fundarg fl s2r t' 0| ≤ 6.284 := hab _
  have b1 : |Rounded.fundarg fl s2r t' 1| ≤ 6.284 := hab _
  have b2 : |Rounded.fundarg fl s2r t' 2| ≤ 6.284 := hab _
  have b3 : |Rounded.fundarg fl s2r t' 3| ≤ 6.284 := hab _
  have b4 : |Rounded.fundarg fl s2r t' 4| ≤ 6.284 := hab _
  have hv : v = Rounded.delaunay2doodson fl (Rounded.fundarg fl s2r t') (Rounded.gmst fl s2r t' f tu) := rfl
  generalize Rounded.fundarg fl s2r t' = a at *
  generalize Rounded.gmst fl s2r t' f tu = g at *
  have small : ∀ {M : ℝ}, M ≤ 40 → u * M ≤ 1e-14 := fun h => by nlinarith
  have rnd : ∀ {e x y : ℝ}, Near e x y → |x| ≤ 30 → Near (e + 1e-14) (fl x) y ∧ |fl x| ≤ |x| + 1e-14 := by
    intro e x y h hx
    have h1 := hf.rel x
    have h2 := abs_sub_abs_le_abs_sub (fl x) x
    have h3 := small (M := |x|) (by linarith)
    exact ⟨(h.fl hf le_rfl).mono (by linarith), by linarith⟩
  have norm : ∀ {e x y : ℝ}, Near e x y → |x| ≤ 30 → Near (e + 1e-14) (Rounded.anp fl x) y := by
    intro e x y h hx
    refine ((anp_near hf x).trans h).mono ?_
    have : u * (1.1 * |x| + 13) ≤ 1e-14 := by nlinarith
    linarith
  have e24 : |a 2 + a 4| ≤ 12.568 := (abs_add_le _ _).trans (by linarith)
  obtain ⟨n24, f24⟩ := rnd (a2.add a4) (e24.trans (by norm_num))
  have d1 := norm n24 (by linarith)
  have e3 : |fl (a 2 + a 4) - a 3| ≤ 18.9 := (abs_sub _ _).trans (by linarith)
  obtain ⟨n3, f3⟩ := rnd (n24.sub a3) (e3.trans (by norm_num))
  have d2 := norm n3 (by linarith)
  have e0 : |fl (a 2 + a 4) - a 0| ≤ 18.9 := (abs_sub _ _).trans (by linarith)
  obtain ⟨n0, f0⟩ := rnd (n24.sub a0) (e0.trans (by norm_num))
  have d3 := norm n0 (by linarith)
  have d4 := norm a4.neg (by rw [abs_neg]; linarith)
  have e1 : |fl (fl (a 2 + a 4) - a 3) - a 1| ≤ 25.3 := (abs_sub _ _).trans (by linarith)
  obtain ⟨n1, f1⟩ := rnd (n3.sub a1) (e1.trans (by norm_num))
  have d5 := norm n1 (by linarith)
  have hpi := (app_DPI hf).mono (e' := 1e-14) le_rfl (small (by norm_num))
  have eg : |g + DPI fl| ≤ 9.5 := (abs_add_le _ _).trans (by have := hpi.abs'; linarith)
  obtain ⟨ng, fg⟩ := rnd (hg.add (Near.of_app hpi)) (eg.trans (by norm_num))
  have egd : |fl (g + DPI fl) - Rounded.anp fl (fl (a 2 + a 4))| ≤ 15.9 :=
    (abs_sub _ _).trans (by have := anp_abs hf (fl (a 2 + a 4)); linarith)
  obtain ⟨nd, fd⟩ := rnd (ng.sub d1) (egd.trans (by norm_num))
  have d0 := norm nd (by linarith)
  rw [hv]
  exact ⟨d0.mono (by norm_num), d1.mono (by norm_num), d2.mono (by norm_num), d3.mono (by norm_num), d4.mono (by norm_num),
    d5.mono (by norm_num)⟩

/-- C92: the argument of a tidal constituent at an epoch within a century of J2000, from the epoch to the final angle in double precision,
is the combination of the Doodson variables with the multipliers to 1e-9 rad for multipliers up to 6, and in proportion for larger ones. -/
theorem argument_rounded {fl : Arith} {s2r : ℝ → ℝ} (hf : Faithful fl) (hs : SecToRad s2r) (d : DC) (n : ℝ) (hn : 1 ≤ n)
    (hd : |(d.i0 : ℝ)| ≤ n ∧ |(d.i1 : ℝ)| ≤ n ∧ |(d.i2 : ℝ)| ≤ n ∧ |(d.i3 : ℝ)| ≤ n ∧ |(d.i4 : ℝ)| ≤ n ∧ |(d.i5 : ℝ)| ≤ n)
    (tt ut1 : Epoch) {f tu t f' tu' t' : ℝ} (hut : Sees ut1 f tu t)
    (htt : Sees tt f' tu' t') (hr : |ut1.daysSinceJ2000| ≤ 36525) (hr' : |tt.jcenturies| ≤ 1) :
    let T := tt.jcenturies
    let s := sec2rad (fPoly T) + sec2rad (omPoly T)
    Near (n * 1.6e-10) (Rounded.argument fl d (Rounded.delaunay2doodson fl (Rounded.fundarg fl s2r t') (Rounded.gmst fl s2r t' f tu)))
      (d.combine (eraIers ut1.daysSinceJ2000 + sec2rad (gmstPoly T) + Real.pi - s) s (s - sec2rad (dPoly T)) (s - sec2rad (lPoly T))
        (-sec2rad (omPoly T)) (s - sec2rad (dPoly T) - sec2rad (lpPoly T))) := by
  intro T s
  obtain ⟨d0, d1, d2, d3, d4, d5⟩ := doodson_rounded hf hs tt ut1 hut htt hr hr'
  have hr : ∀ i, |Rounded.delaunay2doodson fl (Rounded.fundarg fl s2r t') (Rounded.gmst fl s2r t' f tu) i| ≤ 6.284 := by
    intro i
    fin_cases i <;> exact anp_abs hf _
  generalize Rounded.delaunay2doodson fl (Rounded.fundarg fl s2r t') (Rounded.gmst fl s2r t' f tu) = v at *
  have hu := u_pos
  have hul := u_lt
  have p0 := prod_near hf 0 hn d.i0 d0 (by norm_num) (hr 0) hd.1
  have p1 := prod_near hf 1 hn d.i1 d1 (by norm_num) (hr 1) hd.2.1
  have p2 := prod_near hf 2 hn d.i2 d2 (by norm_num) (hr 2) hd.2.2.1
  have p3 := prod_near hf 3 hn d.i3 d3 (by norm_num) (hr 3) hd.2.2.2.1
  have p4 := prod_near hf 4 hn d.i4 d4 (by norm_num) (hr 4) hd.2.2.2.2.1
  have p5 := prod_near hf 5 hn d.i5 d5 (by norm_num) (hr 5) hd.2.2.2.2.2
  have w1 := sum_near hf hn p0 (by norm_num) p1
  have w2 := sum_near hf hn w1 (by norm_num) p2
  have w3 := sum_near hf hn w2 (by norm_num) p3
  have w4 := sum_near hf hn w3 (by norm_num) p4
  have w5 := sum_near hf hn w4 (by norm_num) p5
  have fin := (anp_near hf _).trans w5.1
  refine (fin.mono ?_).cong (Cong.of_eq ?_)
  · have h1 := w5.2
    have h2 : u * n ≤ 1.2e-16 * n := mul_le_mul_of_nonneg_right hul.le (by linarith)
    have h3 := mul_le_mul_of_nonneg_left h1 hu.le
    linarith
  · unfold DC.combine; simp only [s, T]; ring

theorem s2r_exact : SecToRad fun x => x * (2 * Real.pi / 1296000) := by
  intro x
  rw [sub_self, abs_zero]
  have := u_pos
  positivity

/-- The hypotheses are met by rounding to nearest, whichever products are fused, on 2012-06-06 12h (TT and UT1 taken as equal) for the constituent M2. -/
example (s : ℕ → Bool) : ∃ x, Near (2 * 1.6e-10) (Rounded.argument (rnArith s) ⟨2, 0, 0, 0, 0, 0, 0⟩ (Rounded.delaunay2doodson (rnArith s)
    (Rounded.fundarg (rnArith s) (fun x => x * (2 * Real.pi / 1296000)) ((56084 + 0.5 - 51544.5) / 36525))
    (Rounded.gmst (rnArith s) (fun x => x * (2 * Real.pi / 1296000)) ((56084 + 0.5 - 51544.5) / 36525) 0.5 (56084 + 0.5 - 51544.5)))) x := by
  have hu := u_pos
  let e : Epoch := ⟨56084, 0.5, by norm_num, by norm_num⟩
  have hd : e.daysSinceJ2000 = 56084 + 0.5 - 51544.5 := by show ((56084 : ℤ) : ℝ) + 0.5 - 51544.5 = _; norm_num
  have hs : Sees e 0.5 (56084 + 0.5 - 51544.5) ((56084 + 0.5 - 51544.5) / 36525) :=
    ⟨by simp [e, hu.le], by rw [hd, sub_self, abs_zero]; positivity, by unfold Epoch.jcenturies; rw [hd, sub_self, abs_zero]; positivity⟩
  exact ⟨_, argument_rounded (rn_faithful s) s2r_exact ⟨2, 0, 0, 0, 0, 0, 0⟩ 2 (by norm_num)
    ⟨by norm_num, by norm_num, by norm_num, by norm_num, by norm_num, by norm_num⟩ e e hs hs
    (by rw [hd]; norm_num [abs_of_pos]) (by unfold Epoch.jcenturies; rw [hd]; norm_num [abs_of_pos])⟩

end Verif.Rounding
