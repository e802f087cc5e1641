import Verif.Model.EopTides
import Verif.Spec.EopTides
import Verif.Props.Angle
import Verif.Props.SolidTide
import Mathlib.Analysis.SpecialFunctions.Trigonometric.Deriv
/-
Helper lemmas for the tidal variations of the Earth orientation parameters.
-/
namespace Verif.EopTides
open Verif Doodson Angle Fundarg

/-! ### Loops as sums -/

/-- Phase of a zonal term. -/
noncomputable def ZEntry.phase (e : ZEntry) (f : Fin 5 → ℝ) : ℝ :=
  f 0 * e.lm + f 1 * e.lpm + f 2 * e.fm + f 3 * e.dm + f 4 * e.om

theorem ksi_trig (e : ZEntry) (f : Fin 5 → ℝ) :
    Real.cos (e.ksi f) = Real.cos (e.phase f) ∧ Real.sin (e.ksi f) = Real.sin (e.phase f) :=
  SolidTide.cong_trig (anp_cong _)

theorem zonal_fold (f : Fin 5 → ℝ) (l : List ZEntry) (a : Zonal) :
    (l.foldl (zonalStep f) a).dut1 = a.dut1 + (l.map fun e => (e.dut1B / 10000 : ℝ) * Real.sin (e.phase f) +
      (e.dut1C / 10000 : ℝ) * Real.cos (e.phase f)).sum ∧
    (l.foldl (zonalStep f) a).dlod = a.dlod + (l.map fun e => (e.dlodB / 10000 : ℝ) * Real.cos (e.phase f) +
      (e.dlodC / 10000 : ℝ) * Real.sin (e.phase f)).sum ∧
    (l.foldl (zonalStep f) a).domega = a.domega +
      (l.map fun e => (e.domegaB / 10000 : ℝ) * Real.cos (e.phase f) +
      (e.domegaC / 10000 : ℝ) * Real.sin (e.phase f)).sum := by
  induction l generalizing a with
  | nil => simp
  | cons e l ih =>
    obtain ⟨h1, h2, h3⟩ := ih (zonalStep f a e)
    obtain ⟨hc, hs⟩ := ksi_trig e f
    simp only [List.foldl_cons, List.map_cons, List.sum_cons, h1, h2, h3]
    simp only [zonalStep, hc, hs]
    exact ⟨by ring, by ring, by ring⟩

theorem iers_step (f : Fin 5 → ℝ) : zonalStepIers f = zonalStep f := by
  funext a e
  obtain ⟨hc, hs⟩ := SolidTide.cong_trig (anp_cong (e.ksi f))
  simp only [zonalStepIers, zonalStep, hc, hs]

/-- Phase of a diurnal or semidiurnal term. -/
noncomputable def DEntry.phase (e : DEntry) (f : Fin 5 → ℝ) (g : ℝ) : ℝ :=
  e.dn.i0 * (g + Real.pi) + (-e.dn.i0 + e.dn.i1 + e.dn.i2 + e.dn.i3 + e.dn.i5) * (f 2 + f 4) -
    (e.dn.i2 + e.dn.i5) * f 3 - e.dn.i3 * f 0 - e.dn.i4 * f 4 - e.dn.i5 * f 1

theorem arg_trig (e : DEntry) (f : Fin 5 → ℝ) (g : ℝ) :
    Real.cos (e.dn.argument (delaunay2doodson f g)) = Real.cos (e.phase f g) ∧
    Real.sin (e.dn.argument (delaunay2doodson f g)) = Real.sin (e.phase f g) := by
  have h := argument_either_basis e.dn (f 0) (f 1) (f 2) (f 3) (f 4) g
  have hf : ![f 0, f 1, f 2, f 3, f 4] = f := by
    funext i; fin_cases i <;> rfl
  rw [hf] at h
  exact SolidTide.cong_trig h

theorem diurnal_fold (f : Fin 5 → ℝ) (g : ℝ) (l : List DEntry) (a : Diurnal) :
    (l.foldl (diurnalStep (delaunay2doodson f g)) a).dxp = a.dxp +
      (l.map fun e => (e.xps / 100 : ℝ) * Real.sin (e.phase f g) + (e.xpc / 100 : ℝ) * Real.cos (e.phase f g)).sum ∧
    (l.foldl (diurnalStep (delaunay2doodson f g)) a).dyp = a.dyp +
      (l.map fun e => (e.yps / 100 : ℝ) * Real.sin (e.phase f g) + (e.ypc / 100 : ℝ) * Real.cos (e.phase f g)).sum ∧
    (l.foldl (diurnalStep (delaunay2doodson f g)) a).dut1 = a.dut1 +
      (l.map fun e => (e.ut1s / 100 : ℝ) * Real.sin (e.phase f g) + (e.ut1c / 100 : ℝ) * Real.cos (e.phase f g)).sum ∧
    (l.foldl (diurnalStep (delaunay2doodson f g)) a).dlod = a.dlod +
      (l.map fun e => (e.lodc / 100 : ℝ) * Real.cos (e.phase f g) + (e.lods / 100 : ℝ) * Real.sin (e.phase f g)).sum := by
  induction l generalizing a with
  | nil => simp
  | cons e l ih =>
    obtain ⟨h1, h2, h3, h4⟩ := ih (diurnalStep (delaunay2doodson f g) a e)
    obtain ⟨hc, hs⟩ := arg_trig e f g
    simp only [List.foldl_cons, List.map_cons, List.sum_cons, h1, h2, h3, h4]
    simp only [diurnalStep, hc, hs]
    exact ⟨by ring, by ring, by ring, by ring⟩

/-! ### Rates -/

/-- If every phase of a sum of sinusoids moves at its rate `ω` (per century), and the amplitudes of a second
sum are minus rate times amplitude up to `err` (per day), then the second sum is minus the daily rate of the
first up to the total of `err`. -/
theorem lod_bound {R : Type} (rows : List R) (us uc ls lc err : R → ℝ) (θ : R → ℝ → ℝ) (ω : R → ℝ) (t : ℝ)
    (hθ : ∀ r ∈ rows, HasDerivAt (θ r) (ω r) t)
    (he : ∀ r ∈ rows, |lc r + us r * (ω r / 36525)| + |ls r - uc r * (ω r / 36525)| ≤ err r) :
    ∃ U', HasDerivAt (fun x => (rows.map fun r => us r * Real.sin (θ r x) + uc r * Real.cos (θ r x)).sum) U' t ∧
      |(rows.map fun r => lc r * Real.cos (θ r t) + ls r * Real.sin (θ r t)).sum + U' / 36525| ≤
        (rows.map err).sum := by
  induction rows with
  | nil => exact ⟨0, by simpa using hasDerivAt_const t (0 : ℝ), by simp⟩
  | cons r rows ih =>
    obtain ⟨U', hU, hb⟩ := ih (fun r hr => hθ r (List.mem_cons_of_mem _ hr))
      (fun r hr => he r (List.mem_cons_of_mem _ hr))
    have h1 := hθ r List.mem_cons_self
    have h2 := he r List.mem_cons_self
    have hd := ((h1.sin.const_mul (us r)).fun_add (h1.cos.const_mul (uc r))).fun_add hU
    simp only [List.map_cons, List.sum_cons]
    refine ⟨_, hd, ?_⟩
    have hs := Real.abs_sin_le_one (θ r t)
    have hc := Real.abs_cos_le_one (θ r t)
    generalize Real.sin (θ r t) = s at *
    generalize Real.cos (θ r t) = c at *
    generalize (rows.map fun r => lc r * Real.cos (θ r t) + ls r * Real.sin (θ r t)).sum = S at *
    have e : lc r * c + ls r * s + S + (us r * (c * ω r) + uc r * (-s * ω r) + U') / 36525 =
        ((lc r + us r * (ω r / 36525)) * c + (ls r - uc r * (ω r / 36525)) * s) + (S + U' / 36525) := by ring
    rw [e]
    refine (abs_add_le _ _).trans (add_le_add ?_ hb)
    refine (abs_add_le _ _).trans (le_trans ?_ h2)
    rw [abs_mul, abs_mul]
    have p1 : |lc r + us r * (ω r / 36525)| * |c| ≤ |lc r + us r * (ω r / 36525)| * 1 :=
      mul_le_mul_of_nonneg_left hc (abs_nonneg _)
    have p2 : |ls r - uc r * (ω r / 36525)| * |s| ≤ |ls r - uc r * (ω r / 36525)| * 1 :=
      mul_le_mul_of_nonneg_left hs (abs_nonneg _)
    linarith

/-- An amplitude mismatch, bounded through bounds of the unit factor `K` and of the rate. -/
theorem rate_bound {u l N δ K k0 dk A : ℝ} (h0 : 0 ≤ k0) (h1 : k0 ≤ K) (h2 : K ≤ k0 + dk) (hδ : |δ| ≤ A) :
    |l + u * (K * (N + δ))| ≤ |l + u * (k0 * N)| + |u| * (dk * |N| + (k0 + dk) * A) := by
  have e : l + u * (K * (N + δ)) = (l + u * (k0 * N)) + u * ((K - k0) * N + K * δ) := by ring
  rw [e]
  refine (abs_add_le _ _).trans (add_le_add le_rfl ?_)
  rw [abs_mul]
  refine mul_le_mul_of_nonneg_left ((abs_add_le _ _).trans (add_le_add ?_ ?_)) (abs_nonneg _)
  · rw [abs_mul, abs_of_nonneg (by linarith : 0 ≤ K - k0)]
    exact mul_le_mul_of_nonneg_right (by linarith) (abs_nonneg _)
  · rw [abs_mul, abs_of_nonneg (by linarith : 0 ≤ K)]
    exact mul_le_mul h2 hδ (abs_nonneg _) (by linarith)

/-- Radians per day for one arcsecond per century. -/
noncomputable def K : ℝ := Real.pi / 648000 / 36525

/-- A rational lower bound of `K`, and the width of the bracket. -/
def k0 : ℚ := 314159265358979 / 100000000000000 / 648000 / 36525
def dk : ℚ := 1 / 100000000000000 / 648000 / 36525

theorem K_bounds : ((k0 : ℚ) : ℝ) ≤ K ∧ K ≤ ((k0 : ℚ) : ℝ) + ((dk : ℚ) : ℝ) := by
  have h1 := Real.pi_gt_d20
  have h2 := Real.pi_lt_d20
  unfold K k0 dk
  constructor
  · push_cast
    have : (314159265358979 / 100000000000000 : ℝ) ≤ Real.pi := by linarith
    gcongr
  · push_cast
    have : Real.pi ≤ (314159265358979 / 100000000000000 + 1 / 100000000000000 : ℝ) := by linarith
    calc Real.pi / 648000 / 36525 ≤ (314159265358979 / 100000000000000 + 1 / 100000000000000 : ℝ) / 648000 / 36525 := by
          gcongr
      _ = _ := by ring

/-- The bound of one row, for amplitudes in units `q`. -/
def rowErr (l u N A : ℚ) : ℚ := |l + u * (k0 * N)| + |u| * (dk * |N| + (k0 + dk) * A)

theorem row_bound {l u N A : ℚ} {δ : ℝ} (hδ : |δ| ≤ (A : ℝ)) :
    |(l : ℝ) + (u : ℝ) * (K * ((N : ℝ) + δ))| ≤ ((rowErr l u N A : ℚ) : ℝ) := by
  have h := rate_bound (u := (u : ℝ)) (l := (l : ℝ)) (N := (N : ℝ)) (by exact_mod_cast (by decide +kernel : (0:ℚ) ≤ k0)) K_bounds.1
    K_bounds.2 hδ
  refine h.trans (le_of_eq ?_)
  unfold rowErr
  push_cast
  rfl

/-- The Delaunay arguments at `t` centuries, without reduction. -/
noncomputable def dargs (t : ℝ) : Fin 5 → ℝ :=
  ![sec2rad (lPoly t), sec2rad (lpPoly t), sec2rad (fPoly t), sec2rad (dPoly t), sec2rad (omPoly t)]

theorem poly_rate (a b c d e x : ℝ) (hx : |x| ≤ 1) (hc : |c| ≤ 32) (hd : |d| ≤ 1) (he : |e| ≤ 1) :
    ∃ δ, |δ| ≤ 100 ∧ HasDerivAt (fun x : ℝ => sec2rad (a + b * x + c * x ^ 2 + d * x ^ 3 + e * x ^ 4))
      (sec2rad (b + δ)) x := by
  refine ⟨2 * c * x + 3 * d * x ^ 2 + 4 * e * x ^ 3, ?_, ?_⟩
  · have h2 : |x ^ 2| ≤ 1 := by rw [abs_pow]; exact pow_le_one₀ (abs_nonneg _) hx
    have h3 : |x ^ 3| ≤ 1 := by rw [abs_pow]; exact pow_le_one₀ (abs_nonneg _) hx
    have a1 : |c * x| ≤ 32 := by
      rw [abs_mul]; calc |c| * |x| ≤ 32 * 1 := mul_le_mul hc hx (abs_nonneg _) (by norm_num)
        _ = 32 := by norm_num
    have a2 : |d * x ^ 2| ≤ 1 := by
      rw [abs_mul]; calc |d| * |x ^ 2| ≤ 1 * 1 := mul_le_mul hd h2 (abs_nonneg _) (by norm_num)
        _ = 1 := by norm_num
    have a3 : |e * x ^ 3| ≤ 1 := by
      rw [abs_mul]; calc |e| * |x ^ 3| ≤ 1 * 1 := mul_le_mul he h3 (abs_nonneg _) (by norm_num)
        _ = 1 := by norm_num
    rw [abs_le] at *
    constructor <;> linarith [a1.1, a1.2, a2.1, a2.2, a3.1, a3.2]
  · have h1 : HasDerivAt (fun x : ℝ => x) 1 x := hasDerivAt_id x
    have h := (((((h1.const_mul b).const_add a).add ((h1.pow 2).const_mul c)).add ((h1.pow 3).const_mul d)).add
      ((h1.pow 4).const_mul e)).mul_const (2 * Real.pi / 1296000)
    unfold sec2rad
    refine (h.congr_of_eventuallyEq ?_).congr_deriv ?_
    · exact Filter.Eventually.of_forall fun y => by simp
    · push_cast; simp; ring

/-- Rates of the Delaunay arguments within a century of J2000. -/
theorem dargs_rates {t : ℝ} (ht : |t| ≤ 1) : ∃ δ : Fin 5 → ℝ, (∀ i, |δ i| ≤ 100) ∧
    HasDerivAt (fun x => dargs x 0) (sec2rad (1717915923.2178 + δ 0)) t ∧
    HasDerivAt (fun x => dargs x 1) (sec2rad (129596581.0481 + δ 1)) t ∧
    HasDerivAt (fun x => dargs x 2) (sec2rad (1739527262.8478 + δ 2)) t ∧
    HasDerivAt (fun x => dargs x 3) (sec2rad (1602961601.2090 + δ 3)) t ∧
    HasDerivAt (fun x => dargs x 4) (sec2rad (-6962890.5431 + δ 4)) t := by
  obtain ⟨d0, b0, h0⟩ := poly_rate 485868.249036 1717915923.2178 31.8792 0.051635 (-0.00024470) t ht
    (by norm_num [abs_le]) (by norm_num [abs_le]) (by norm_num [abs_le])
  obtain ⟨d1, b1, h1⟩ := poly_rate 1287104.793048 129596581.0481 (-0.5532) 0.000136 (-0.00001149) t ht
    (by norm_num [abs_le]) (by norm_num [abs_le]) (by norm_num [abs_le])
  obtain ⟨d2, b2, h2⟩ := poly_rate 335779.526232 1739527262.8478 (-12.7512) (-0.001037) 0.00000417 t ht
    (by norm_num [abs_le]) (by norm_num [abs_le]) (by norm_num [abs_le])
  obtain ⟨d3, b3, h3⟩ := poly_rate 1072260.703692 1602961601.2090 (-6.3706) 0.006593 (-0.00003169) t ht
    (by norm_num [abs_le]) (by norm_num [abs_le]) (by norm_num [abs_le])
  obtain ⟨d4, b4, h4⟩ := poly_rate 450160.398036 (-6962890.5431) 7.4722 0.007702 (-0.00005939) t ht
    (by norm_num [abs_le]) (by norm_num [abs_le]) (by norm_num [abs_le])
  refine ⟨![d0, d1, d2, d3, d4], ?_, ?_, ?_, ?_, ?_, ?_⟩
  · intro i; fin_cases i <;> simpa
  · refine h0.congr_of_eventuallyEq (Filter.Eventually.of_forall fun y => ?_)
    simp only [dargs, lPoly]; simp; try ring_nf
  · refine h1.congr_of_eventuallyEq (Filter.Eventually.of_forall fun y => ?_)
    simp only [dargs, lpPoly]; simp; try ring_nf
  · refine h2.congr_of_eventuallyEq (Filter.Eventually.of_forall fun y => ?_)
    simp only [dargs, fPoly]; simp; try ring_nf
  · refine h3.congr_of_eventuallyEq (Filter.Eventually.of_forall fun y => ?_)
    simp only [dargs, dPoly]; simp; try ring_nf
  · refine h4.congr_of_eventuallyEq (Filter.Eventually.of_forall fun y => ?_)
    simp only [dargs, omPoly]; simp; try ring_nf

end Verif.EopTides
