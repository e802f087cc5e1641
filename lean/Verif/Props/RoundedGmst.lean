import Verif.Model.RoundedGmst
import Verif.Props.Rounding
import Verif.Proof.RoundNearest
/-
C92: sidereal time of the IAU 1982 model in double precision; C26: the derivative of sidereal time in double precision.
-/
namespace Verif.Rounding
open Verif Verif.Rounded Verif.Angle Verif.Iau

/-- A conversion of seconds of time to radians that is accurate to a few units in the last place, however it is coded. -/
def HsecToRad (h2r : ℝ → ℝ) : Prop := ∀ x, |h2r x - x * (2 * Real.pi / 86400)| ≤ 4 * u * |x * (2 * Real.pi / 86400)|

/-- C92: within a century of J2000 the IAU 1982 sidereal time is the one of the model to 2e-12 rad, whole turns apart, and not outside
[0, 2π]. -/
theorem gmst82_rounded {fl : Arith} {h2r : ℝ → ℝ} (hf : Faithful fl) (hh : HsecToRad h2r) (ut1 : Epoch) {s t : ℝ} (ht : |t - ut1.jcenturies| ≤ 4 * u)
    (hs : |s - ut1.f * 86400| ≤ 4 * u * 86400) (hr : |ut1.jcenturies| ≤ 1) :
    Near 2e-12 (Rounded.gmst82 fl h2r t s) (2 * Real.pi * (gmst82Poly ut1.jcenturies (ut1.f * 86400) / 86400)) ∧
      0 ≤ Rounded.gmst82 fl h2r t s ∧ Rounded.gmst82 fl h2r t s ≤ D2PI fl := by
  have hu := u_pos
  have hul := u_lt
  have hsq := u_sq
  have hp := Real.pi_pos
  have hp1 := pi_lt
  have ht' : App 1 (4 * u) t ut1.jcenturies := ⟨hr, ht⟩
  have hs' : App 86400 (4 * u * 86400) s (ut1.f * 86400) :=
    ⟨by rw [abs_of_nonneg (mul_nonneg ut1.f_nonneg (by norm_num))]; have := ut1.f_lt; linarith, hs⟩
  have k2 : App 7e-6 (7e-6 * u) (horner fl t [-6.2e-6]) (-6.2e-6) := by
    rw [mul_comm]
    exact App.lit hf _ (by rw [abs_le]; constructor <;> norm_num)
  have k1 := (ht'.horner hf (c := 0.093104) (C := 0.0932) (by rw [abs_le]; constructor <;> norm_num) (by norm_num) k2).mono
    (M' := 0.0933) (e' := 0.2 * u) (by norm_num) (by nlinarith)
  have k0 := (ht'.horner hf (c := 8640184.812866) (C := 8640185) (by rw [abs_le]; constructor <;> norm_num) (by norm_num) k1).mono
    (M' := 8640186) (e' := 1.73e7 * u) (by norm_num) (by nlinarith)
  unfold Rounded.gmst82
  generalize horner fl t [8640184.812866, 0.093104, -6.2e-6] = P at k0
  have m0 := ((ht'.mul k0).pr hf 3).mono (M' := 8640186) (e' := 6.1e7 * u) (by norm_num) (by nlinarith)
  have mA := (((App.lit hf 24110.54841 (M := 24111) (by norm_num [abs_of_pos])).sub (App.exact (x := 43200))).fl hf).mono
    (M' := 67311) (e' := 1e5 * u) (by norm_num [abs_of_pos]) (by norm_num [abs_of_pos]; nlinarith)
  have m1 := ((mA.add m0).fl hf).mono (M' := 8.71e6) (e' := 7e7 * u) (by norm_num) (by nlinarith)
  have m2 := ((m1.add hs').fl hf).mono (M' := 8.8e6) (e' := 8e7 * u) (by norm_num) (by nlinarith)
  have m3 := ((m2.add (App.exact (x := 43200))).fl hf).mono (M' := 8.9e6) (e' := 9e7 * u) (by norm_num [abs_of_pos]) (by norm_num [abs_of_pos]; nlinarith)
  have hc : (0 : ℝ) < 2 * Real.pi / 86400 := by positivity
  have hcl : 2 * Real.pi / 86400 ≤ 7.3e-5 := by rw [div_le_iff₀ (by norm_num)]; linarith
  dsimp only
  generalize fl (fl (fl (fl (Rounded.lit fl 24110.54841 - 43200) + fl.pr 3 (t * P)) + s) + 43200) = x at m3
  refine ⟨?_, anp_range hf _⟩
  have hX : |x| ≤ 8.9e6 + 1 := m3.abs'.trans (by linarith)
  have h1 := hh x
  have h2 : |x * (2 * Real.pi / 86400)| ≤ 650 := by
    rw [abs_mul, abs_of_pos hc]
    exact (mul_le_mul hX hcl hc.le (by norm_num)).trans (by norm_num)
  have h3 : |h2r x| ≤ 651 := by
    have := abs_sub_abs_le_abs_sub (h2r x) (x * (2 * Real.pi / 86400))
    nlinarith
  have h4 : |x * (2 * Real.pi / 86400) - 2 * Real.pi * (gmst82Poly ut1.jcenturies (ut1.f * 86400) / 86400)| ≤ 9e7 * u * 7.3e-5 := by
    have e : x * (2 * Real.pi / 86400) - 2 * Real.pi * (gmst82Poly ut1.jcenturies (ut1.f * 86400) / 86400) =
        (x - (24110.54841 - 43200 + ut1.jcenturies * (8640184.812866 + ut1.jcenturies * (0.093104 + ut1.jcenturies * -6.2e-6)) + ut1.f * 86400 +
          43200)) * (2 * Real.pi / 86400) := by unfold gmst82Poly; ring
    rw [e, abs_mul, abs_of_pos hc]
    exact mul_le_mul m3.2 hcl hc.le (by positivity)
  have h5 : |h2r x - 2 * Real.pi * (gmst82Poly ut1.jcenturies (ut1.f * 86400) / 86400)| ≤ 4 * u * 650 + 9e7 * u * 7.3e-5 :=
    (abs_sub_le _ (x * (2 * Real.pi / 86400)) _).trans (add_le_add (h1.trans (by gcongr)) h4)
  exact ((anp_near hf (h2r x)).trans ⟨0, by simpa using h5⟩).mono (by nlinarith)

/-- C26 fails: in double precision, too, `dgmst` is more than six radians per day away from the derivative of sidereal time, at every epoch within
a century of J2000 and whatever the rounding. `T` is days since J2000 for both UT1 and TT. -/
theorem dgmst_rounded_fails {fl : Arith} {s2r : ℝ → ℝ} (hf : Faithful fl) (hs : SecToRad s2r) (e : Epoch) {t : ℝ} (ht : |t - e.jcenturies| ≤ 4 * u)
    (hr : |e.jcenturies| ≤ 1) :
    ∃ D, HasDerivAt (fun T => eraIers T + sec2rad (gmstPoly (T / 36525))) D e.daysSinceJ2000 ∧ D + 6 ≤ Rounded.dgmst fl s2r t := by
  have hu := u_pos
  have hul := u_lt
  have hsq := u_sq
  have hp := Real.pi_pos
  have hp1 := pi_lt
  have hp2 := pi_gt
  refine ⟨_, dgmst_value e, ?_⟩
  have ht' : App 1 (4 * u) t e.jcenturies := ⟨hr, ht⟩
  have k5 : App 4e-8 (4e-8 * u) (horner fl t [-0.0000000368]) (-0.0000000368) := by
    rw [mul_comm]
    exact App.lit hf _ (by rw [abs_le]; constructor <;> norm_num)
  have k4 := (ht'.horner hf (c := -0.000029956) (C := 3e-5) (by rw [abs_le]; constructor <;> norm_num) (by norm_num) k5).mono
    (M' := 1) (e' := 1 * u) (by norm_num) (by nlinarith)
  have k3 := (ht'.horner hf (c := -0.00000044) (C := 1e-6) (by rw [abs_le]; constructor <;> norm_num) (by norm_num) k4).mono
    (M' := 1.1) (e' := 10 * u) (by norm_num) (by nlinarith)
  have k2 := (ht'.horner hf (c := 1.3915817) (C := 1.4) (by rw [abs_le]; constructor <;> norm_num) (by norm_num) k3).mono
    (M' := 2.5) (e' := 30 * u) (by norm_num) (by nlinarith)
  have k1 := (ht'.horner hf (c := 4612.156534) (C := 4613) (by rw [abs_le]; constructor <;> norm_num) (by norm_num) k2).mono
    (M' := 4616) (e' := 1e-9) (by norm_num) (by nlinarith)
  unfold Rounded.dgmst
  generalize horner fl t [4612.156534, 1.3915817, -0.00000044, -0.000029956, -0.0000000368] = P at k1 ⊢
  have hc : (0 : ℝ) < 2 * Real.pi / 1296000 := by positivity
  have hcl : 2 * Real.pi / 1296000 ≤ 5e-6 := by rw [div_le_iff₀ (by norm_num)]; linarith
  have hP : |P * (2 * Real.pi / 1296000)| ≤ 0.0231 := by
    rw [abs_mul, abs_of_pos hc]
    exact (mul_le_mul k1.abs' hcl hc.le (by norm_num)).trans (by norm_num)
  have hb : |s2r P| ≤ 0.03 := by
    have h1 := hs P
    have := abs_sub_abs_le_abs_sub (s2r P) (P * (2 * Real.pi / 1296000))
    nlinarith
  have hb' : |s2r P / 36525| ≤ 1e-6 := by
    rw [abs_div, abs_of_pos (by norm_num : (0 : ℝ) < 36525), div_le_iff₀ (by norm_num)]
    linarith
  have hb2 := abs_fl hf hb'
  have a1 := (((app_D2PI hf).mul (App.exact (x := 2))).fl hf).mono (M' := 12.6) (e' := 1e-6) (by norm_num [abs_of_pos]) (by norm_num [abs_of_pos]; nlinarith)
  have ha := ((a1.mul (App.lit hf 1.00273781191135448 (M := 1.003) (by norm_num [abs_of_pos]))).fl hf).mono
    (M' := 13) (e' := 1e-3) (by norm_num) (by nlinarith)
  have hb3 : App 0 1e-3 (fl (s2r P / 36525)) 0 := ⟨by simp, by rw [sub_zero]; exact hb2.trans (by nlinarith)⟩
  have hsum := ((ha.add hb3).fl hf).2
  rw [abs_le] at hsum
  have hlow := hsum.1
  have q : ∀ n : ℕ, |e.jcenturies ^ n| ≤ 1 := fun n => by rw [abs_pow]; exact pow_le_one₀ (abs_nonneg _) hr
  have small : ∀ x : ℝ, |x| ≤ 5000 → |sec2rad x / 36525| ≤ 0.01 := by
    intro x hx
    unfold sec2rad
    rw [abs_div, abs_mul, abs_of_pos hc, abs_of_pos (by norm_num : (0 : ℝ) < 36525), div_le_iff₀ (by norm_num)]
    exact (mul_le_mul hx hcl hc.le (by norm_num)).trans (by norm_num)
  have q1 := abs_le.1 (q 1)
  have q2 := abs_le.1 (q 2)
  have q3 := abs_le.1 (q 3)
  have q4 := abs_le.1 (q 4)
  rw [pow_one] at q1
  have hsz := small (1.3915817 * e.jcenturies - 2 * 0.00000044 * e.jcenturies ^ 2 - 3 * 0.000029956 * e.jcenturies ^ 3 -
          4 * 0.0000000368 * e.jcenturies ^ 4) (by rw [abs_le]; constructor <;> linarith [q1.1, q1.2, q2.1, q2.2, q3.1, q3.2, q4.1, q4.2])
  have hz2 := small (4612.156534 + (1.3915817 + (-0.00000044 + (-0.000029956 + (-0.0000000368) * e.jcenturies) * e.jcenturies) * e.jcenturies) *
    e.jcenturies) (by
      have h : 4612.156534 + (1.3915817 + (-0.00000044 + (-0.000029956 + (-0.0000000368) * e.jcenturies) * e.jcenturies) * e.jcenturies) *
          e.jcenturies = 4612.156534 + 1.3915817 * e.jcenturies + -0.00000044 * e.jcenturies ^ 2 + -0.000029956 * e.jcenturies ^ 3 +
          (-0.0000000368) * e.jcenturies ^ 4 := by ring
      rw [h, abs_le]
      constructor <;> linarith [q1.1, q1.2, q2.1, q2.2, q3.1, q3.2, q4.1, q4.2])
  unfold Iau.dgmst Angle.D2PI
  dsimp only
  have z1 := (abs_le.1 hsz).2
  have z2 := (abs_le.1 hz2).2
  have hlow' : u * (13 + 0 + (1e-3 + 1e-3)) ≤ 1e-3 := by linarith
  generalize sec2rad (1.3915817 * e.jcenturies - 2 * 0.00000044 * e.jcenturies ^ 2 - 3 * 0.000029956 * e.jcenturies ^ 3 -
          4 * 0.0000000368 * e.jcenturies ^ 4) / 36525 = A at *
  generalize sec2rad (4612.156534 + (1.3915817 + (-0.00000044 + (-0.000029956 + (-0.0000000368) * e.jcenturies) * e.jcenturies) * e.jcenturies) *
    e.jcenturies) / 36525 = B at *
  clear * - hlow hlow' z1 z2 hp2
  linarith

/-! ### Concrete case: 2012-06-06 12h, rounding to nearest, products fused or not, exact conversions -/

example (s : ℕ → Bool) : ∃ e : Epoch, e.daysSinceJ2000 = 4540 ∧
    Near 2e-12 (Rounded.gmst82 (rnArith s) (fun x => x * (2 * Real.pi / 86400)) (4540 / 36525) 43200)
      (2 * Real.pi * (gmst82Poly (4540 / 36525) 43200 / 86400)) ∧
    ∃ D, HasDerivAt (fun T => eraIers T + sec2rad (gmstPoly (T / 36525))) D e.daysSinceJ2000 ∧
      D + 6 ≤ Rounded.dgmst (rnArith s) (fun x => x * (2 * Real.pi / 1296000)) (4540 / 36525) := by
  have hu := u_pos
  let e : Epoch := ⟨56084, 0.5, by norm_num, by norm_num⟩
  have hd : e.daysSinceJ2000 = 4540 := by show ((56084 : ℤ) : ℝ) + 0.5 - 51544.5 = _; norm_num
  have hj : e.jcenturies = 4540 / 36525 := by unfold Epoch.jcenturies; rw [hd]
  have hr : |e.jcenturies| ≤ 1 := by rw [hj, abs_of_pos (by norm_num)]; norm_num
  have ht : |(4540 / 36525 : ℝ) - e.jcenturies| ≤ 4 * u := by rw [hj, sub_self, abs_zero]; positivity
  have hf : e.f * 86400 = 43200 := by show (0.5 : ℝ) * 86400 = _; norm_num
  have h := (gmst82_rounded (rn_faithful s) (h2r := fun x => x * (2 * Real.pi / 86400)) (fun x => by rw [sub_self, abs_zero]; positivity) e (s := 43200) ht
    (by rw [hf, sub_self, abs_zero]; positivity) hr).1
  rw [hj, hf] at h
  exact ⟨e, hd, h, dgmst_rounded_fails (rn_faithful s) (fun x => by rw [sub_self, abs_zero]; positivity) e ht hr⟩

end Verif.Rounding
