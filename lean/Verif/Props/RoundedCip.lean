import Verif.Proof.RoundedCip
import Verif.Proof.RoundNearest
import Verif.Props.Rounding
import Verif.Props.Cip
/-
C92: CIP coordinates in double precision.
-/
namespace Verif.RoundedCip
open Verif Verif.Rounding Verif.Rounded Verif.Cip.Spec
open Verif.Angle (fmod Cong sec2rad)

theorem longitude_near {fl : Arith} (hf : Faithful fl) {t' t c0 c1 : ℝ} (ht : App 1 (4 * u) t' t) (h0 : |c0| ≤ 6.3) (h1 : |c1| ≤ 2609) :
    Near 1e-11 (longitude fl c0 c1 t') (c0 + c1 * t) ∧ |longitude fl c0 c1 t'| ≤ 6.284 := by
  have hu := u_pos
  have hul := u_lt
  have hs := u_sq
  have a1 := (((App.lit hf c1 h1).mul ht).pr hf 0).mono (M' := 2609) (e' := 15700 * u) (by norm_num) (by nlinarith)
  have a2 := (((App.lit hf c0 h0).add a1).fl hf).mono (M' := 2616) (e' := 18400 * u) (by norm_num) (by nlinarith)
  obtain ⟨hb1, hb2⟩ := D2PI_bounds hf
  refine ⟨((fmod_near hf _).trans (Near.of_app a2)).mono ?_, (fmod_abs (by linarith) _).trans hb2.le⟩
  have := a2.abs'
  nlinarith

/-- C92: within a century of J2000 all fourteen fundamental arguments are those of the Conventions to 1e-11 rad. -/
theorem args_rounded {fl : Arith} {s2r : ℝ → ℝ} (hf : Faithful fl) (hs : SecToRad s2r) {t' t : ℝ} (ht : |t' - t| ≤ 4 * u) (hr : |t| ≤ 1) :
    ∀ i < 14, Near 1e-11 ((fargs14 fl s2r t').getD i 0) (args t i) ∧ |(fargs14 fl s2r t').getD i 0| ≤ 6.284 := by
  have hu := u_pos
  have hul := u_lt
  have hsq := u_sq
  have hta : App 1 (4 * u) t' t := ⟨hr, ht⟩
  have hab : ∀ (cs : List ℝ), |delaunay fl s2r cs t'| ≤ 6.284 := by
    intro cs
    have h1 := hs (fmod (horner fl t' cs) 1296000)
    have h2 := fmod_abs (by norm_num : (0 : ℝ) < 1296000) (horner fl t' cs)
    have hp := Real.pi_pos
    have hp1 := pi_lt
    have h3 : |fmod (horner fl t' cs) 1296000 * (2 * Real.pi / 1296000)| ≤ 2 * Real.pi := by
      rw [abs_mul, abs_of_pos (by positivity : 0 < 2 * Real.pi / 1296000)]
      calc _ ≤ 1296000 * (2 * Real.pi / 1296000) := by gcongr
        _ = 2 * Real.pi := by ring
    have h4 := abs_sub_abs_le_abs_sub (s2r (fmod (horner fl t' cs) 1296000)) (fmod (horner fl t' cs) 1296000 * (2 * Real.pi / 1296000))
    unfold delaunay
    nlinarith
  obtain ⟨a0, a1, a2, a3, a4⟩ := delaunay_rounded hf hs ht hr
  have L : ∀ {c0 c1 : ℝ}, |c0| ≤ 6.3 → |c1| ≤ 2609 → _ := fun {c0 c1} h0 h1 => longitude_near (c0 := c0) (c1 := c1) hf hta h0 h1
  have ab : ∀ {a b : ℝ}, 0 ≤ a → a ≤ b → |a| ≤ b := fun h h' => by rwa [abs_of_nonneg h]
  intro i hi
  match i, hi with
  | 0, _ => exact ⟨a0, hab _⟩
  | 1, _ => exact ⟨a1, hab _⟩
  | 2, _ => exact ⟨a2, hab _⟩
  | 3, _ => exact ⟨a3, hab _⟩
  | 4, _ => exact ⟨a4, hab _⟩
  | 5, _ => exact L (ab (by norm_num) (by norm_num)) (ab (by norm_num) (by norm_num))
  | 6, _ => exact L (ab (by norm_num) (by norm_num)) (ab (by norm_num) (by norm_num))
  | 7, _ => exact L (ab (by norm_num) (by norm_num)) (ab (by norm_num) (by norm_num))
  | 8, _ => exact L (ab (by norm_num) (by norm_num)) (ab (by norm_num) (by norm_num))
  | 9, _ => exact L (ab (by norm_num) (by norm_num)) (ab (by norm_num) (by norm_num))
  | 10, _ => exact L (ab (by norm_num) (by norm_num)) (ab (by norm_num) (by norm_num))
  | 11, _ => exact L (ab (by norm_num) (by norm_num)) (ab (by norm_num) (by norm_num))
  | 12, _ => exact L (ab (by norm_num) (by norm_num)) (ab (by norm_num) (by norm_num))
  | 13, _ =>
    have b1 := (((App.lit hf 0.00000538691 (M := 1) (ab (by norm_num) (by norm_num))).mul hta).pr hf 0).mono (M' := 1) (e' := 7 * u)
      (by norm_num) (by nlinarith)
    have b2 := (((App.lit hf 0.024381750 (M := 1) (ab (by norm_num) (by norm_num))).add b1).fl hf).mono (M' := 2) (e' := 11 * u)
      (by norm_num) (by nlinarith)
    have b3 := ((b2.mul hta).fl hf).mono (M' := 2) (e' := 30 * u) (by norm_num) (by nlinarith)
    have e : args t 13 = (0.024381750 + 0.00000538691 * t) * t := by
      show 0.024381750 * t + 0.00000538691 * t ^ 2 = _; ring
    refine ⟨?_, b3.abs'.trans (by nlinarith)⟩
    rw [e]
    exact (Near.of_app b3).mono (by nlinarith)

/-- Microarcseconds, converted to radians. -/
theorem uas_near {fl : Arith} {s2r : ℝ → ℝ} (hf : Faithful fl) (hs : SecToRad s2r) {x' x : ℝ} (h : App 2.02e9 2.7e-4 x' x) :
    |s2r (fl (x' * lit fl 1e-6)) - uas x| ≤ 2e-15 := by
  have hu := u_pos
  have hul := u_lt
  have hp := Real.pi_pos
  have hp1 := pi_lt
  have a := ((h.mul (App.lit hf 1e-6 (M := 1e-6) (by rw [abs_of_nonneg (by norm_num)]))).fl hf).mono (M' := 2020) (e' := 2.71e-10)
    (by norm_num) (by nlinarith)
  generalize fl (x' * lit fl 1e-6) = y at a
  have h1 := hs y
  have hc : (0 : ℝ) < 2 * Real.pi / 1296000 := by positivity
  have hcl : 2 * Real.pi / 1296000 ≤ 4.85e-6 := by rw [div_le_iff₀ (by norm_num)]; linarith
  have h2 : |y * (2 * Real.pi / 1296000)| ≤ 2021 * 4.85e-6 := by
    rw [abs_mul, abs_of_pos hc]
    exact mul_le_mul (a.abs'.trans (by norm_num)) hcl hc.le (by norm_num)
  have h3 : |(y - x * 1e-6) * (2 * Real.pi / 1296000)| ≤ 2.71e-10 * 4.85e-6 := by
    rw [abs_mul, abs_of_pos hc]
    exact mul_le_mul a.2 hcl hc.le (by norm_num)
  have e : s2r y - uas x = (s2r y - y * (2 * Real.pi / 1296000)) + (y - x * 1e-6) * (2 * Real.pi / 1296000) := by
    unfold uas; ring
  rw [e]
  refine (abs_add_le _ _).trans ((add_le_add (h1.trans (mul_le_mul_of_nonneg_left h2 (by positivity))) h3).trans ?_)
  nlinarith

/-- C92: within a century of J2000 the CIP coordinates X and Y computed in double precision are those of the Conventions to 2e-15 rad, less
than half a nanoarcsecond. -/
theorem cip_rounded {fl : Arith} {fsin fcos s2r : ℝ → ℝ} (hf : Faithful fl) (hT : Trig fsin fcos) (hs : SecToRad s2r) {t' t : ℝ}
    (ht : |t' - t| ≤ 4 * u) (hr : |t| ≤ 1) :
    ∃ x y, xycip06a fl fsin fcos s2r t' = .ok (x, y) ∧ |x - uas (X (args t) t)| ≤ 2e-15 ∧ |y - uas (Y (args t) t)| ≤ 2e-15 := by
  have hu := u_pos
  have hul := u_lt
  have hsq := u_sq
  have hta : App 1 (4 * u) t' t := ⟨hr, ht⟩
  have hF := args_rounded hf hs ht hr
  have ex := Cip.merged_series (args t) t
  have ab : ∀ {a b : ℝ}, 0 ≤ a → a ≤ b → |a| ≤ b := fun h h' => by rwa [abs_of_nonneg h]
  have ab' : ∀ {a b : ℝ}, 0 ≤ a → a ≤ b → |-a| ≤ b := fun h h' => by rwa [abs_neg, abs_of_nonneg h]
  -- the polynomials
  have l1 : ∀ {c C : ℝ}, |c| ≤ C → App C (C * u) (horner fl t' [c]) c := fun h => by rw [mul_comm]; exact App.lit hf _ h
  have x5 := l1 (c := 5.9285) (C := 6) (ab (by norm_num) (by norm_num))
  have x4 := (hta.horner hf (c := 7.578) (C := 8) (ab (by norm_num) (by norm_num)) (by norm_num) x5).mono (M' := 14) (e' := 100 * u)
    (by norm_num) (by nlinarith)
  have x3 := (hta.horner hf (c := -198618.34) (C := 198619) (ab' (by norm_num) (by norm_num)) (by norm_num) x4).mono (M' := 198700)
    (e' := 4e5 * u) (by norm_num) (by nlinarith)
  have x2 := (hta.horner hf (c := -429782.9) (C := 429783) (ab' (by norm_num) (by norm_num)) (by norm_num) x3).mono (M' := 628500)
    (e' := 3e6 * u) (by norm_num) (by nlinarith)
  have x1 := (hta.horner hf (c := 2004191898) (C := 2004191898) (ab (by norm_num) le_rfl) (by norm_num) x2).mono (M' := 2004900000)
    (e' := 4.1e9 * u) (by norm_num) (by nlinarith)
  have xp := (hta.horner hf (c := -16617) (C := 16617) (ab' (by norm_num) le_rfl) (by norm_num) x1).mono (M' := 2004920000)
    (e' := 2e-6) (by norm_num) (by nlinarith)
  have y5 := l1 (c := 0.1358) (C := 1) (ab (by norm_num) (by norm_num))
  have y4 := (hta.horner hf (c := 1112.526) (C := 1113) (ab (by norm_num) (by norm_num)) (by norm_num) y5).mono (M' := 1114) (e' := 3000 * u)
    (by norm_num) (by nlinarith)
  have y3 := (hta.horner hf (c := 1900.59) (C := 1901) (ab (by norm_num) (by norm_num)) (by norm_num) y4).mono (M' := 3015)
    (e' := 2e4 * u) (by norm_num) (by nlinarith)
  have y2 := (hta.horner hf (c := -22407274.7) (C := 22407275) (ab' (by norm_num) (by norm_num)) (by norm_num) y3).mono (M' := 22411000)
    (e' := 4.6e7 * u) (by norm_num) (by nlinarith)
  have y1 := (hta.horner hf (c := -25896) (C := 25896) (ab' (by norm_num) le_rfl) (by norm_num) y2).mono (M' := 22440000)
    (e' := 2e8 * u) (by norm_num) (by nlinarith)
  have yp := (hta.horner hf (c := -6951) (C := 6951) (ab' (by norm_num) le_rfl) (by norm_num) y1).mono (M' := 22450000)
    (e' := 2e-6) (by norm_num) (by nlinarith)
  -- the series
  unfold Cip.xycip06aDetail at ex
  cases hl : Cip.xyLoop (args t) t Cip.xyLunSol Cip.xyPln 0 0 with
  | ok p =>
    obtain ⟨X0, Y0⟩ := p
    rw [hl] at ex
    simp only [Res.bind, Res.ok.injEq, Prod.mk.injEq] at ex
    obtain ⟨c1, c2⟩ := cost_small
    have z : Inv ⟨0, 0, 0⟩ 0 0 := by unfold Inv App; simp
    obtain ⟨X', Y', e1, i1, i2⟩ := xy_sim hf hT (fun i hi => (hF i hi).1) (fun i hi => (hF i hi).2) hta _ _ _ _ _ _ _ _ _ _ hl z z c1 c2
    have lim : ∀ {c : Cost} {s' s : ℝ}, c.small → Inv c s' s → App 1.1e7 2.56e-4 s' s := by
      rintro c s' s ⟨q1, q2, q3⟩ h
      have q1' : (c.a : ℝ) ≤ 1100000000 := by exact_mod_cast q1
      have q2' : (c.w : ℝ) ≤ 2500000000 := by exact_mod_cast q2
      have q3' : (c.n : ℝ) ≤ 2000 := by exact_mod_cast q3
      exact App.mono h (by linarith) (by linarith)
    have sx := (((lim c1 i1).add xp).fl hf).mono (M' := 2.02e9) (e' := 2.7e-4) (by norm_num) (by nlinarith)
    have sy := (((lim c2 i2).add yp).fl hf).mono (M' := 2.02e9) (e' := 2.7e-4) (by norm_num) (by nlinarith)
    have hX : X0 + (-16617 + t * (2004191898 + t * (-429782.9 + t * (-198618.34 + t * (7.578 + t * 5.9285))))) = X (args t) t := by
      rw [← ex.1]; ring
    have hY : Y0 + (-6951 + t * (-25896 + t * (-22407274.7 + t * (1900.59 + t * (1112.526 + t * 0.1358))))) = Y (args t) t := by
      rw [← ex.2]; ring
    rw [hX] at sx
    rw [hY] at sy
    refine ⟨_, _, ?_, uas_near hf hs sx, uas_near hf hs sy⟩
    unfold xycip06a xycip06aDetail
    rw [e1]
    rfl
  | ub => rw [hl] at ex; cases ex
  | abort => rw [hl] at ex; cases ex
  | throw => rw [hl] at ex; cases ex

/-- The hypotheses can be met: rounding to nearest exists, whichever products are fused, and exact functions are accurate. -/
example (s : ℕ → Bool) : ∃ x y, xycip06a (rnArith s) Real.sin Real.cos (fun x => x * (2 * Real.pi / 1296000)) (1 / 8) = .ok (x, y) ∧
    |x - uas (X (args (1 / 8)) (1 / 8))| ≤ 2e-15 ∧ |y - uas (Y (args (1 / 8)) (1 / 8))| ≤ 2e-15 := by
  have hu := u_pos
  refine cip_rounded (rn_faithful s) ⟨fun x => by simp [hu.le], fun x => by simp [hu.le]⟩ (fun x => ?_) (by simp [hu.le])
    (by rw [abs_of_nonneg] <;> norm_num)
  rw [sub_self, abs_zero]
  positivity

end Verif.RoundedCip
