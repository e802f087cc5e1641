import Verif.Model.Gcrs
import Verif.Spec.Gcrs
import Verif.Props.Cip
import Verif.Props.EarthRot
/-
C81: the transformation from an epoch and an EOP record.
-/
namespace Verif.Cip
open Verif Angle

/-- Sum of the absolute amplitudes, hundredths of a microarcsecond. -/
def absSum : List Spec.Term → Nat
  | [] => 0
  | k :: l => k.s.natAbs + k.c.natAbs + absSum l

theorem total_bound (l : List Spec.Term) (F : ℕ → ℝ) : |Spec.total l F| ≤ (absSum l : ℝ) / 100 := by
  induction l with
  | nil => simp [Spec.total, absSum]
  | cons k l ih =>
    have e : Spec.total (k :: l) F = k.value F + Spec.total l F := by simp [Spec.total]
    have h1 : |k.value F| ≤ ((k.s.natAbs : ℝ) + k.c.natAbs) / 100 := by
      unfold Spec.Term.value
      have a1 := Real.abs_sin_le_one (k.argument F)
      have a2 := Real.abs_cos_le_one (k.argument F)
      have b1 : |(k.s : ℝ)| = (k.s.natAbs : ℝ) := by rw [Nat.cast_natAbs]; simp
      have b2 : |(k.c : ℝ)| = (k.c.natAbs : ℝ) := by rw [Nat.cast_natAbs]; simp
      refine (abs_add_le _ _).trans ?_
      rw [abs_mul, abs_mul, abs_div, abs_div, b1, b2, abs_of_pos (by norm_num : (0 : ℝ) < 100)]
      have c1 : (k.s.natAbs : ℝ) / 100 * |Real.sin (k.argument F)| ≤ (k.s.natAbs : ℝ) / 100 * 1 :=
        mul_le_mul_of_nonneg_left a1 (by positivity)
      have c2 : (k.c.natAbs : ℝ) / 100 * |Real.cos (k.argument F)| ≤ (k.c.natAbs : ℝ) / 100 * 1 :=
        mul_le_mul_of_nonneg_left a2 (by positivity)
      linarith
    rw [e]
    refine (abs_add_le _ _).trans ?_
    have : ((absSum (k :: l) : ℕ) : ℝ) = k.s.natAbs + k.c.natAbs + absSum l := by
      simp only [absSum]; push_cast; ring
    rw [this]
    linarith

theorem abs_sums : absSum Spec.tableX0 ≤ 1100000000 ∧ absSum Spec.tableX1 ≤ 30000000 ∧ absSum Spec.tableX2 ≤ 300000 ∧
    absSum Spec.tableX3 ≤ 3000 ∧ absSum Spec.tableX4 ≤ 100 ∧ absSum Spec.tableY0 ≤ 1100000000 ∧
    absSum Spec.tableY1 ≤ 30000000 ∧ absSum Spec.tableY2 ≤ 300000 ∧ absSum Spec.tableY3 ≤ 3000 ∧
    absSum Spec.tableY4 ≤ 100 := by decide +kernel

theorem total_le {l : List Spec.Term} {n : Nat} (h : absSum l ≤ n) (F : ℕ → ℝ) : |Spec.total l F| ≤ (n : ℝ) / 100 := by
  have h2 : (absSum l : ℝ) ≤ n := by exact_mod_cast h
  have := total_bound l F
  linarith

theorem pow_le {t : ℝ} (h : |t| ≤ 10) (k : ℕ) : |t ^ k| ≤ 10 ^ k := by
  rw [abs_pow]
  exact pow_le_pow_left₀ (abs_nonneg t) h k

theorem series_le {a0 a1 a2 a3 a4 t : ℝ} (h0 : |a0| ≤ 11000000) (h1 : |a1| ≤ 300000) (h2 : |a2| ≤ 3000) (h3 : |a3| ≤ 30)
    (h4 : |a4| ≤ 1) (ht : |t| ≤ 10) : |a0 + a1 * t + a2 * t ^ 2 + a3 * t ^ 3 + a4 * t ^ 4| ≤ 14400000 := by
  have m : ∀ a b c d : ℝ, |a| ≤ c → |b| ≤ d → |a * b| ≤ c * d := fun a b c d p q => by
    rw [abs_mul]
    exact mul_le_mul p q (abs_nonneg _) ((abs_nonneg _).trans p)
  have m1 := m _ _ _ _ h1 ht
  have m2 := m _ _ _ _ h2 (pow_le ht 2)
  have m3 := m _ _ _ _ h3 (pow_le ht 3)
  have m4 := m _ _ _ _ h4 (pow_le ht 4)
  rw [abs_le] at h0 m1 m2 m3 m4
  rw [abs_le]
  constructor <;> linarith [h0.1, h0.2, m1.1, m1.2, m2.1, m2.2, m3.1, m3.2, m4.1, m4.2]

/-- Within a millennium of J2000 the pole of the Conventions is within 0.11 radians in X and Y. -/
theorem XY_bound (F : ℕ → ℝ) {t : ℝ} (ht : |t| ≤ 10) :
    |Spec.uas (Spec.X F t)| ≤ 0.11 ∧ |Spec.uas (Spec.Y F t)| ≤ 0.11 := by
  obtain ⟨a0, a1, a2, a3, a4, b0, b1, b2, b3, b4⟩ := abs_sums
  have sx := series_le (t := t) (by have := total_le a0 F; norm_num at this; exact this)
    (by have := total_le a1 F; norm_num at this; exact this) (by have := total_le a2 F; norm_num at this; exact this)
    (by have := total_le a3 F; norm_num at this; exact this) (by have := total_le a4 F; norm_num at this; exact this) ht
  have sy := series_le (t := t) (by have := total_le b0 F; norm_num at this; exact this)
    (by have := total_le b1 F; norm_num at this; exact this) (by have := total_le b2 F; norm_num at this; exact this)
    (by have := total_le b3 F; norm_num at this; exact this) (by have := total_le b4 F; norm_num at this; exact this) ht
  have p2 := pow_le ht 2
  have p3 := pow_le ht 3
  have p4 := pow_le ht 4
  have p5 := pow_le ht 5
  rw [abs_le] at sx sy p2 p3 p4 p5 ht
  have hx : |Spec.X F t| ≤ 21000000000 := by
    unfold Spec.X
    rw [abs_le]
    constructor <;> linarith [sx.1, sx.2, p2.1, p2.2, p3.1, p3.2, p4.1, p4.2, p5.1, p5.2, ht.1, ht.2]
  have hy : |Spec.Y F t| ≤ 21000000000 := by
    unfold Spec.Y
    rw [abs_le]
    constructor <;> linarith [sy.1, sy.2, p2.1, p2.2, p3.1, p3.2, p4.1, p4.2, p5.1, p5.2, ht.1, ht.2]
  have key : ∀ x : ℝ, |x| ≤ 21000000000 → |Spec.uas x| ≤ 0.11 := by
    intro x hx
    have hp := Real.pi_pos
    have hp2 := Real.pi_lt_d2
    have e : Spec.uas x = x * (Real.pi / 648000000000) := by unfold Spec.uas; ring
    rw [e, abs_mul, abs_of_pos (by positivity : 0 < Real.pi / 648000000000)]
    have : |x| * (Real.pi / 648000000000) ≤ 21000000000 * (Real.pi / 648000000000) :=
      mul_le_mul_of_nonneg_right hx (by positivity)
    linarith
  exact ⟨key _ hx, key _ hy⟩

end Verif.Cip

namespace Verif.EarthRot
open Verif Verif.Quat Verif.Angle Verif.Iau Verif.Cip Verif.Harmonic

theorem spin_cong {a b : ℝ} (h : Cong a b) : spin a = spin b := by
  obtain ⟨hc, hs⟩ := SolidTide.cong_trig h
  unfold spin R3
  simp only [Real.cos_neg, Real.sin_neg, hc, hs]

theorem arcsec_eq (x : ℝ) : sec2rad x = arcsec x := by
  unfold sec2rad arcsec
  ring

theorem argsAt_ok (tt2ut1 : Epoch → ℝ → Epoch) (tt : Epoch) (eops : EopRec) :
    argsAt tt2ut1 tt eops = .ok ⟨poleX tt.jcenturies, poleY tt.jcenturies, locator tt.jcenturies,
      tioLocator tt.jcenturies, era00 (tt2ut1 tt eops.dut), eops.dX, eops.dY, eops.xp, eops.yp, eops.lod⟩ := by
  obtain ⟨r, hr, hx, hy, -⟩ := cip_coordinates tt.jcenturies
  obtain ⟨r', hr', -, hs⟩ := cio_from_cip tt.jcenturies
  rw [hr] at hr'
  cases hr'
  unfold argsAt
  rw [hr]
  simp only [Res.bind]
  have hsp : sp00 tt = tioLocator tt.jcenturies := by
    unfold tioLocator sp00 sec2rad Spec.uas
    ring
  rw [hs, hx, hy, hsp]
  rfl

theorem corrected_inside {x y dX dY : ℝ} (hx : |x| ≤ 0.11) (hy : |y| ≤ 0.11) (h1 : |dX| ≤ 3600) (h2 : |dY| ≤ 3600) :
    (x + sec2rad dX) ^ 2 + (y + sec2rad dY) ^ 2 ≤ 1 := by
  have hp := Real.pi_pos
  have hp2 := Real.pi_lt_d2
  have key : ∀ v : ℝ, |v| ≤ 3600 → |sec2rad v| ≤ 0.02 := by
    intro v hv
    unfold sec2rad
    rw [abs_mul, abs_of_pos (by positivity : 0 < 2 * Real.pi / 1296000)]
    have : |v| * (2 * Real.pi / 1296000) ≤ 3600 * (2 * Real.pi / 1296000) :=
      mul_le_mul_of_nonneg_right hv (by positivity)
    linarith
  have k1 := key _ h1
  have k2 := key _ h2
  have sq : ∀ a b : ℝ, |a| ≤ 0.11 → |b| ≤ 0.02 → (a + b) ^ 2 ≤ 1 / 2 := by
    intro a b ha hb
    have : |a + b| ≤ 0.13 := (abs_add_le _ _).trans (by linarith)
    rw [← sq_abs]
    have h0 := abs_nonneg (a + b)
    nlinarith
  have := sq _ _ hx k1
  have := sq _ _ hy k2
  linarith

/-- C81: for every epoch within a millennium of J2000 and every EOP record (CIP corrections up to a degree), the rotation is
defined and its matrix is the inverse of Q R W of the Conventions: Q for the pole of the Conventions with the
corrections added and the CIO locator of the Conventions, R for the Earth rotation angle of the Conventions at
the UT1 epoch, W for the pole coordinates and s' = -47 t microarcseconds. -/
theorem gcrs_to_itrs (tt2ut1 : Epoch → ℝ → Epoch) (tt : Epoch) (eops : EopRec) (ht : |tt.jcenturies| ≤ 10)
    (hX : |eops.dX| ≤ 3600) (hY : |eops.dY| ≤ 3600) : ∃ q d e, c2i06aAt tt2ut1 tt eops = .ok (some q) ∧
      Real.sin d * Real.cos e = poleX tt.jcenturies + arcsec eops.dX ∧
      Real.sin d * Real.sin e = poleY tt.jcenturies + arcsec eops.dY ∧ 0 ≤ d ∧ d ≤ Real.pi / 2 ∧
      q.mat = (celestial d e (locator tt.jcenturies) * spin (eraIers (tt2ut1 tt eops.dut).daysSinceJ2000) *
        polarMotion (tioLocator tt.jcenturies) (arcsec eops.xp) (arcsec eops.yp)).transpose ∧
      IsRotation q.mat := by
  obtain ⟨hx, hy⟩ := XY_bound (Spec.args tt.jcenturies) ht
  unfold c2i06aAt
  rw [argsAt_ok]
  simp only [Res.bind]
  have hin := corrected_inside hx hy hX hY
  simp only [← arcsec_eq]
  obtain ⟨q, d, e, h1, h2, h3⟩ := c2i06a_matrix ⟨poleX tt.jcenturies, poleY tt.jcenturies, locator tt.jcenturies,
      tioLocator tt.jcenturies, era00 (tt2ut1 tt eops.dut), eops.dX, eops.dY, eops.xp, eops.yp, eops.lod⟩ hin
  obtain ⟨k1, k2, -, k4, k5⟩ := spherical_spec h2
  refine ⟨q, d, e, by rw [h1], k1, k2, k4, k5, ?_, (rotations _).1 q h1⟩
  rw [h3, spin_cong (era00_correct (tt2ut1 tt eops.dut)).2]

/-- C81: the four functions agree at every epoch: the closed form and the product of the two quaternions are the same quaternion, and
so is the one returned with the derivative. -/
theorem four_agree (tt2ut1 : Epoch → ℝ → Epoch) (tt : Epoch) (eops : EopRec) :
    c2i06aBzAt tt2ut1 tt eops = c2i06aAt tt2ut1 tt eops ∧
    (c2i06aPQAt tt2ut1 tt eops).bind (fun r => .ok (r.map fun (q, p, _) => p * q)) = c2i06aAt tt2ut1 tt eops ∧
    (c2i06aDAt tt2ut1 tt eops).bind (fun r => .ok (r.map fun (q, _) => q)) = c2i06aAt tt2ut1 tt eops := by
  unfold c2i06aBzAt c2i06aPQAt c2i06aAt c2i06aDAt
  rw [argsAt_ok]
  simp only [Res.bind, bz_agrees, ← pq_agrees]
  refine ⟨trivial, trivial, ?_⟩
  congr 1
  generalize (⟨poleX tt.jcenturies, poleY tt.jcenturies, locator tt.jcenturies,
      tioLocator tt.jcenturies, era00 (tt2ut1 tt eops.dut), eops.dX, eops.dY, eops.xp, eops.yp, eops.lod⟩ : Args) = a
  unfold c2i06aD c2i06a C
  cases spherical a.Xc a.Yc <;> rfl

/-- C81: the rotation takes the corrected pole to the direction that polar motion assigns to the third axis of TIRS. -/
theorem pole_direction (tt2ut1 : Epoch → ℝ → Epoch) (tt : Epoch) (eops : EopRec) (ht : |tt.jcenturies| ≤ 10)
    (hX : |eops.dX| ≤ 3600) (hY : |eops.dY| ≤ 3600) : ∃ q p ω, c2i06aPQAt tt2ut1 tt eops = .ok (some (q, p, ω)) ∧
      (let x := poleX tt.jcenturies + arcsec eops.dX
       let y := poleY tt.jcenturies + arcsec eops.dY
       q.mat * (⟨x, y, Real.sqrt (1 - x ^ 2 - y ^ 2)⟩ : V3) = ⟨0, 0, 1⟩) ∧ ω = ⟨0, 0, earthRate eops.lod⟩ := by
  obtain ⟨hx, hy⟩ := XY_bound (Spec.args tt.jcenturies) ht
  have hin := corrected_inside hx hy hX hY
  simp only [← arcsec_eq]
  unfold c2i06aPQAt
  rw [argsAt_ok]
  simp only [Res.bind]
  generalize ha : (⟨poleX tt.jcenturies, poleY tt.jcenturies, locator tt.jcenturies,
      tioLocator tt.jcenturies, era00 (tt2ut1 tt eops.dut), eops.dX, eops.dY, eops.xp, eops.yp, eops.lod⟩ : Args) = a
  have exc : a.Xc = poleX tt.jcenturies + sec2rad eops.dX := by rw [← ha]; rfl
  have eyc : a.Yc = poleY tt.jcenturies + sec2rad eops.dY := by rw [← ha]; rfl
  have elod : a.lod = eops.lod := by rw [← ha]
  have hin' : a.Xc ^ 2 + a.Yc ^ 2 ≤ 1 := by rw [exc, eyc]; exact hin
  obtain ⟨d, e, hs, hx1, hy1, hz1, -⟩ := spherical_value a.Xc a.Yc hin'
  refine ⟨_, _, _, by unfold c2i06aPQ; rw [hs]; rfl, ?_, by rw [← elod]; rfl⟩
  rw [← exc, ← eyc, ← hz1]
  have hC : C a.Xc a.Yc (a.s - a.era) = some (c2tirs a.era a.s d e) := by
    unfold C c2tirs
    rw [hs]
    simp only [Option.map_some]
    rw [show e + (a.s - a.era) = -a.era + e + a.s from by ring]
  have := C_pole a.Xc a.Yc (a.s - a.era) _ hC
  rw [hz1]
  exact this

/-- C81: the matrix returned with the derivative is the derivative of the rotation of the Conventions with respect to time in
seconds while the Earth rotation angle grows at the rate given by the length of day and everything else stays fixed. -/
theorem rate_of_rotation (tt2ut1 : Epoch → ℝ → Epoch) (tt : Epoch) (eops : EopRec) (ht : |tt.jcenturies| ≤ 10)
    (hX : |eops.dX| ≤ 3600) (hY : |eops.dY| ≤ 3600) (era : ℝ → ℝ) (τ : ℝ)
    (h0 : Cong (era τ) (eraIers (tt2ut1 tt eops.dut).daysSinceJ2000)) (h1 : HasDerivAt era (earthRate eops.lod) τ) :
    ∃ q dM d e, c2i06aDAt tt2ut1 tt eops = .ok (some (q, dM)) ∧
      Real.sin d * Real.cos e = poleX tt.jcenturies + arcsec eops.dX ∧
      Real.sin d * Real.sin e = poleY tt.jcenturies + arcsec eops.dY ∧ 0 ≤ d ∧ d ≤ Real.pi / 2 ∧
      let M := fun x => (celestial d e (locator tt.jcenturies) * spin (era x) *
        polarMotion (tioLocator tt.jcenturies) (arcsec eops.xp) (arcsec eops.yp)).transpose
      q.mat = M τ ∧ ∀ u : V3, Moves (fun x => M x * u) (dM * u) τ := by
  obtain ⟨hx, hy⟩ := XY_bound (Spec.args tt.jcenturies) ht
  have hin := corrected_inside hx hy hX hY
  simp only [← arcsec_eq]
  unfold c2i06aDAt
  rw [argsAt_ok]
  simp only [Res.bind]
  generalize ha : (⟨poleX tt.jcenturies, poleY tt.jcenturies, locator tt.jcenturies,
      tioLocator tt.jcenturies, era00 (tt2ut1 tt eops.dut), eops.dX, eops.dY, eops.xp, eops.yp, eops.lod⟩ : Args) = a
  have exc : a.Xc = poleX tt.jcenturies + sec2rad eops.dX := by rw [← ha]; rfl
  have eyc : a.Yc = poleY tt.jcenturies + sec2rad eops.dY := by rw [← ha]; rfl
  have hin' : a.Xc ^ 2 + a.Yc ^ 2 ≤ 1 := by rw [exc, eyc]; exact hin
  obtain ⟨d, e, hs, -⟩ := spherical_value a.Xc a.Yc hin'
  obtain ⟨k1, k2, -, k4, k5⟩ := spherical_spec hs
  obtain ⟨q, dM, hD⟩ : ∃ q dM, c2i06aD a = some (q, dM) := by
    unfold c2i06aD C
    rw [hs]
    exact ⟨_, _, rfl⟩
  have hc : Cong a.era (era τ) := by
    have e1 : a.era = era00 (tt2ut1 tt eops.dut) := by rw [← ha]
    rw [e1]
    obtain ⟨m, hm⟩ := (era00_correct (tt2ut1 tt eops.dut)).2
    obtain ⟨n, hn⟩ := h0
    exact ⟨m - n, by push_cast; rw [hm, hn]; ring⟩
  obtain ⟨m, hm⟩ := hc
  have hl : rate a.lod = earthRate eops.lod := by rw [← ha]; rfl
  obtain ⟨Q, hQ, hQ0, hQd⟩ := derivative a q dM hD (fun x => era x + 2 * Real.pi * m) τ hm.symm
    (by rw [hl]; exact h1.add_const _)
  have hmat : ∀ x, (Q x).mat = (celestial d e (locator tt.jcenturies) * spin (era x) *
      polarMotion (tioLocator tt.jcenturies) (sec2rad eops.xp) (sec2rad eops.yp)).transpose := by
    intro x
    obtain ⟨q', d', e', g1, g2, g3⟩ := c2i06a_matrix { a with era := era x + 2 * Real.pi * m } hin'
    have gs : spherical a.Xc a.Yc = some (d', e') := g2
    rw [hs] at gs
    cases gs
    have gq := hQ x
    rw [g1] at gq
    cases gq
    rw [g3, spin_cong (b := era x) ⟨m, rfl⟩]
    rw [← ha]
  refine ⟨q, dM, d, e, by rw [hD], by rw [← exc]; exact k1, by rw [← eyc]; exact k2, k4, k5, ?_, ?_⟩
  · rw [← hQ0]; exact hmat τ
  · intro u
    have := hQd u
    simp only [hmat] at this
    exact this

/-- The hypotheses are met: 1 January 2026, corrections of a fraction of a milliarcsecond. -/
example : |(⟨61041, 0, le_refl 0, one_pos⟩ : Epoch).jcenturies| ≤ 10 ∧ |(0.0003 : ℝ)| ≤ 3600 := by
  constructor
  · simp only [Epoch.jcenturies, Epoch.daysSinceJ2000]
    rw [abs_le]; constructor <;> norm_num
  · rw [abs_le]; constructor <;> norm_num

example (ut1 : Epoch) (lod : ℝ) : ∃ era : ℝ → ℝ, Cong (era 0) (eraIers ut1.daysSinceJ2000) ∧
    HasDerivAt era (earthRate lod) 0 :=
  ⟨fun x => eraIers ut1.daysSinceJ2000 + earthRate lod * x, ⟨0, by simp⟩, by
    simpa using ((hasDerivAt_id (0 : ℝ)).const_mul (earthRate lod)).const_add (eraIers ut1.daysSinceJ2000)⟩

end Verif.EarthRot
