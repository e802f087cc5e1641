import Verif.Model.RoundedFcn
import Verif.Spec.RoundedFcn
import Verif.Proof.RoundedTides
import Verif.Proof.Rounding
import Verif.Props.Fcn
/-
Free core nutation in double precision.
-/
namespace Verif.RoundedFcn
open Verif Verif.Rounded Verif.Fcn Verif.Rounding

variable {fl : Arith} (hf : Faithful fl)

/-- Interpolation. -/
theorem interp_exact_abs {p n dt dT M : ℝ} (hp : |p| ≤ M) (hn : |n| ≤ M) (h0 : 0 ≤ dt) (h1 : dt ≤ dT) (hT : 0 < dT) : |p + (n - p) / dT * dt| ≤ M := by
  set w := dt / dT with hw
  have w0 : 0 ≤ w := by positivity
  have w1 : w ≤ 1 := by rw [hw, div_le_one hT]; exact h1
  have e : p + (n - p) / dT * dt = (1 - w) * p + w * n := by rw [hw]; ring
  rw [e]
  refine (abs_add_le _ _).trans ?_
  rw [abs_mul, abs_mul, abs_of_nonneg w0, abs_of_nonneg (by linarith : 0 ≤ 1 - w)]
  have a := mul_le_mul_of_nonneg_left hp (by linarith : 0 ≤ 1 - w)
  have b := mul_le_mul_of_nonneg_left hn w0
  linarith

include hf in
theorem interp_sc (k : ℕ) {p' p n' n dt' dt dT' dT M : ℝ} (hp : Sc 1 M p' p) (hn : Sc 1 M n' n) (h0 : 0 ≤ dt) (h1 : dt ≤ dT) (hT : 1 ≤ dT)
    (et : |dt' - dt| ≤ 4 * u * (|dt| + 1)) (eT : |dT' - dT| ≤ 4 * u * (|dT| + 1)) : Sc 64 M (interp fl k p' n' dt' dT') (p + (n - p) / dT * dt) := by
  have T0 : 0 < dT := by linarith
  have hu := u_pos
  have hM := hp.nonneg
  have d := hn.subf hf 1 hp
  have eT' : |dT' - dT| ≤ 8 * u * |dT| := by
    refine eT.trans ?_
    rw [abs_of_pos T0]
    have := mul_le_mul_of_nonneg_left hT hu.le
    linarith
  have q := (d.div T0.ne' eT' (by norm_num) (by norm_num) (by norm_num) (by norm_num)).fl hf (by norm_num)
  have t8 : Sc 8 dT dt' dt := by
    refine ⟨by rw [abs_of_nonneg h0]; exact h1, et.trans ?_⟩
    rw [abs_of_nonneg h0]
    have := mul_le_mul_of_nonneg_left (by linarith : dt + 1 ≤ 2 * dT) hu.le
    linarith
  have m := q.mulp hf k t8
  have s := (hp.mono (by norm_num)).addf hf (k := 20.1) 20.1 (m.mono (l := 20.1) (by norm_num))
  refine ⟨interp_exact_abs hp.1 hn.1 h0 h1 T0, ?_⟩
  refine s.2.trans ?_
  rw [abs_of_pos T0]
  have e : M + (M + M) / dT * dT = 3 * M := by field_simp; ring
  rw [e]
  have : 0 ≤ u * M := by positivity
  nlinarith

include hf in
/-- The phase. -/
theorem phi_err {dd : ℝ → ℝ → ℝ} (hd : DayDifference dd) (t : ℝ) : |phi fl dd t - phase t| ≤ (8.4 * |phase t| + 0.2) * u := by
  have hu0 := u_pos
  have hu : u ≤ 1.1103e-16 := by unfold u; norm_num
  have hp := Real.pi_pos
  have hp4 := Real.pi_lt_d2
  set K : ℝ := 2 * Real.pi / (-430.21) with hK
  have r1 : Rounding.Rel 1 (D2PI fl) (2 * Real.pi) := Rel.one hf.toRounds _
  have r2 : Rounding.Rel 1 (lit fl (-430.21)) (-430.21) := by
    have := App.lit hf (-430.21) le_rfl
    unfold Rounding.Rel
    rw [one_mul]; exact this.2
  have r3 := (r1.div r2 (by norm_num) (by norm_num) (by norm_num) (by norm_num) (by norm_num)).fl hf.toRounds (by norm_num)
  rw [← hK] at r3
  unfold phi
  set K' := fl (D2PI fl / lit fl (-430.21)) with hK'
  have r4 : |K' - K| ≤ 3.2 * u * |K| := by
    have := (r3.mono (l := 3.2) (by norm_num))
    exact this
  have hKa : |K| ≤ 0.0147 := by
    rw [hK, abs_div, abs_of_pos (by positivity), abs_of_neg (by norm_num), div_le_iff₀ (by norm_num)]
    linarith
  have e := hd t 51544.5
  set x := t - 51544.5 with hx
  have hph : phase t = K * x := by unfold phase; rw [hK, hx]; ring
  rw [hph]
  set x' := dd t 51544.5 with hx'
  have k0 := abs_nonneg K
  have x0 := abs_nonneg x
  have kx : |K * x| = |K| * |x| := abs_mul _ _
  set a := |K| * |x| with ha
  have a0 : 0 ≤ a := by positivity
  -- product
  have hK'a : |K'| ≤ 1.001 * |K| := by
    have := abs_add_le (K' - K) K
    rw [sub_add_cancel] at this
    have h2 : 3.2 * u * |K| ≤ 0.001 * |K| := mul_le_mul_of_nonneg_right (by linarith) k0
    linarith
  have p1 : |K' * x' - K * x| ≤ 7.3 * u * a + 0.1 * u := by
    have e1 : K' * x' - K * x = (K' - K) * x + K' * (x' - x) := by ring
    rw [e1]
    refine (abs_add_le _ _).trans ?_
    rw [abs_mul, abs_mul]
    have b1 : |K' - K| * |x| ≤ 3.2 * u * |K| * |x| := mul_le_mul_of_nonneg_right r4 x0
    have b2 : |K'| * |x' - x| ≤ 1.001 * |K| * (4 * u * (|x| + 1)) := mul_le_mul hK'a e (abs_nonneg _) (by positivity)
    have e2 : 3.2 * u * |K| * |x| = 3.2 * u * a := by rw [ha]; ring
    have e3 : 1.001 * |K| * (4 * u * (|x| + 1)) = 4.004 * u * a + 4.004 * u * |K| := by rw [ha]; ring
    have b3 : 4.004 * u * |K| ≤ 4.004 * u * 0.0147 := mul_le_mul_of_nonneg_left hKa (by positivity)
    have b4 : 0 ≤ u * a := by positivity
    rw [e2] at b1
    rw [e3] at b2
    linarith
  have p2 := hf.rel (K' * x')
  have p3 : |K' * x'| ≤ 1.001 * a + 0.001 := by
    have := abs_add_le (K' * x' - K * x) (K * x)
    rw [sub_add_cancel, kx] at this
    have b5 : 7.3 * u * a ≤ 0.001 * a := mul_le_mul_of_nonneg_right (by linarith) a0
    linarith
  have p4 : u * |K' * x'| ≤ u * (1.001 * a + 0.001) := mul_le_mul_of_nonneg_left p3 hu0.le
  have := abs_add_le (fl (K' * x') - K' * x') (K' * x' - K * x)
  rw [sub_add_sub_cancel] at this
  rw [kx]
  have b4 : 0 ≤ u * a := by positivity
  linarith

/-- What the results are off by. -/
noncomputable def tol (t : ℝ) : ℝ := (140 + 17 * |phase t|) * u

include hf in
/-- `a cos - b sin`. -/
theorem rotate_err {M d a' a b' b c' c s' s : ℝ} (j k : ℕ) (ha : Sc 64 M a' a) (hb : Sc 64 M b' b) (hc : |c' - c| ≤ d + 2 * u) (hs : |s' - s| ≤ d + 2 * u)
    (c1 : |c'| ≤ 1.001) (s1 : |s'| ≤ 1.001) : |fl (fl.pr j (a' * c') - fl.pr k (b' * s')) - (a * c - b * s)| ≤ (137 * u + 2 * d) * M := by
  have hu0 := u_pos
  have hu : u ≤ 1.1103e-16 := by unfold u; norm_num
  have M0 := ha.nonneg
  have one : ∀ {a' a c' c : ℝ} (j : ℕ), Sc 64 M a' a → |c' - c| ≤ d + 2 * u → |c'| ≤ 1.001 →
      |fl.pr j (a' * c') - a * c| ≤ (67.1 * u + d) * M ∧ |fl.pr j (a' * c')| ≤ 1.003 * M := by
    intro a' a c' c j ha hc c1
    have a1 : |a'| ≤ 1.001 * M := by
      have := abs_add_le (a' - a) a
      rw [sub_add_cancel] at this
      have h1 := ha.1; have h2 := ha.2
      have h3 : 64 * u * M ≤ 0.001 * M := mul_le_mul_of_nonneg_right (by linarith) M0
      linarith
    have m : |a' * c'| ≤ 1.0021 * M := by
      rw [abs_mul]
      refine (mul_le_mul a1 c1 (abs_nonneg _) (by positivity)).trans ?_
      linarith
    have r := hf.prel j (a' * c')
    have r' : u * |a' * c'| ≤ u * (1.0021 * M) := mul_le_mul_of_nonneg_left m hu0.le
    have uM : 0 ≤ u * M := by positivity
    have uM' : u * M ≤ 0.0001 * M := mul_le_mul_of_nonneg_right (by linarith) M0
    have e : |a' * c' - a * c| ≤ (66.07 * u + d) * M := by
      rw [show a' * c' - a * c = (a' - a) * c' + a * (c' - c) from by ring]
      refine (abs_add_le _ _).trans ?_
      rw [abs_mul, abs_mul]
      have h1 : |a' - a| * |c'| ≤ 64 * u * M * 1.001 := mul_le_mul ha.2 c1 (abs_nonneg _) (by positivity)
      have h2 : |a| * |c' - c| ≤ M * (d + 2 * u) := mul_le_mul ha.1 hc (abs_nonneg _) M0
      linarith
    constructor
    · have := abs_add_le (fl.pr j (a' * c') - a' * c') (a' * c' - a * c)
      rw [sub_add_sub_cancel] at this
      linarith
    · have := abs_add_le (fl.pr j (a' * c') - a' * c') (a' * c')
      rw [sub_add_cancel] at this
      linarith
  obtain ⟨p1, p2⟩ := one j ha hc c1
  obtain ⟨q1, q2⟩ := one k hb hs s1
  set p := fl.pr j (a' * c')
  set q := fl.pr k (b' * s')
  have r := hf.rel (p - q)
  have hpq : |p - q| ≤ 1.1 * M + 1.1 * M := (abs_sub p q).trans (by linarith)
  have r' : u * |p - q| ≤ u * (1.1 * M + 1.1 * M) := mul_le_mul_of_nonneg_left hpq hu0.le
  have uM : 0 ≤ u * M := by positivity
  have h1 : |p - q - (a * c - b * s)| ≤ (67.1 * u + d) * M + (67.1 * u + d) * M := by
    rw [show p - q - (a * c - b * s) = (p - a * c) - (q - b * s) from by ring]
    exact (abs_sub _ _).trans (add_le_add p1 q1)
  have := abs_add_le (fl (p - q) - (p - q)) (p - q - (a * c - b * s))
  rw [sub_add_sub_cancel] at this
  refine this.trans ?_
  linarith

theorem trig_one {fsin fcos : ℝ → ℝ} (ht : Trig fsin fcos) (x : ℝ) : |fsin x| ≤ 1.001 ∧ |fcos x| ≤ 1.001 := by
  have hu : u ≤ 1.1103e-16 := by unfold u; norm_num
  have h1 := abs_add_le (fsin x - Real.sin x) (Real.sin x)
  have h2 := abs_add_le (fcos x - Real.cos x) (Real.cos x)
  rw [sub_add_cancel] at h1 h2
  have := ht.sin x
  have := ht.cos x
  have := Real.abs_sin_le_one x
  have := Real.abs_cos_le_one x
  exact ⟨by linarith, by linarith⟩

/-- The amplitudes in exact arithmetic (as in `Fcn.lambertFcn`). -/
noncomputable def exactAmplitudes (t : ℝ) (first last : Coef ℝ) : Option (Coef ℝ × Coef ℝ) → (ℝ × ℝ × ℝ × ℝ) × ℝ × ℝ
  | some (prev, next) =>
    ((prev.re + (next.re - prev.re) / (next.t - prev.t) * (t - prev.t), prev.im + (next.im - prev.im) / (next.t - prev.t) * (t - prev.t),
      prev.im + (next.im - prev.im) / (next.t - prev.t) * (t - prev.t), -prev.re + (-next.re - -prev.re) / (next.t - prev.t) * (t - prev.t)),
     |prev.sg + (next.sg - prev.sg) / (next.t - prev.t) * (t - prev.t)|, |prev.sg + (next.sg - prev.sg) / (next.t - prev.t) * (t - prev.t)|)
  | none =>
    if t ≥ last.t then ((last.re, last.im, last.im, -last.re), last.sg + 0.3 * (t - last.t), last.sg + 0.3 * (t - last.t))
    else ((first.re, first.im, first.im, -first.re), first.sg + 0.3 * (t - first.t), first.sg + 0.3 * (t - first.t))

theorem exact_eq {t : ℝ} {l : List (Coef ℝ)} {first last : Coef ℝ} (h1 : l.head? = some first) (h2 : l.reverse.head? = some last) :
    let a := exactAmplitudes t first last (search t l.reverse)
    Fcn.lambertFcn t l = .ok ⟨a.1.1 * Real.cos (phase t) - a.1.2.1 * Real.sin (phase t),
      a.1.2.2.1 * Real.cos (phase t) - a.1.2.2.2 * Real.sin (phase t), a.2.1 + a.2.1, a.2.2 + a.2.2⟩ := by
  have hphi : (2 * Real.pi / (-430.21 : ℝ)) * (t - 51544.5) = phase t := by unfold phase; ring
  unfold Fcn.lambertFcn
  simp only [h1, h2, hphi]
  rcases search t l.reverse with _ | ⟨p, n⟩ <;> rfl

include hf in
/-- An uncertainty outside the table. -/
theorem sigma_sc (k : ℕ) {sg x x' S D : ℝ} (hs : |sg| ≤ S) (hx : |x| ≤ D) (e : |x' - x| ≤ 4 * u * (|x| + 1)) :
    Sc 10 (S + D + 1) (fl (fl sg + fl.pr k (lit fl 0.3 * x'))) (sg + 0.3 * x) := by
  have hu0 := u_pos
  have D0 : 0 ≤ D := (abs_nonneg _).trans hx
  have a : Sc 1 S (fl sg) sg := ⟨hs, (hf.rel sg).trans (by rw [one_mul]; exact mul_le_mul_of_nonneg_left hs hu0.le)⟩
  have b : Sc 4 (D + 1) x' x := ⟨by linarith, e.trans (mul_le_mul_of_nonneg_left (by linarith) (by positivity))⟩
  have c := (Sc.lit hf (c := 0.3) 0.3 (by norm_num [abs_of_pos])).mulp hf k b
  have d := a.addf hf 6.1 c
  refine (d.le (by norm_num) ?_).mono (by norm_num)
  linarith

end Verif.RoundedFcn
