import Verif.Proof.RoundedSeries
import Verif.Props.RoundedCip
import Verif.Props.RoundedSofa
import Verif.Spec.RoundedSeries
/-
C127: the separate series of X and Y in double precision, and the comparison with SOFA.
-/
namespace Verif.RoundedSeries
open Verif Verif.Iau Verif.Rounding Verif.Rounded Verif.RoundedCip
open Verif.Cip.Spec (X Y args uas)
open Verif.RoundedOrient (Clock exactClock)
open Verif.RoundedEops (RadToSec lit_near)
open Verif.RoundedSofa (Drawn seconds_near)

section
variable {fl : Arith} {fsin fcos s2r r2s : ℝ → ℝ}

/-- The five sums put together. -/
theorem powers (hf : Faithful fl) {t' t a0' a0 a1' a1 a2' a2 a3' a3 a4' a4 : ℝ} (ht : App 1 (4 * u) t' t) (h0 : App 10100000 1.6e-4 a0' a0)
    (h1 : App 230000 6e-6 a1' a1) (h2 : App 2700 4e-7 a2' a2) (h3 : App 25 4e-8 a3' a3) (h4 : App 1 1e-8 a4' a4) :
    App 10400000 1.7e-4 (fl (a0' + fl.pr 0 (fl (a1' + fl.pr 1 (fl (a2' + fl.pr 2 (fl (a3' + fl.pr 3 (a4' * t')) * t')) * t')) * t')))
      (a0 + (a1 + (a2 + (a3 + a4 * t) * t) * t) * t) := by
  have hu := u_pos
  have hul := u_lt
  have p4 := ((h4.mul ht).pr hf 3).mono (M' := 1) (e' := 1.1e-8) (by norm_num) (by nlinarith)
  have s3 := ((h3.add p4).fl hf).mono (M' := 26) (e' := 6e-8) (by norm_num) (by nlinarith)
  have p3 := ((s3.mul ht).pr hf 2).mono (M' := 26) (e' := 7e-8) (by norm_num) (by nlinarith)
  have s2 := ((h2.add p3).fl hf).mono (M' := 2800) (e' := 5e-7) (by norm_num) (by nlinarith)
  have p2 := ((s2.mul ht).pr hf 1).mono (M' := 2800) (e' := 6e-7) (by norm_num) (by nlinarith)
  have s1 := ((h1.add p2).fl hf).mono (M' := 233000) (e' := 7e-6) (by norm_num) (by nlinarith)
  have p1 := ((s1.mul ht).pr hf 0).mono (M' := 233000) (e' := 8e-6) (by norm_num) (by nlinarith)
  exact ((h0.add p1).fl hf).mono (by norm_num) (by nlinarith)

/-- Series and polynomial. -/
theorem whole (hf : Faithful fl) {a' a b' b : ℝ} (ha : App 10400000 1.7e-4 a' a) (hb : App 2004920000 2e-6 b' b) :
    App 2.02e9 2.7e-4 (fl (a' + b')) (a + b) := by
  have hu := u_pos
  have hul := u_lt
  exact ((ha.add hb).fl hf).mono (by norm_num) (by nlinarith)

/-- C127: within a century of J2000, Y from the separate series computed in double precision is that of the Conventions to 2e-15 rad, and X is so but for the digit
that one amplitude has lost (`Cip.x_series_partial`), which is 0.01 t cos Ω microarcseconds. -/
theorem extra_rounded_partial (hf : Faithful fl) (hT : Trig fsin fcos) (hs : SecToRad s2r) {t' t : ℝ} (ht : |t' - t| ≤ 4 * u) (hr : |t| ≤ 1) :
    |(xycip06aExtra fl fsin fcos s2r t').1 - ((pole t).1 - uas (0.01 * t * Real.cos (args t 4)))| ≤ 2e-15 ∧
      |(xycip06aExtra fl fsin fcos s2r t').2 - (pole t).2| ≤ 2e-15 := by
  have hu := u_pos
  have hul := u_lt
  have hsq := u_sq
  have hta : App 1 (4 * u) t' t := ⟨hr, ht⟩
  have hF := args_rounded hf hs ht hr
  have ab : ∀ {a b : ℝ}, 0 ≤ a → a ≤ b → |a| ≤ b := fun h h' => by rwa [abs_of_nonneg h]
  have ab' : ∀ {a b : ℝ}, 0 ≤ a → a ≤ b → |-a| ≤ b := fun h h' => by rwa [abs_neg, abs_of_nonneg h]
  -- the polynomials
  have l1 : ∀ {c C : ℝ}, |c| ≤ C → App C (C * u) (horner fl t' [c]) c := fun h => by rw [mul_comm]; exact App.lit hf _ h
  have x5 := l1 (c := 5.9285) (C := 6) (ab (by norm_num) (by norm_num))
  have x4 := (hta.horner hf (c := 7.578) (C := 8) (ab (by norm_num) (by norm_num)) (by norm_num) x5).mono (M' := 14) (e' := 100 * u)
    (by norm_num) (by nlinarith)
  have x3 := (hta.horner hf (c := -198618.34) (C := 198619) (ab' (by norm_num) (by norm_num)) (by norm_num) x4).mono (M' := 198700)
    (e' := 4e5 * u) (by norm_num) (by nlinarith)
  have x2 := (hta.horner hf (c := -429782.9) (C := 429783) (ab' (by norm_num) (by norm_num)) (by norm_num) x3).mono (M' := 628500)
    (e' := 3e6 * u) (by norm_num) (by nlinarith)
  have x1 := (hta.horner hf (c := 2004191898) (C := 2004191898) (ab (by norm_num) le_rfl) (by norm_num) x2).mono (M' := 2004900000)
    (e' := 4.1e9 * u) (by norm_num) (by nlinarith)
  have xp := (hta.horner hf (c := -16617) (C := 16617) (ab' (by norm_num) le_rfl) (by norm_num) x1).mono (M' := 2004920000)
    (e' := 2e-6) (by norm_num) (by nlinarith)
  have y5 := l1 (c := 0.1358) (C := 1) (ab (by norm_num) (by norm_num))
  have y4 := (hta.horner hf (c := 1112.526) (C := 1113) (ab (by norm_num) (by norm_num)) (by norm_num) y5).mono (M' := 1114) (e' := 3000 * u)
    (by norm_num) (by nlinarith)
  have y3 := (hta.horner hf (c := 1900.59) (C := 1901) (ab (by norm_num) (by norm_num)) (by norm_num) y4).mono (M' := 3015)
    (e' := 2e4 * u) (by norm_num) (by nlinarith)
  have y2 := (hta.horner hf (c := -22407274.7) (C := 22407275) (ab' (by norm_num) (by norm_num)) (by norm_num) y3).mono (M' := 22411000)
    (e' := 4.6e7 * u) (by norm_num) (by nlinarith)
  have y1 := (hta.horner hf (c := -25896) (C := 25896) (ab' (by norm_num) le_rfl) (by norm_num) y2).mono (M' := 22440000)
    (e' := 2e8 * u) (by norm_num) (by nlinarith)
  have yp := (hta.horner hf (c := -6951) (C := 6951) (ab' (by norm_num) le_rfl) (by norm_num) y1).mono (M' := 22450000)
    (e' := 2e-6) (by norm_num) (by nlinarith)
  -- the series
  obtain ⟨wx0, wx1, wx2, wx3, wx4, wy0, wy1, wy2, wy3, wy4⟩ := weights
  obtain ⟨⟨ax0, ax1, ax2, ax3, ax4⟩, ay0, ay1, ay2, ay3, ay4⟩ := amps
  obtain ⟨⟨vx0, vx1, vx2, vx3, vx4⟩, vy0, vy1, vy2, vy3, vy4⟩ := wamps
  obtain ⟨⟨lx0, lx1, lx2, lx3, lx4⟩, ly0, ly1, ly2, ly3, ly4⟩ := lengths
  have sum : ∀ {rows : List Cip.Row} (n w l : ℕ), (∀ s ∈ rows, rowWeight s ≤ 50) → RoundedGcrs.amp rows ≤ n * 100 → wamp rows ≤ w * 100 → rows.length ≤ l →
      n ≤ 10100000 → w ≤ 20000000 → l ≤ 1400 → App n (w * 1.02e-11 + n * 1.3e-15 + l * 6e-9)
        (seriesSum fl fsin fcos (fun i => (fargs14 fl s2r t').getD i 0) rows) (Cip.seriesSum (args t) rows) := by
    intro rows n w l h1 h2 h3 h4 h5 h6 h7
    rw [Cip.seriesSum_eq, ← Cip.plainSum_eq]
    exact series_sim hf hT (fun i hi => (hF i hi).1) (fun i hi => (hF i hi).2) h1 h2 h3 h4 h5 h6 h7
  have px := powers hf hta
    ((sum 10100000 14000000 1400 wx0 ax0 vx0 lx0 (by norm_num) (by norm_num) (by norm_num)).mono (by norm_num) (by norm_num))
    ((sum 230000 320000 300 wx1 ax1 vx1 lx1 (by norm_num) (by norm_num) (by norm_num)).mono (by norm_num) (by norm_num))
    ((sum 2700 4000 40 wx2 ax2 vx2 lx2 (by norm_num) (by norm_num) (by norm_num)).mono (by norm_num) (by norm_num))
    ((sum 25 40 5 wx3 ax3 vx3 lx3 (by norm_num) (by norm_num) (by norm_num)).mono (by norm_num) (by norm_num))
    ((sum 1 1 1 wx4 ax4 vx4 lx4 (by norm_num) (by norm_num) (by norm_num)).mono (by norm_num) (by norm_num))
  have py := powers hf hta
    ((sum 10100000 14000000 1400 wy0 ay0 vy0 ly0 (by norm_num) (by norm_num) (by norm_num)).mono (by norm_num) (by norm_num))
    ((sum 230000 320000 300 wy1 ay1 vy1 ly1 (by norm_num) (by norm_num) (by norm_num)).mono (by norm_num) (by norm_num))
    ((sum 2700 4000 40 wy2 ay2 vy2 ly2 (by norm_num) (by norm_num) (by norm_num)).mono (by norm_num) (by norm_num))
    ((sum 25 40 5 wy3 ay3 vy3 ly3 (by norm_num) (by norm_num) (by norm_num)).mono (by norm_num) (by norm_num))
    ((sum 1 1 1 wy4 ay4 vy4 ly4 (by norm_num) (by norm_num) (by norm_num)).mono (by norm_num) (by norm_num))
  have sx := whole hf px xp
  have sy := whole hf py (yp.mono (by norm_num) le_rfl)
  have hX := (Cip.x_series_partial (args t) t).1
  have hY := Cip.y_series (args t) t
  have ex : uas (Cip.xcip06a (args t) t) = (pole t).1 - uas (0.01 * t * Real.cos (args t 4)) := by
    rw [hX]; unfold pole uas; ring
  have ey : uas (Cip.ycip06a (args t) t) = (pole t).2 := by rw [hY]; rfl
  rw [← ex, ← ey]
  have ex' : Cip.xcip06a (args t) t = Cip.seriesSum (args t) Cip.x0Series + (Cip.seriesSum (args t) Cip.x1Series + (Cip.seriesSum (args t) Cip.x2Series +
      (Cip.seriesSum (args t) Cip.x3Series + Cip.seriesSum (args t) Cip.x4Series * t) * t) * t) * t +
      (-16617 + t * (2004191898 + t * (-429782.9 + t * (-198618.34 + t * (7.578 + t * 5.9285))))) := by unfold Cip.xcip06a; ring
  have ey' : Cip.ycip06a (args t) t = Cip.seriesSum (args t) Cip.y0Series + (Cip.seriesSum (args t) Cip.y1Series + (Cip.seriesSum (args t) Cip.y2Series +
      (Cip.seriesSum (args t) Cip.y3Series + Cip.seriesSum (args t) Cip.y4Series * t) * t) * t) * t +
      (-6951 + t * (-25896 + t * (-22407274.7 + t * (1900.59 + t * (1112.526 + t * 0.1358))))) := by unfold Cip.ycip06a; ring
  rw [← ex'] at sx
  rw [← ey', add_comm] at sy
  exact ⟨uas_near hf hs sx, uas_near hf hs sy⟩

/-- C127 (partial): so X is within 2e-15 rad + 0.01 |t| microarcseconds. -/
theorem extra_x_partial (hf : Faithful fl) (hT : Trig fsin fcos) (hs : SecToRad s2r) {t' t : ℝ} (ht : |t' - t| ≤ 4 * u) (hr : |t| ≤ 1) :
    |(xycip06aExtra fl fsin fcos s2r t').1 - (pole t).1| ≤ 2e-15 + 4.85e-14 * |t| := by
  have h := (extra_rounded_partial hf hT hs ht hr).1
  have hp := Real.pi_pos
  have hp1 := pi_lt
  have hc := Real.abs_cos_le_one (args t 4)
  have e : |uas (0.01 * t * Real.cos (args t 4))| ≤ 4.85e-14 * |t| := by
    unfold uas
    rw [show 0.01 * t * Real.cos (args t 4) / 1000000 / 3600 * (Real.pi / 180) = (1e-8 * (Real.pi / 648000)) * (t * Real.cos (args t 4)) by ring, abs_mul, abs_mul t,
      abs_of_pos (by positivity : (0 : ℝ) < 1e-8 * (Real.pi / 648000))]
    have q : 1e-8 * (Real.pi / 648000) ≤ 4.85e-14 := by linarith
    exact mul_le_mul q (mul_le_of_le_one_right (abs_nonneg t) hc) (by positivity) (by norm_num)
  rw [show (xycip06aExtra fl fsin fcos s2r t').1 - (pole t).1 =
    ((xycip06aExtra fl fsin fcos s2r t').1 - ((pole t).1 - uas (0.01 * t * Real.cos (args t 4)))) - uas (0.01 * t * Real.cos (args t 4)) by ring]
  exact (abs_sub _ _).trans (add_le_add h e)

/-- C127 fails: in 2025 there is an epoch at which X from the separate series, in any faithful arithmetic, is off by more than 1e-14 rad, five times the error that rounding
can make: the amplitude of t cos Ω has lost its last digit. -/
theorem extra_x_rounded_fails : ∃ t : ℝ, 0.25 ≤ t ∧ t ≤ 0.26 ∧ ∀ (fl : Arith) (fsin fcos s2r : ℝ → ℝ) (t' : ℝ), Faithful fl → Trig fsin fcos → SecToRad s2r →
    |t' - t| ≤ 4 * u → 1e-14 ≤ |(xycip06aExtra fl fsin fcos s2r t').1 - (pole t).1| := by
  have hc : ContinuousOn Fundarg.omPoly (Set.Icc 0.25 0.26) := by
    unfold Fundarg.omPoly
    fun_prop
  have hiv := intermediate_value_Icc' (by norm_num : (0.25 : ℝ) ≤ 0.26) hc
  obtain ⟨t, ⟨h0, h1⟩, ht⟩ := hiv (show (-1296000 : ℝ) ∈ Set.Icc (Fundarg.omPoly 0.26) (Fundarg.omPoly 0.25) from by
    unfold Fundarg.omPoly; constructor <;> norm_num)
  refine ⟨t, h0, h1, fun fl fsin fcos s2r t' hf hT hs hn => ?_⟩
  have h := (extra_rounded_partial hf hT hs hn (abs_le.mpr ⟨by linarith, by linarith⟩)).1
  have hcos : Real.cos (args t 4) = 1 := by
    have : args t 4 = -(2 * Real.pi) := by
      show Fundarg.omPoly t * (2 * Real.pi / 1296000) = _
      rw [ht]; ring
    rw [this, Real.cos_neg, Real.cos_two_pi]
  rw [hcos, mul_one] at h
  have hp := pi_gt
  have e : 1.2e-14 ≤ uas (0.01 * t) := by
    unfold uas
    have := mul_le_mul_of_nonneg_right h0 Real.pi_pos.le
    linarith
  have h' := abs_le.mp h
  refine le_trans ?_ (neg_le_abs _)
  linarith [h'.2]

/-- What an assertion says. -/
theorem agree_of_close (hf : Faithful fl) (hr : RadToSec r2s) {x y : ℝ} :
    (|x - y| ≤ 4.84e-15 → agree fl r2s 1e-9 x y) ∧ (|x - y| ≤ 4.84e-14 → agree fl r2s 1e-8 x y) := by
  have l9 := abs_le.mp (lit_near hf (c := 1e-9) (by norm_num))
  have l8 := abs_le.mp (lit_near hf (c := 1e-8) (by norm_num))
  have := (seconds_near hf hr (x - y)).2
  have hul := u_lt
  unfold agree
  exact ⟨fun h => by linarith [l9.1], fun h => by linarith [l8.1]⟩

theorem close_of_agree (hf : Faithful fl) (hr : RadToSec r2s) {x y : ℝ} (h : agree fl r2s 1e-9 x y) : |x - y| ≤ 4.85e-15 := by
  have l9 := abs_le.mp (lit_near hf (c := 1e-9) (by norm_num))
  have := (seconds_near hf hr (x - y)).1
  have hul := u_lt
  unfold agree at h
  linarith [l9.2]

variable {ck : Clock}

theorem Drawn.range {e : Epoch} (h : Drawn e) : |e.jcenturies| ≤ 0.4001 := by
  have d := RoundedSofa.Drawn.cents h
  exact abs_le.mpr ⟨by linarith [d.1], d.2⟩

/-- C127: the comparison of both implementations with SOFA succeeds for every draw, if SOFA is accurate to 2.8e-15 rad. -/
theorem xy_check (hf : Faithful fl) (hT : Trig fsin fcos) (hs : SecToRad s2r) (hr : RadToSec r2s)
    (hck : ∀ e, Sees e (ck.frac e) (ck.days e) (ck.cents e)) (sofa : Epoch → ℝ × ℝ) (draws : List Epoch) (hd : ∀ e ∈ draws, Drawn e)
    (h : ∀ e ∈ draws, Close 2.8e-15 (sofa e) (pole e.jcenturies)) : xyCheck fl fsin fcos s2r r2s ck sofa draws = .ok 0 := by
  induction draws with
  | nil => rfl
  | cons e es ih =>
    have d := Drawn.range (hd e List.mem_cons_self)
    obtain ⟨s1, s2⟩ := h e List.mem_cons_self
    obtain ⟨x, y, m, m1, m2⟩ := cip_rounded hf hT hs (hck e).cents (d.trans (by norm_num))
    have e1 := extra_x_partial hf hT hs (hck e).cents (d.trans (by norm_num))
    have e2 := (extra_rounded_partial hf hT hs (hck e).cents (d.trans (by norm_num))).2
    rw [abs_sub_comm] at m1 m2 e1 e2
    rw [xyCheck, m]
    simp only [Res.bind]
    rw [if_pos ⟨(agree_of_close hf hr).1 (((abs_sub_le _ _ _).trans (add_le_add s1 m1)).trans (by norm_num)),
      (agree_of_close hf hr).1 (((abs_sub_le _ _ _).trans (add_le_add s2 m2)).trans (by norm_num))⟩]
    rw [if_pos ⟨(agree_of_close hf hr).2 (((abs_sub_le _ _ _).trans (add_le_add s1 e1)).trans (by linarith)),
      (agree_of_close hf hr).2 (((abs_sub_le _ _ _).trans (add_le_add s2 e2)).trans (by norm_num))⟩]
    exact ih (fun x hx => hd x (List.mem_cons_of_mem _ hx)) (fun x hx => h x (List.mem_cons_of_mem _ hx))

/-- C127: if it succeeds, SOFA's coordinates are those of the Conventions to 6.9e-15 rad. -/
theorem xy_check_sound (hf : Faithful fl) (hT : Trig fsin fcos) (hs : SecToRad s2r) (hr : RadToSec r2s)
    (hck : ∀ e, Sees e (ck.frac e) (ck.days e) (ck.cents e)) (sofa : Epoch → ℝ × ℝ) (draws : List Epoch) (hd : ∀ e ∈ draws, Drawn e)
    (h : xyCheck fl fsin fcos s2r r2s ck sofa draws = .ok 0) : ∀ e ∈ draws, Close 6.9e-15 (sofa e) (pole e.jcenturies) := by
  induction draws with
  | nil => intro e he; cases he
  | cons e es ih =>
    have d := Drawn.range (hd e List.mem_cons_self)
    obtain ⟨x, y, m, m1, m2⟩ := cip_rounded hf hT hs (hck e).cents (d.trans (by norm_num))
    rw [xyCheck, m] at h
    simp only [Res.bind] at h
    split at h
    · rename_i g
      split at h
      · intro q hq
        rcases List.mem_cons.mp hq with rfl | hq
        · exact ⟨((abs_sub_le _ _ _).trans (add_le_add (close_of_agree hf hr g.1) m1)).trans (by norm_num),
            ((abs_sub_le _ _ _).trans (add_le_add (close_of_agree hf hr g.2) m2)).trans (by norm_num)⟩
        · exact ih (fun y hy => hd y (List.mem_cons_of_mem _ hy)) h q hq
      · cases h
    · cases h

/-- C127: a SOFA that is off by more than 6.9e-15 rad at one of the draws is noticed: the program aborts. -/
theorem xy_check_rejects (hf : Faithful fl) (hT : Trig fsin fcos) (hs : SecToRad s2r) (hr : RadToSec r2s)
    (hck : ∀ e, Sees e (ck.frac e) (ck.days e) (ck.cents e)) (sofa : Epoch → ℝ × ℝ) (draws : List Epoch) (hd : ∀ e ∈ draws, Drawn e)
    (h : ∃ e ∈ draws, ¬ Close 6.9e-15 (sofa e) (pole e.jcenturies)) : xyCheck fl fsin fcos s2r r2s ck sofa draws = .abort := by
  have two : ∀ (draws : List Epoch), (∀ e ∈ draws, Drawn e) →
      xyCheck fl fsin fcos s2r r2s ck sofa draws = .ok 0 ∨ xyCheck fl fsin fcos s2r r2s ck sofa draws = .abort := by
    intro draws hd
    induction draws with
    | nil => exact Or.inl rfl
    | cons e es ih =>
      have d := Drawn.range (hd e List.mem_cons_self)
      obtain ⟨x, y, m, -, -⟩ := cip_rounded hf hT hs (hck e).cents (d.trans (by norm_num))
      rw [xyCheck, m]
      simp only [Res.bind]
      split
      · split
        · exact ih fun q hq => hd q (List.mem_cons_of_mem _ hq)
        · exact Or.inr rfl
      · exact Or.inr rfl
  rcases two draws hd with k | k
  · obtain ⟨e, he, hn⟩ := h
    exact absurd (xy_check_sound hf hT hs hr hck sofa draws hd k e he) hn
  · exact k

end

/-- With rounding to nearest and a SOFA that is exact the comparison succeeds for two draws; one that is off by 1e-14 rad in X at J2000 makes it abort. The bounds hold an eighth of
a century after J2000. -/
example (b : ℕ → Bool) :
    let s2r := fun x => x * (2 * Real.pi / 1296000)
    let r2s := fun x => x * (648000 / Real.pi)
    let ck := exactClock fun _ => 37
    let sofa := fun e : Epoch => pole e.jcenturies
    let off := fun e : Epoch => ((pole e.jcenturies).1 + 1e-14, (pole e.jcenturies).2)
    xyCheck (rnArith b) Real.sin Real.cos s2r r2s ck sofa [RoundedSofa.j2000, ⟨55293, 0.25, by norm_num, by norm_num⟩] = .ok 0 ∧
    xyCheck (rnArith b) Real.sin Real.cos s2r r2s ck off [RoundedSofa.j2000] = .abort ∧
    |(xycip06aExtra (rnArith b) Real.sin Real.cos s2r (1 / 8)).1 - (pole (1 / 8)).1| ≤ 2e-15 + 4.85e-14 * |1 / 8| := by
  intro s2r r2s ck sofa off
  have hu := u_pos
  have hT : Trig Real.sin Real.cos := ⟨fun x => by simp [hu.le], fun x => by simp [hu.le]⟩
  have hr2s : RadToSec r2s := fun x => by
    simp only [r2s, sub_self, abs_zero]
    positivity
  have hck := (RoundedOrient.exactClock_ok fun _ => 37).sees
  have d1 : Drawn RoundedSofa.j2000 := by constructor <;> norm_num [RoundedSofa.j2000, Epoch.daysSinceJ2000]
  refine ⟨xy_check (rn_faithful b) hT s2r_exact hr2s hck _ _ (fun e he => ?_) (fun e _ => by simp only [sofa, Close, sub_self, abs_zero]; norm_num),
    xy_check_rejects (rn_faithful b) hT s2r_exact hr2s hck _ _ (fun e he => ?_) ⟨RoundedSofa.j2000, by simp, fun h => ?_⟩,
    extra_x_partial (rn_faithful b) hT s2r_exact (by simp [hu.le]) (by rw [abs_of_nonneg] <;> norm_num)⟩
  · simp only [List.mem_cons, List.not_mem_nil, or_false] at he
    rcases he with rfl | rfl
    · exact d1
    · constructor <;> norm_num [Epoch.daysSinceJ2000]
  · rw [List.mem_singleton.mp he]
    exact d1
  · have h1 := h.1
    simp only [off, add_sub_cancel_left] at h1
    norm_num [abs_of_pos] at h1

end Verif.RoundedSeries
