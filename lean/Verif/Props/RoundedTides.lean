import Verif.Proof.RoundedStep2
import Verif.Props.PoleTide
import Verif.Proof.RoundNearest
/-
C111: pole tide and solid Earth tide in double precision.
-/
namespace Verif.RoundedTides
open Verif Verif.Rounded Verif.Rounding Verif.Fundarg Verif.Iau
open Verif.SolidTide (Sph Body Tide first total second band table2 table65 row65 slot lastOf)
open Verif.Angle (sec2rad)
open Verif.EopTides (dargs)

/-! ### Pole tide -/

/-- C111: within a century of J2000 and for polar motion up to an arcsecond, the corrections of C21 and S21 for the pole tide, solid Earth and ocean,
in double precision are those of the Conventions to 4e-24 and 5e-25. -/
theorem pole_rounded {fl : Arith} (hf : Faithful fl) {dt' dt xp yp : ℝ} (hd : |dt' - dt| ≤ 4 * u * 100) (hr : |dt| ≤ 100) (hx : |xp| ≤ 1) (hy : |yp| ≤ 1) :
    let m1 := xp - PoleTide.poleX dt
    let m2 := -(yp - PoleTide.poleY dt)
    |(solid21 fl dt' xp yp).1 - -1.333e-9 * (m1 + 0.0115 * m2)| ≤ 4e-24 ∧ |(solid21 fl dt' xp yp).2 - -1.333e-9 * (m2 - 0.0115 * m1)| ≤ 4e-24 ∧
    |(ocean21 fl dt' xp yp).1 - -2.1778e-10 * (m1 - 0.01724 * m2)| ≤ 5e-25 ∧ |(ocean21 fl dt' xp yp).2 - -1.7232e-10 * (m2 - 0.03365 * m1)| ≤ 5e-25 := by
  intro m1 m2
  have hul := u_lt
  obtain ⟨a, b⟩ := mcoeffs_sc hf hd hr hx hy
  rw [PoleTide.mcoeffs_eq] at a b
  have e : PoleTide.poleY dt - yp = m2 := by simp only [m2]; ring
  simp only [e] at a b
  have lp : ∀ (c : ℝ), 0 ≤ c → Sc 1 c (lit fl c) c := fun c h => Sc.lit hf c (by rw [abs_of_nonneg h])
  have ln : ∀ (c : ℝ), 0 ≤ c → Sc 1 c (lit fl (-c)) (-c) := fun c h => Sc.lit hf c (by rw [abs_neg, abs_of_nonneg h])
  have s1 := Sc.mulf hf (ln 1.333e-9 (by norm_num)) (Sc.addf hf 8.2 a (Sc.mulp hf 4 (lp 0.0115 (by norm_num)) b))
  have s2 := Sc.mulf hf (ln 1.333e-9 (by norm_num)) (Sc.subf hf 8.2 b (Sc.mulp hf 5 (lp 0.0115 (by norm_num)) a))
  have o1 := Sc.mulf hf (ln 2.1778e-10 (by norm_num)) (Sc.subf hf 8.2 a (Sc.mulp hf 4 (lp 0.01724 (by norm_num)) b))
  have o2 := Sc.mulf hf (ln 1.7232e-10 (by norm_num)) (Sc.subf hf 8.2 b (Sc.mulp hf 5 (lp 0.03365 (by norm_num)) a))
  exact ⟨s1.2.trans (by linarith), s2.2.trans (by linarith), o1.2.trans (by linarith), o2.2.trans (by linarith)⟩

theorem deformation_eq (dt xp yp lon lat : ℝ) :
    PoleTide.deformation dt xp yp lon lat = poleShift (xp - PoleTide.poleX dt) (-(yp - PoleTide.poleY dt)) lon lat := by
  have e : PoleTide.poleY dt - yp = -(yp - PoleTide.poleY dt) := by ring
  unfold PoleTide.deformation poleShift PoleTide.south PoleTide.east PoleTide.up
  simp only [PoleTide.mcoeffs_eq, e]
  rw [Real.cos_two_mul, Real.sin_two_mul, Real.cos_pi_div_two_sub, Real.sin_pi_div_two_sub]
  ext <;> simp <;> ring

/-- C111: the displacement of a site by the pole tide in double precision is that of the Conventions to 3.5e-15 m in every coordinate, whatever order
Eigen takes for the sums. -/
theorem deformation_rounded {fl : Arith} (hf : Faithful fl) {fsin fcos : ℝ → ℝ} (hT : Trig fsin fcos) {dot : V3 → V3 → ℝ} (hD : DotProduct dot)
    {dt' dt xp yp lon lat : ℝ} (hd : |dt' - dt| ≤ 4 * u * 100) (hr : |dt| ≤ 100) (hx : |xp| ≤ 1) (hy : |yp| ≤ 1) (hl : |lat| ≤ 2) :
    let v' := deformation fl fsin fcos dot dt' xp yp lon lat
    let v := poleShift (xp - PoleTide.poleX dt) (-(yp - PoleTide.poleY dt)) lon lat
    |v'.x - v.x| ≤ 3.5e-15 ∧ |v'.y - v.y| ≤ 3.5e-15 ∧ |v'.z - v.z| ≤ 3.5e-15 := by
  intro v' v
  have hul := u_lt
  obtain ⟨x, y, z⟩ := deformation_sc hf hT hD hd hr hx hy hl (lon := lon)
  rw [deformation_eq] at x y z
  exact ⟨x.2.trans (by linarith), y.2.trans (by linarith), z.2.trans (by linarith)⟩

/-! ### Solid Earth tide -/

theorem first_parts (Re rs rm : ℝ) (rMoon rSun : V3) {n m : ℕ} {i : Fin 12} (h : slot n m = some i) :
    (SolidTide.step1 Re rs rm rMoon rSun).1 i = (first Re [⟨rs, rSun⟩, ⟨rm, rMoon⟩] n m).re ∧
    (SolidTide.step1 Re rs rm rMoon rSun).2 i = -(first Re [⟨rs, rSun⟩, ⟨rm, rMoon⟩] n m).im := by
  rw [← SolidTide.step1_formula Re rs rm rMoon rSun h]
  simp

/-- C111: on every solid Earth tide object a call, from the epochs TT and UT1 and the positions of Sun and Moon to the coefficients in double precision,
succeeds and leaves, at every degree and order, the sum of both steps of the Conventions, up to 31 u Σ (GM_j/GM)(Re/r_j)^3 (u = 2^-53), and
1.4e-19 more for degree 2, whose angles come from the epochs. The epochs lie within a century of J2000. -/
theorem stokes_rounded {fl : Arith} {fsin fcos s2r cube : ℝ → ℝ} (hf : Faithful fl) (hT : Trig fsin fcos) (hs : SecToRad s2r) (hc : Cube cube)
    (tt ut1 : Epoch) {f tu t f' tu' t' : ℝ} (hut : Sees ut1 f tu t) (htt : Sees tt f' tu' t') (hr : |ut1.daysSinceJ2000| ≤ 36525) (hr' : |tt.jcenturies| ≤ 1)
    {sph : V3 → Sph} {rMoon rSun : V3} (hm : Spherical (sph rMoon) rMoon) (hS : Spherical (sph rSun) rSun)
    (o : Tide) (ho : o.mcs.rows = 5) {GMe GMs GMm : ℝ} (h1 : o.sunRatio = fl (GMs / GMe)) (h2 : o.moonRatio = fl (GMm / GMe))
    (hR : 0 < o.mcs.re) (hvm : o.mcs.re ≤ rMoon.norm) (hvs : o.mcs.re ≤ rSun.norm) :
    let sun : Body := ⟨GMs / GMe, rSun⟩
    let moon : Body := ⟨GMm / GMe, rMoon⟩
    let T := total o.mcs.re [sun, moon] (eraIers ut1.daysSinceJ2000 + sec2rad (gmstPoly tt.jcenturies)) (dargs tt.jcenturies)
    let bound (n : ℕ) : ℝ := 31 * u * (|pull o.mcs.re sun| + |pull o.mcs.re moon|) + if n = 2 then 1.4e-19 else 0
    ∃ o', stokes fl fsin fcos cube sph o (Rounded.gmst fl s2r t' f tu) rMoon rSun (Rounded.fundarg fl s2r t') = .ok o' ∧
      (∀ n m : ℕ, |o'.mcs.C n m - (T n m).re| ≤ bound n ∧ |o'.mcs.S n m + (T n m).im| ≤ bound n) ∧
      (∀ n : ℕ, o'.mcs.S n 0 = 0) ∧
      o'.sunRatio = o.sunRatio ∧ o'.moonRatio = o.moonRatio ∧ o'.mcs.re = o.mcs.re ∧ o'.mcs.gm = o.mcs.gm ∧
      o'.mcs.deg = o.mcs.deg ∧ o'.mcs.ord = o.mcs.ord ∧ o'.mcs.rows = o.mcs.rows ∧ o'.mcs.normalized = o.mcs.normalized := by
  intro sun moon T bound
  have hu := u_pos
  have hul := u_lt
  have P1 := step1_sc hf hT hc hm hS hR hvm hvs (GMs / GMe) (GMm / GMe)
  have P2 := step2_app hf hT hs tt ut1 hut htt hr hr'
  simp only at P2
  have hP : 0 ≤ |pull o.mcs.re sun| + |pull o.mcs.re moon| := by positivity
  have hz := SolidTide.step1_zonal o.mcs.re (GMs / GMe) (GMm / GMe) rMoon rSun
  have fp := fun n m i (h : slot n m = some i) => first_parts o.mcs.re (GMs / GMe) (GMm / GMe) rMoon rSun h
  unfold stokes
  rw [h1, h2]
  generalize hp : step1 fl fsin fcos cube sph o.mcs.re (fl (GMs / GMe)) (fl (GMm / GMe)) rMoon rSun = p at *
  generalize hq : step2 fl fsin fcos (Rounded.gmst fl s2r t' f tu) (Rounded.fundarg fl s2r t') = q at *
  obtain ⟨l, hl⟩ : ∃ l, l = writes fl p.1 p.2 q := ⟨_, rfl⟩
  simp only [← hl]
  obtain ⟨c', k0, k1, k2, k3, k4, k5, k6, k7, k8⟩ := SolidTide.assign_ok l o.mcs.clear (by
    intro e he
    have hc : o.mcs.clear.rows = 5 := ho
    simp only [hl, writes, List.mem_cons, List.not_mem_nil, or_false] at he
    unfold Coeffs.Has
    rw [hc]
    rcases he with h | h | h | h | h | h | h | h | h | h | h | h | h | h | h | h | h | h | h | h | h <;> subst h <;> norm_num)
  have outside : ∀ n m : ℕ, ¬(2 ≤ n ∧ n ≤ 4 ∧ m ≤ n) → ∀ b, lastOf b n m l 0 = 0 := by
    intro n m hin b
    have key : ∀ e ∈ l, ¬(e.2.1.toNat = n ∧ e.2.2.1.toNat = m) := by
      intro e he
      simp only [hl, writes, List.mem_cons, List.not_mem_nil, or_false] at he
      rcases he with h | h | h | h | h | h | h | h | h | h | h | h | h | h | h | h | h | h | h | h | h <;> subst h <;> simp only [Int.reduceToNat] <;> omega
    clear hl k0 k7 k8
    induction l with
    | nil => rfl
    | cons e l ih =>
      obtain ⟨b', i, j, v⟩ := e
      have := key _ (List.mem_cons_self ..)
      simp only [lastOf]
      rw [if_neg (fun hh => this hh.2)]
      exact ih (fun e he => key e (List.mem_cons_of_mem _ he))
  -- one step
  have one : ∀ {x' x : ℝ}, Sc 107.5 (0.28 * (|pull o.mcs.re sun| + |pull o.mcs.re moon|)) x' x →
      |x' - x| ≤ 31 * u * (|pull o.mcs.re sun| + |pull o.mcs.re moon|) := by
    intro x' x h
    have := h.2
    nlinarith [mul_nonneg hu.le hP]
  have two : ∀ {x' x y' y M e : ℝ}, Sc 107.5 (0.28 * (|pull o.mcs.re sun| + |pull o.mcs.re moon|)) x' x → App M e y' y → M ≤ 1e-9 → e ≤ 1.3e-19 →
      |fl (x' + y') - (x + y)| ≤ 31 * u * (|pull o.mcs.re sun| + |pull o.mcs.re moon|) + 1.4e-19 := by
    intro x' x y' y M e h g hM he
    have r := hf.rel (x' + y')
    have a1 := h.2
    have a2 := g.2
    have b1 : |x'| ≤ |x| + |x' - x| := by have := abs_add_le x (x' - x); rwa [add_sub_cancel] at this
    have b2 : |y'| ≤ |y| + |y' - y| := by have := abs_add_le y (y' - y); rwa [add_sub_cancel] at this
    have b3 := abs_add_le x' y'
    have t1 : |fl (x' + y') - (x + y)| ≤ |fl (x' + y') - (x' + y')| + (|x' - x| + |y' - y|) := by
      have e1 : fl (x' + y') - (x + y) = (fl (x' + y') - (x' + y')) + ((x' - x) + (y' - y)) := by ring
      rw [e1]
      exact (abs_add_le _ _).trans (add_le_add le_rfl (abs_add_le _ _))
    have c1 := h.1
    have c2 := g.1
    clear P1 P2 fp hz one k0 k1 k2 k3 k4 k5 k6 k7 k8 outside
    generalize |pull o.mcs.re sun| + |pull o.mcs.re moon| = P at *
    have w : u * P ≤ 1.2e-16 * P := mul_le_mul_of_nonneg_right hul.le hP
    have b4 : |x' + y'| ≤ 0.281 * P + 1.1e-9 := by linarith
    have b5 : u * |x' + y'| ≤ u * (0.281 * P) + 1.2e-16 * 1.1e-9 := by
      have := mul_le_mul_of_nonneg_left b4 hu.le
      linarith
    linarith [mul_nonneg hu.le hP]
  have tot : ∀ n m : ℕ, n ≠ 2 → T n m = first o.mcs.re [sun, moon] n m := by
    intro n m h
    simp only [T, total, if_neg h, add_zero]
  have sec : ∀ m : ℕ, second (table65.map row65) (eraIers ut1.daysSinceJ2000 + sec2rad (gmstPoly tt.jcenturies)) (dargs tt.jcenturies) m =
      (if m = 1 then -Complex.I else 1) * band table2 (eraIers ut1.daysSinceJ2000 + sec2rad (gmstPoly tt.jcenturies)) (dargs tt.jcenturies) m * 1e-12 := by
    intro m
    rw [SolidTide.table_published]
    rfl
  generalize band table2 (eraIers ut1.daysSinceJ2000 + sec2rad (gmstPoly tt.jcenturies)) (dargs tt.jcenturies) = B at *
  have lt : (1e-12 : ℂ) = ((1e-12 : ℝ) : ℂ) := by norm_num
  have s0 : (T 2 0).re = (first o.mcs.re [sun, moon] 2 0).re + (B 0).re * 1e-12 ∧ (T 2 0).im = (first o.mcs.re [sun, moon] 2 0).im := by
    simp only [T, total, sec, lt]
    simp
  have s1 : (T 2 1).re = (first o.mcs.re [sun, moon] 2 1).re + (B 1).im * 1e-12 ∧
      (T 2 1).im = (first o.mcs.re [sun, moon] 2 1).im - (B 1).re * 1e-12 := by
    simp only [T, total, sec, lt]
    simp [sub_eq_add_neg]
  have s2 : (T 2 2).re = (first o.mcs.re [sun, moon] 2 2).re + (B 2).re * 1e-12 ∧
      (T 2 2).im = (first o.mcs.re [sun, moon] 2 2).im + (B 2).im * 1e-12 := by
    simp only [T, total, sec, lt]
    simp
  refine ⟨{ o with mcs := c' }, ?_, ?_, ?_, h1, h2, k5, k4, k1, k2, k3, k6⟩
  · rw [k0, ← h1, ← h2]; rfl
  · intro n m
    show |c'.C n m - (T n m).re| ≤ bound n ∧ |c'.S n m + (T n m).im| ≤ bound n
    rw [k7, k8]
    by_cases hin : 2 ≤ n ∧ n ≤ 4 ∧ m ≤ n
    · obtain ⟨a1, a2, a3⟩ := hin
      obtain ⟨z1, z2, z3⟩ := hz
      obtain ⟨q1, q2, q3, q4, q5⟩ := P2
      have b0 : 0 ≤ 31 * u * (|pull o.mcs.re sun| + |pull o.mcs.re moon|) := by positivity
      have zon : ∀ n i, slot n 0 = some i → (SolidTide.step1 o.mcs.re (GMs / GMe) (GMm / GMe) rMoon rSun).2 i = 0 →
          (first o.mcs.re [sun, moon] n 0).im = 0 := by
        intro n i h g
        have := (fp n 0 i h).2
        rw [g] at this
        linarith
      have both : ∀ n m i, slot n m = some i → n ≠ 2 →
          |p.1 i - (T n m).re| ≤ bound n ∧ |p.2 i + (T n m).im| ≤ bound n := by
        intro n m i h hn
        have hb : bound n = 31 * u * (|pull o.mcs.re sun| + |pull o.mcs.re moon|) := by simp only [bound, if_neg hn, add_zero]
        obtain ⟨f1, f2⟩ := fp n m i h
        rw [hb, tot n m hn]
        refine ⟨?_, ?_⟩
        · rw [← f1]; exact one (P1 i).1
        · have : p.2 i + (first o.mcs.re [sun, moon] n m).im = p.2 i - (SolidTide.step1 o.mcs.re (GMs / GMe) (GMm / GMe) rMoon rSun).2 i := by
            rw [f2]; ring
          rw [this]; exact one (P1 i).2
      have hb2 : bound 2 = 31 * u * (|pull o.mcs.re sun| + |pull o.mcs.re moon|) + 1.4e-19 := by simp only [bound, if_true]
      have re2 : ∀ m i y' y M e, slot 2 m = some i → (T 2 m).re = (first o.mcs.re [sun, moon] 2 m).re + y → App M e y' y → M ≤ 1e-9 → e ≤ 1.3e-19 →
          |fl (p.1 i + y') - (T 2 m).re| ≤ bound 2 := by
        intro m i y' y M e h g ha hM he
        rw [g, hb2, ← (fp 2 m i h).1]
        exact two (P1 i).1 ha hM he
      have im2 : ∀ m i y' y M e, slot 2 m = some i → (T 2 m).im = (first o.mcs.re [sun, moon] 2 m).im - y → App M e y' y → M ≤ 1e-9 → e ≤ 1.3e-19 →
          |fl (p.2 i + y') + (T 2 m).im| ≤ bound 2 := by
        intro m i y' y M e h g ha hM he
        have f2 := (fp 2 m i h).2
        have : fl (p.2 i + y') + (T 2 m).im = fl (p.2 i + y') - ((SolidTide.step1 o.mcs.re (GMs / GMe) (GMm / GMe) rMoon rSun).2 i + y) := by
          rw [g, f2]; ring
        rw [this, hb2]
        exact two (P1 i).2 ha hM he
      have low : ∀ n i, slot n 0 = some i → n ≠ 2 → (SolidTide.step1 o.mcs.re (GMs / GMe) (GMm / GMe) rMoon rSun).2 i = 0 →
          |p.1 i - (T n 0).re| ≤ bound n ∧ |(0 : ℝ) + (T n 0).im| ≤ bound n := by
        intro n i h hn g
        refine ⟨(both n 0 i h hn).1, ?_⟩
        rw [tot n 0 hn, zon n i h g]
        simp only [bound, if_neg hn, add_zero, abs_zero]
        exact b0
      have W : ∀ b n m v, lastOf b n m l v = lastOf b n m (writes fl p.1 p.2 q) v := by rw [hl]; intros; rfl
      rw [W, W]
      interval_cases n
      · interval_cases m
        · refine ⟨re2 0 0 _ _ _ _ rfl s0.1 q1 (by norm_num) (by norm_num), ?_⟩
          have e0 : lastOf true 2 0 (writes fl p.1 p.2 q) (o.mcs.clear.S 2 0) = 0 := by simp [writes, lastOf, Coeffs.clear]
          rw [e0, s0.2, zon 2 0 rfl z1, hb2]
          simp only [add_zero, abs_zero]
          linarith
        · exact ⟨re2 1 1 _ _ _ _ rfl s1.1 q2 (by norm_num) (by norm_num), im2 1 1 _ _ _ _ rfl s1.2 q3 (by norm_num) (by norm_num)⟩
        · exact ⟨re2 2 2 _ _ _ _ rfl s2.1 q4 (by norm_num) (by norm_num),
            im2 2 2 _ _ _ _ rfl (by rw [s2.2]; ring) q5 (by norm_num) (by norm_num)⟩
      · interval_cases m
        · exact low 3 3 rfl (by decide) z2
        · exact both 3 1 4 rfl (by decide)
        · exact both 3 2 5 rfl (by decide)
        · exact both 3 3 6 rfl (by decide)
      · interval_cases m
        · exact low 4 7 rfl (by decide) z3
        · exact both 4 1 8 rfl (by decide)
        · exact both 4 2 9 rfl (by decide)
        · exact both 4 3 10 rfl (by decide)
        · exact both 4 4 11 rfl (by decide)
    · have e1 := SolidTide.total_outside o.mcs.re [sun, moon] (eraIers ut1.daysSinceJ2000 + sec2rad (gmstPoly tt.jcenturies)) (dargs tt.jcenturies) hin
      have e2 : T n m = 0 := e1
      have e3 := outside n m hin
      have b0 : 0 ≤ bound n := add_nonneg (by positivity) (by split_ifs <;> norm_num)
      have e4 : o.mcs.clear.C n m = 0 := rfl
      have e5 : o.mcs.clear.S n m = 0 := rfl
      rw [e2, e4, e5, e3, e3]
      simpa using b0
  · intro n
    show c'.S n 0 = 0
    rw [k8]
    by_cases hin : 2 ≤ n ∧ n ≤ 4
    · obtain ⟨a1, a2⟩ := hin
      interval_cases n <;> simp [hl, writes, lastOf, Coeffs.clear]
    · exact outside n 0 (by omega) true

theorem pull_le {Re d B k : ℝ} {b : Body} (hR : 0 ≤ Re) (hd : 0 < d) (hr : d ≤ b.pos.norm) (hk : |b.ratio| ≤ k) (h : k * (Re / d) ^ 3 ≤ B) : |pull Re b| ≤ B := by
  have hn : 0 < b.pos.norm := hd.trans_le hr
  have h0 : 0 ≤ Re / b.pos.norm := div_nonneg hR hn.le
  have h1 : Re / b.pos.norm ≤ Re / d := div_le_div_of_nonneg_left hR hd hr
  have h2 := pow_le_pow_left₀ h0 h1 3
  unfold pull
  rw [abs_mul, abs_of_nonneg (pow_nonneg h0 3)]
  exact (mul_le_mul hk h2 (pow_nonneg h0 3) ((abs_nonneg _).trans hk)).trans h

/-- C111: an object constructed with the constants of Earth, Sun and Moon, whatever its memory held before, then called with the Sun at least 1.47e11 m
and the Moon at least 3.56e8 m away: every coefficient is that of the Conventions to 1.5e-19, and from degree 3 on to 4e-22. -/
theorem earth_rounded {fl : Arith} {fsin fcos s2r cube : ℝ → ℝ} (hf : Faithful fl) (hT : Trig fsin fcos) (hs : SecToRad s2r) (hc : Cube cube)
    (tt ut1 : Epoch) {f tu t f' tu' t' : ℝ} (hut : Sees ut1 f tu t) (htt : Sees tt f' tu' t') (hr : |ut1.daysSinceJ2000| ≤ 36525) (hr' : |tt.jcenturies| ≤ 1)
    {sph : V3 → Sph} {rMoon rSun : V3} (hm : Spherical (sph rMoon) rMoon) (hS : Spherical (sph rSun) rSun) (hvm : 3.56e8 ≤ rMoon.norm)
    (hvs : 1.47e11 ≤ rSun.norm) (junkC junkS : ℕ → ℕ → ℝ) :
    let T := total 6378136.6 [⟨1.32712442099e20 / 3.986004418e14, rSun⟩, ⟨4.902800238e12 / 3.986004418e14, rMoon⟩]
      (eraIers ut1.daysSinceJ2000 + sec2rad (gmstPoly tt.jcenturies)) (dargs tt.jcenturies)
    ∃ o', stokes fl fsin fcos cube sph (make fl junkC junkS 3.986004418e14 6378136.6 1.32712442099e20 4.902800238e12)
        (Rounded.gmst fl s2r t' f tu) rMoon rSun (Rounded.fundarg fl s2r t') = .ok o' ∧
      ∀ n m : ℕ, |o'.mcs.C n m - (T n m).re| ≤ 1.5e-19 ∧ |o'.mcs.S n m + (T n m).im| ≤ 1.5e-19 ∧
        (n ≠ 2 → |o'.mcs.C n m - (T n m).re| ≤ 4e-22 ∧ |o'.mcs.S n m + (T n m).im| ≤ 4e-22) := by
  intro T
  have hul := u_lt
  have hu := u_pos
  obtain ⟨o', k, e, -⟩ := stokes_rounded hf hT hs hc tt ut1 hut htt hr hr' hm hS (make fl junkC junkS 3.986004418e14 6378136.6 1.32712442099e20 4.902800238e12)
    rfl (GMe := 3.986004418e14) (GMs := 1.32712442099e20) (GMm := 4.902800238e12) rfl rfl (by show (0 : ℝ) < 6378136.6; norm_num)
    (by show (6378136.6 : ℝ) ≤ _; linarith) (by show (6378136.6 : ℝ) ≤ _; linarith)
  have R : (make fl junkC junkS 3.986004418e14 6378136.6 1.32712442099e20 4.902800238e12).mcs.re = 6378136.6 := rfl
  rw [R] at e
  have ps : |pull 6378136.6 ⟨1.32712442099e20 / 3.986004418e14, rSun⟩| ≤ 2.8e-8 :=
    pull_le (by norm_num) (by norm_num) hvs (k := 332947) (by norm_num [abs_of_pos]) (by norm_num)
  have pm : |pull 6378136.6 ⟨4.902800238e12 / 3.986004418e14, rMoon⟩| ≤ 7.1e-8 :=
    pull_le (by norm_num) (by norm_num) hvm (k := 0.0123001) (by norm_num [abs_of_pos]) (by norm_num)
  have P : 31 * u * (|pull 6378136.6 ⟨1.32712442099e20 / 3.986004418e14, rSun⟩| + |pull 6378136.6 ⟨4.902800238e12 / 3.986004418e14, rMoon⟩|) ≤ 4e-22 := by
    have := mul_le_mul_of_nonneg_left (add_le_add ps pm) (by positivity : 0 ≤ 31 * u)
    linarith
  refine ⟨o', k, fun n m => ?_⟩
  obtain ⟨c, d⟩ := e n m
  have b : (if n = 2 then (1.4e-19 : ℝ) else 0) ≤ 1.4e-19 := by split_ifs <;> norm_num
  refine ⟨c.trans (by linarith), d.trans (by linarith), fun h => ?_⟩
  simp only [if_neg h, add_zero] at c d
  exact ⟨c.trans P, d.trans P⟩

/-! ### Concrete cases -/

theorem cart2sph_spherical (v : V3) : Spherical (SolidTide.cart2sph v) v := by
  have hu := u_pos
  have hn : 0 ≤ v.norm := Real.sqrt_nonneg _
  refine ⟨?_, ?_, 0, ?_⟩ <;> simp [SolidTide.cart2sph, hu.le]
  positivity

/-- Rounding to nearest, products fused or not; 2012-06-06 12h, polar motion 0.1" and 0.4", a site at 40 N. -/
example (s : ℕ → Bool) :
    |(solid21 (rnArith s) 12.43 0.1 0.4).1 - -1.333e-9 * (0.1 - PoleTide.poleX 12.43 + 0.0115 * -(0.4 - PoleTide.poleY 12.43))| ≤ 4e-24 ∧
    |(ocean21 (rnArith s) 12.43 0.1 0.4).2 - -1.7232e-10 * (-(0.4 - PoleTide.poleY 12.43) - 0.03365 * (0.1 - PoleTide.poleX 12.43))| ≤ 5e-25 ∧
    |(deformation (rnArith s) Real.sin Real.cos (fun a b => a.x * b.x + a.y * b.y + a.z * b.z) 12.43 0.1 0.4 0.4 0.7).z -
      (poleShift (0.1 - PoleTide.poleX 12.43) (-(0.4 - PoleTide.poleY 12.43)) 0.4 0.7).z| ≤ 3.5e-15 := by
  have hu := u_pos
  have hT : Trig Real.sin Real.cos := ⟨fun x => by simp [hu.le], fun x => by simp [hu.le]⟩
  have hD : DotProduct (fun a b => a.x * b.x + a.y * b.y + a.z * b.z) := fun a b => by rw [sub_self, abs_zero]; positivity
  have d0 : |(12.43 : ℝ) - 12.43| ≤ 4 * u * 100 := by simp [hu.le]
  have p := pole_rounded (rn_faithful s) d0 (by norm_num [abs_of_pos]) (xp := 0.1) (yp := 0.4) (by norm_num [abs_of_pos]) (by norm_num [abs_of_pos])
  have d := deformation_rounded (rn_faithful s) hT hD d0 (by norm_num [abs_of_pos]) (xp := 0.1) (yp := 0.4) (by norm_num [abs_of_pos])
    (by norm_num [abs_of_pos]) (lon := 0.4) (lat := 0.7) (by norm_num [abs_of_pos])
  exact ⟨p.1, p.2.2.2, d.2.2⟩

/-- The same date, the Sun on the x axis and the Moon on the y axis. -/
example (s : ℕ → Bool) :
    let s2r := fun x : ℝ => x * (2 * Real.pi / 1296000)
    let d : ℝ := 56084 + 0.5 - 51544.5
    let T := total 6378136.6 [⟨1.32712442099e20 / 3.986004418e14, ⟨1.5e11, 0, 0⟩⟩, ⟨4.902800238e12 / 3.986004418e14, ⟨0, 3.8e8, 0⟩⟩]
      (eraIers d + sec2rad (gmstPoly (d / 36525))) (dargs (d / 36525))
    ∃ o', stokes (rnArith s) Real.sin Real.cos (fun x => x ^ 3) SolidTide.cart2sph
        (make (rnArith s) (fun _ _ => 7) (fun _ _ => -1) 3.986004418e14 6378136.6 1.32712442099e20 4.902800238e12)
        (Rounded.gmst (rnArith s) s2r (d / 36525) 0.5 d) ⟨0, 3.8e8, 0⟩ ⟨1.5e11, 0, 0⟩ (Rounded.fundarg (rnArith s) s2r (d / 36525)) = .ok o' ∧
      |o'.mcs.C 2 1 - (T 2 1).re| ≤ 1.5e-19 ∧ |o'.mcs.S 3 3 + (T 3 3).im| ≤ 4e-22 := by
  intro s2r d T
  have hu := u_pos
  have hT : Trig Real.sin Real.cos := ⟨fun x => by simp [hu.le], fun x => by simp [hu.le]⟩
  have hc : Cube fun x => x ^ 3 := fun x => by rw [sub_self, abs_zero]; positivity
  let e : Epoch := ⟨56084, 0.5, by norm_num, by norm_num⟩
  have hd : e.daysSinceJ2000 = d := by show ((56084 : ℤ) : ℝ) + 0.5 - 51544.5 = _; simp only [d]; norm_num
  have hj : e.jcenturies = d / 36525 := by unfold Epoch.jcenturies; rw [hd]
  have hs : Sees e 0.5 d (d / 36525) :=
    ⟨by simp [e, hu.le], by rw [hd, sub_self, abs_zero]; positivity, by rw [hj, sub_self, abs_zero]; positivity⟩
  have nm : (⟨0, 3.8e8, 0⟩ : V3).norm = 3.8e8 := by
    unfold V3.norm V3.dot; rw [show (0 : ℝ) * 0 + 3.8e8 * 3.8e8 + 0 * 0 = 3.8e8 ^ 2 by ring]; exact Real.sqrt_sq (by norm_num)
  have ns : (⟨1.5e11, 0, 0⟩ : V3).norm = 1.5e11 := by
    unfold V3.norm V3.dot; rw [show (1.5e11 : ℝ) * 1.5e11 + 0 * 0 + 0 * 0 = 1.5e11 ^ 2 by ring]; exact Real.sqrt_sq (by norm_num)
  obtain ⟨o', k, h⟩ := earth_rounded (rn_faithful s) hT s2r_exact hc e e hs hs (by rw [hd]; simp only [d]; norm_num [abs_of_pos])
    (by rw [hj]; simp only [d]; norm_num [abs_of_pos]) (cart2sph_spherical ⟨0, 3.8e8, 0⟩) (cart2sph_spherical ⟨1.5e11, 0, 0⟩)
    (by rw [nm]; norm_num) (by rw [ns]; norm_num) (fun _ _ => 7) (fun _ _ => -1)
  rw [hj, hd] at h
  exact ⟨o', k, (h 2 1).1, ((h 3 3).2.2 (by decide)).2⟩

end Verif.RoundedTides
