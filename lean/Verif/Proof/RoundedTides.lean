import Verif.Model.RoundedTides
import Verif.Spec.RoundedTides
import Verif.Spec.RoundedRelativity
import Verif.Proof.RoundedRelativity
import Verif.Proof.RoundedEopTides
import Verif.Proof.Rel
/-
Helper lemmas for pole tide and solid Earth tide in double precision.
-/
namespace Verif.Rounding
open Verif Verif.Rounded

section
variable {fl : Arith} (hf : Faithful fl)
include hf

theorem Sc.mulf {k l M N x' x y' y : ℝ} (h : Sc k M x' x) (g : Sc l N y' y) (h0 : 0 ≤ k := by norm_num) (hk : k ≤ 400 := by norm_num)
    (hl0 : 0 ≤ l := by norm_num) (hl : l ≤ 400 := by norm_num) : Sc (k + l + 1.01) (M * N) (fl (x' * y')) (x * y) :=
  ((h.mul g h0 (by linarith) hl0 (by linarith)).fl hf (by linarith)).mono (by linarith)

theorem Sc.mulp (j : ℕ) {k l M N x' x y' y : ℝ} (h : Sc k M x' x) (g : Sc l N y' y) (h0 : 0 ≤ k := by norm_num) (hk : k ≤ 400 := by norm_num)
    (hl0 : 0 ≤ l := by norm_num) (hl : l ≤ 400 := by norm_num) : Sc (k + l + 1.01) (M * N) (fl.pr j (x' * y')) (x * y) :=
  ((h.mul g h0 (by linarith) hl0 (by linarith)).pr hf j (by linarith)).mono (by linarith)

theorem Sc.addf {k l M N x' x y' y : ℝ} (j : ℝ) (h : Sc k M x' x) (g : Sc l N y' y) (hk : k ≤ j := by norm_num) (hl : l ≤ j := by norm_num)
    (hj : j ≤ 900 := by norm_num) : Sc (j + 1.01) (M + N) (fl (x' + y')) (x + y) :=
  (((h.mono hk).add (g.mono hl)).fl hf (by linarith)).mono (by linarith)

theorem Sc.subf {k l M N x' x y' y : ℝ} (j : ℝ) (h : Sc k M x' x) (g : Sc l N y' y) (hk : k ≤ j := by norm_num) (hl : l ≤ j := by norm_num)
    (hj : j ≤ 900 := by norm_num) : Sc (j + 1.01) (M + N) (fl (x' - y')) (x - y) :=
  (((h.mono hk).sub (g.mono hl)).fl hf (by linarith)).mono (by linarith)

theorem Sc.lit {c : ℝ} (M : ℝ) (h : |c| ≤ M) : Sc 1 M (lit fl c) c := by
  have := App.lit hf c h
  exact ⟨this.1, by rw [one_mul]; exact this.2⟩

theorem Sc.sqrt1 {q : ℝ} (M : ℝ) (M0 : 0 ≤ M := by norm_num) (h : q ≤ M ^ 2 := by norm_num) : Sc 1 M (fl (Real.sqrt q)) (Real.sqrt q) :=
  (Sc.of_rel (Rel.one hf.toRounds (Real.sqrt q))).le (by norm_num) (by rw [abs_of_nonneg (Real.sqrt_nonneg _)]; exact Real.sqrt_le_iff.mpr ⟨M0, h⟩)

theorem Sc.sqrt2 {q : ℝ} (M : ℝ) (q0 : 0 ≤ q := by norm_num) (M0 : 0 ≤ M := by norm_num) (h : q ≤ M ^ 2 := by norm_num) :
    Sc 2.01 M (fl (Real.sqrt (fl q))) (Real.sqrt q) := by
  have h1 := Rel.one hf.toRounds q
  have h2 := (h1.sqrt q0 (h1.nonneg (by norm_num) q0)).fl hf.toRounds (by norm_num)
  exact ((Sc.of_rel h2).mono (by norm_num)).le (by norm_num) (by rw [abs_of_nonneg (Real.sqrt_nonneg _)]; exact Real.sqrt_le_iff.mpr ⟨M0, h⟩)

end

theorem Sc.num (c : ℝ) (h : 0 ≤ c := by norm_num) : Sc 0 c c c := ⟨by rw [abs_of_nonneg h], by simp⟩

theorem Sc.numneg (c : ℝ) (h : 0 ≤ c := by norm_num) : Sc 0 c (-c) (-c) := (Sc.num c h).neg

theorem Sc.abs_le {k M N x' x : ℝ} (h : Sc k M x' x) (l : ℝ) (hk : 0 ≤ k := by norm_num) (hl : k ≤ l := by norm_num) (hM : M ≤ N := by norm_num) : Sc l N x' x :=
  (h.mono hl).le (hk.trans hl) hM

theorem Sc.of_app {k e x' x M : ℝ} (h : App M e x' x) (he : e ≤ k * u * M) : Sc k M x' x := ⟨h.1, h.2.trans he⟩

theorem Sc.cube {cube : ℝ → ℝ} (hc : Cube cube) {k M x' x : ℝ} (h : Sc k M x' x) (h0 : 0 ≤ k) (hk : k ≤ 100) :
    Sc (3 * k + 2.02) (M ^ 3) (cube x') (x ^ 3) := by
  have hM := h.nonneg
  have hu := u_pos
  have h3 := ((h.mul h h0 (by linarith) h0 (by linarith)).mul h (by linarith) (by linarith) h0 (by linarith)).mono (l := 3 * k + 0.01) (by linarith)
  have e1 : x' * x' * x' = x' ^ 3 := by ring
  have e2 : x * x * x = x ^ 3 := by ring
  have e3 : M * M * M = M ^ 3 := by ring
  rw [e1, e2, e3] at h3
  refine ⟨h3.1, ?_⟩
  have hM3 : 0 ≤ M ^ 3 := by positivity
  have a : |x' ^ 3| ≤ M ^ 3 + (3 * k + 0.01) * u * M ^ 3 := by
    have := abs_add_le (x' ^ 3 - x ^ 3) (x ^ 3)
    rw [sub_add_cancel] at this
    linarith [h3.1, h3.2]
  have b := (hc x').trans (mul_le_mul_of_nonneg_left a (by positivity))
  have t := abs_add_le (cube x' - x' ^ 3) (x' ^ 3 - x ^ 3)
  rw [sub_add_sub_cancel] at t
  have d := mul_le_mul_of_nonneg_right (ku' (k := 3 * k + 0.01) (by linarith)) (mul_nonneg hu.le hM3)
  have := h3.2
  nlinarith [mul_nonneg hu.le hM3]

end Verif.Rounding

namespace Verif.RoundedTides
open Verif Verif.Rounded Verif.Rounding Verif.RoundedCip
open Verif.SolidTide (Sph Body cart2sph)

/-! ### Pole tide -/

section
variable {fl : Arith} (hf : Faithful fl)
include hf

/-- Deviation from the secular pole, in arcseconds. -/
theorem mcoeffs_sc {dt' dt xp yp : ℝ} (hd : |dt' - dt| ≤ 4 * u * 100) (hr : |dt| ≤ 100) (hx : |xp| ≤ 1) (hy : |yp| ≤ 1) :
    Sc 3.1 1.3 (mcoeffs fl dt' xp yp).1 (PoleTide.mcoeffs dt xp yp).1 ∧ Sc 6.1 1.7 (mcoeffs fl dt' xp yp).2 (PoleTide.mcoeffs dt xp yp).2 := by
  have d : Sc 4 100 dt' dt := ⟨hr, hd⟩
  have X : Sc 0 1 xp xp := (Sc.exact xp).le (by norm_num) hx
  have Y : Sc 0 1 yp yp := (Sc.exact yp).le (by norm_num) hy
  have s1 := Sc.addf hf 6.01 (Sc.num 55) (Sc.mulp hf 0 (Sc.lit hf (c := 1.677) 1.677 (by norm_num [abs_of_pos])) d)
  have s2 := Sc.addf hf 6.01 (Sc.num 320.5) (Sc.mulp hf 1 (Sc.lit hf (c := 3.460) 3.460 (by norm_num [abs_of_pos])) d)
  have m := Sc.lit hf (c := 1e-3) 1e-3 (by norm_num [abs_of_pos])
  have t1 := Sc.mulp hf 2 (s1.abs_le (N := 223) 8) m
  have t2 := Sc.mulp hf 3 (s2.abs_le (N := 667) 8) m
  have T1 : |xp - fl.pr 2 ((secularPole fl dt').1 * lit fl 1e-3) - (xp - (PoleTide.secularPole dt).1 * 1e-3)| ≤ 10.01 * u * (223 * 1e-3) := by
    rw [show xp - fl.pr 2 ((secularPole fl dt').1 * lit fl 1e-3) - (xp - (PoleTide.secularPole dt).1 * 1e-3) =
      -(fl.pr 2 ((secularPole fl dt').1 * lit fl 1e-3) - (PoleTide.secularPole dt).1 * 1e-3) by ring, abs_neg]
    exact t1.2.trans (le_of_eq (by norm_num))
  have T2 : |yp - fl.pr 3 ((secularPole fl dt').2 * lit fl 1e-3) - (yp - (PoleTide.secularPole dt).2 * 1e-3)| ≤ 10.01 * u * (667 * 1e-3) := by
    rw [show yp - fl.pr 3 ((secularPole fl dt').2 * lit fl 1e-3) - (yp - (PoleTide.secularPole dt).2 * 1e-3) =
      -(fl.pr 3 ((secularPole fl dt').2 * lit fl 1e-3) - (PoleTide.secularPole dt).2 * 1e-3) by ring, abs_neg]
    exact t2.2.trans (le_of_eq (by norm_num))
  have hu := u_pos
  have b1 : |xp - (PoleTide.secularPole dt).1 * 1e-3| ≤ 1.3 := (abs_sub _ _).trans (by
    have : |(PoleTide.secularPole dt).1 * 1e-3| ≤ 223 * 1e-3 := t1.1
    linarith)
  have b2 : |yp - (PoleTide.secularPole dt).2 * 1e-3| ≤ 1.7 := (abs_sub _ _).trans (by
    have : |(PoleTide.secularPole dt).2 * 1e-3| ≤ 667 * 1e-3 := t2.1
    linarith)
  have r1 : Sc 2 1.3 (xp - fl.pr 2 ((secularPole fl dt').1 * lit fl 1e-3)) (xp - (PoleTide.secularPole dt).1 * 1e-3) := ⟨b1, T1.trans (by linarith)⟩
  have r2 : Sc 5 1.7 (yp - fl.pr 3 ((secularPole fl dt').2 * lit fl 1e-3)) (yp - (PoleTide.secularPole dt).2 * 1e-3) := ⟨b2, T2.trans (by linarith)⟩
  exact ⟨(r1.fl hf (by norm_num)).mono (by norm_num), ((r2.fl hf (by norm_num)).mono (by norm_num)).neg⟩


omit hf in
/-- A component of a product of matrix and vector. -/
theorem dot_sc {dot : V3 → V3 → ℝ} (hd : DotProduct dot) {a' a b' b : V3} {k l A B C X Y Z : ℝ} (h0 : 0 ≤ k) (hk : k ≤ 400) (l0 : 0 ≤ l) (hl : l ≤ 400)
    (ax : Sc k A a'.x a.x) (ay : Sc k B a'.y a.y) (az : Sc k C a'.z a.z) (bx : Sc l X b'.x b.x) (yb : Sc l Y b'.y b.y) (bz : Sc l Z b'.z b.z) :
    Sc (k + l + 4.01) (A * X + B * Y + C * Z) (dot a' b') (a.x * b.x + a.y * b.y + a.z * b.z) := by
  have hu := u_pos
  have p1 := ax.mul bx h0 (by linarith) l0 (by linarith)
  have p2 := ay.mul yb h0 (by linarith) l0 (by linarith)
  have p3 := az.mul bz h0 (by linarith) l0 (by linarith)
  have s := (p1.add p2).add p3
  have n1 := p1.nonneg
  have n2 := p2.nonneg
  have n3 := p3.nonneg
  refine ⟨s.1, ?_⟩
  have big : ∀ {M x' x : ℝ}, Sc (k + l + 0.001) M x' x → |x'| ≤ 1.001 * M := by
    intro M x' x h
    have := abs_add_le (x' - x) x
    rw [sub_add_cancel] at this
    have h3 := mul_le_mul_of_nonneg_right (ku' (k := k + l + 0.001) (by linarith)) h.nonneg
    linarith [h.1, h.2, h.nonneg]
  have q := hd a' b'
  have t := abs_add_le (dot a' b' - (a'.x * b'.x + a'.y * b'.y + a'.z * b'.z)) (a'.x * b'.x + a'.y * b'.y + a'.z * b'.z - (a.x * b.x + a.y * b.y + a.z * b.z))
  rw [sub_add_sub_cancel] at t
  have g := add_le_add (add_le_add (big p1) (big p2)) (big p3)
  have q' := q.trans (mul_le_mul_of_nonneg_left g (by positivity))
  have := s.2
  nlinarith [mul_nonneg hu.le n1, mul_nonneg hu.le n2, mul_nonneg hu.le n3]

omit hf in
/-- Sine and cosine of an angle that is known up to a few units. -/
theorem trig_sc {fsin fcos : ℝ → ℝ} (hT : Trig fsin fcos) {k x' x : ℝ} (h : Near (k * u) x' x) :
    Sc (k + 2) 1 (fsin x') (Real.sin x) ∧ Sc (k + 2) 1 (fcos x') (Real.cos x) :=
  ⟨Sc.of_app (app_sin hT h) (by linarith), Sc.of_app (app_cos hT h) (by linarith)⟩

/-- The deformation by the pole tide. -/
theorem deformation_sc {fsin fcos : ℝ → ℝ} (hT : Trig fsin fcos) {dot : V3 → V3 → ℝ} (hD : DotProduct dot) {dt' dt xp yp lon lat : ℝ}
    (hd : |dt' - dt| ≤ 4 * u * 100) (hr : |dt| ≤ 100) (hx : |xp| ≤ 1) (hy : |yp| ≤ 1) (hl : |lat| ≤ 2) :
    let v' := deformation fl fsin fcos dot dt' xp yp lon lat
    let v := PoleTide.deformation dt xp yp lon lat
    Sc 71 0.4 v'.x v.x ∧ Sc 71 0.4 v'.y v.y ∧ Sc 71 0.4 v'.z v.z := by
  intro v' v
  have hu := u_pos
  obtain ⟨m1, m2⟩ := mcoeffs_sc hf hd hr hx hy
  have th : Sc 3.2 4 (fl (fl (DPI fl / 2) - lat)) (Real.pi / 2 - lat) := by
    have h1 : Sc 1 3.15 (DPI fl) Real.pi := by
      have := app_DPI hf
      exact ⟨this.1.trans (by norm_num), this.2.trans (by linarith)⟩
    have h2 := (h1.div (y := 2) (y' := 2) (l := 0) two_ne_zero (by norm_num) (by norm_num) (by norm_num) (by norm_num) (by norm_num)).fl hf (by norm_num)
    rw [abs_two] at h2
    have h3 := Sc.subf hf 2.1 h2 ((Sc.exact lat).le (by norm_num) hl)
    exact h3.abs_le 3.2
  obtain ⟨sl, cl⟩ := trig_sc hT (k := 0) (x' := lon) (x := lon) ⟨0, by simp⟩
  obtain ⟨st, ct⟩ := trig_sc hT (k := 12.8) (x' := fl (fl (DPI fl / 2) - lat)) (x := Real.pi / 2 - lat)
    ⟨0, by simpa using th.2.trans (le_of_eq (by ring))⟩
  replace sl := sl.abs_le (N := 1) 2
  replace cl := cl.abs_le (N := 1) 2
  replace st := st.abs_le (N := 1) 14.8
  replace ct := ct.abs_le (N := 1) 14.8
  have s2t := Sc.mulf hf (Sc.mulf hf (Sc.num 2) st) ct
  have c2t := Sc.subf hf 32 (Sc.mulp hf 4 (Sc.mulf hf (Sc.num 2) ct) ct) (Sc.num 1)
  have f1 := Sc.addf hf 9.2 (Sc.mulp hf 5 m1 cl) (Sc.mulp hf 6 m2 sl)
  have f2 := Sc.subf hf 9.2 (Sc.mulp hf 7 m1 sl) (Sc.mulp hf 8 m2 cl)
  have f3 := Sc.addf hf 9.2 (Sc.mulp hf 9 m1 cl) (Sc.mulp hf 10 m2 sl)
  have s0 := (Sc.mulf hf (Sc.mulf hf (Sc.numneg 9) c2t) f1).abs_le (N := 81) 46
  have s1 := (Sc.mulf hf (Sc.mulf hf (Sc.num 9) ct) f2).abs_le (N := 27) 46
  have s2 := (Sc.mulf hf (Sc.mulf hf (Sc.numneg 33) s2t) f3).abs_le (N := 198) 46
  have r00 := (Sc.mulf hf ct cl).abs_le (N := 1) 18
  have r10 := (Sc.mulf hf ct sl).abs_le (N := 1) 18
  have r02 := (Sc.mulf hf st cl).abs_le (N := 1) 18
  have r12 := (Sc.mulf hf st sl).abs_le (N := 1) 18
  have m := Sc.lit hf (c := 1e-3) 1e-3 (by norm_num [abs_of_pos])
  have zero : Sc 18 0 (0 : ℝ) 0 := by simp [Sc]
  have x := (dot_sc hD (by norm_num) (by norm_num) (by norm_num) (by norm_num) (a' := ⟨_, _, _⟩) (a := ⟨_, _, _⟩) (b' := ⟨_, _, _⟩) (b := ⟨_, _, _⟩)
    r00 (sl.neg.abs_le (N := 1) 18) r02 s0 s1 s2)
  have y := (dot_sc hD (by norm_num) (by norm_num) (by norm_num) (by norm_num) (a' := ⟨_, _, _⟩) (a := ⟨_, _, _⟩) (b' := ⟨_, _, _⟩) (b := ⟨_, _, _⟩)
    r10 (cl.abs_le (N := 1) 18) r12 s0 s1 s2)
  have z := (dot_sc hD (by norm_num) (by norm_num) (by norm_num) (by norm_num) (a' := ⟨_, _, _⟩) (a := ⟨_, _, _⟩) (b' := ⟨_, _, _⟩) (b := ⟨_, _, _⟩)
    (st.neg.abs_le (N := 1) 18) zero (ct.abs_le (N := 1) 18) s0 s1 s2)
  exact ⟨(Sc.mulf hf x m).abs_le 71, (Sc.mulf hf y m).abs_le 71, (Sc.mulf hf z m).abs_le 71⟩


/-! ### Solid Earth tide, first step -/

theorem body_sc {fsin fcos : ℝ → ℝ} (hT : Trig fsin fcos) {b : Sph} {v : V3} (hb : Spherical b v) {Re : ℝ} (hR : 0 < Re) (hv : Re ≤ v.norm) (ratio : ℝ) :
    ∃ dCt dSt : Fin 12 → ℝ, SolidTide.anelastic Re ratio v = (fun i => dCt i * (ratio * (Re / v.norm) ^ 3), fun i => dSt i * (ratio * (Re / v.norm) ^ 3)) ∧
      (∀ i, Sc 85 0.28 (bodyCt fl fsin fcos Re b i) (dCt i)) ∧ ∀ i, Sc 85 0.28 (bodySt fl fsin fcos Re b i) (dSt i) := by
  refine ⟨_, _, rfl, ?_, ?_⟩
  all_goals
    have hn : 0 < v.norm := hR.trans_le hv
    obtain ⟨t, w⟩ := trig_sc hT (k := 8) (x' := b.lat) (x := (cart2sph v).lat) ⟨0, by rw [Int.cast_zero, mul_zero, sub_zero]; exact hb.lat⟩
    obtain ⟨sl, cl⟩ := trig_sc hT (k := 8) (x' := b.lon) (x := (cart2sph v).lon) hb.lon
    replace t := t.abs_le (N := 1) 10
    replace w := w.abs_le (N := 1) 10
    replace sl := sl.abs_le (N := 1) 10
    replace cl := cl.abs_le (N := 1) 10
    have u2 := (Sc.mulf hf w w).abs_le (N := 1) 21.1
    have t2 := (Sc.mulf hf t t).abs_le (N := 1) 21.1
    have P20 := Sc.mulf hf (Sc.mulf hf (Sc.sqrt1 hf (q := 5) 2.2361) (Sc.num 0.5)) (Sc.subf hf 23 (Sc.mulp hf 0 (Sc.num 3) t2) (Sc.num 1))
    have P21 := Sc.mulf hf (Sc.mulf hf (Sc.mulf hf (Sc.sqrt2 hf (q := 5 / 3) 1.2911) (Sc.num 3)) t) w
    have P22 := Sc.mulf hf (Sc.mulf hf (Sc.sqrt2 hf (q := 5 / 12) 0.6455) (Sc.num 3)) u2
    have P30 := Sc.mulf hf (Sc.mulf hf (Sc.mulf hf (Sc.num 0.5) t) (Sc.sqrt1 hf (q := 7) 2.6458)) (Sc.subf hf 23 (Sc.mulp hf 1 (Sc.num 5) t2) (Sc.num 3))
    have h15 : Sc 0 1.5 (1.5 : ℝ) (3 / 2) := ⟨by norm_num [abs_of_pos], by norm_num⟩
    have P31 := Sc.mulf hf (Sc.mulf hf (Sc.mulf hf h15 (Sc.subf hf 23 (Sc.mulp hf 2 (Sc.num 5) t2) (Sc.num 1))) w) (Sc.sqrt2 hf (q := 7 / 6) 1.0802)
    have P32 := Sc.mulf hf (Sc.mulf hf (Sc.mulf hf (Sc.num 15) (Sc.sqrt2 hf (q := 7 / 60) 0.3416)) t) u2
    have P33 := Sc.mulf hf (Sc.mulf hf (Sc.mulf hf (Sc.num 15) u2) w) (Sc.sqrt2 hf (q := 14 / 720) 0.1395)
    have c2l := (Sc.subf hf 21.1 (Sc.mulp hf 3 cl cl) (Sc.mulp hf 4 sl sl)).abs_le (N := 2) 22.2
    have s2l := (Sc.mulf hf (Sc.mulf hf (Sc.num 2) cl) sl).abs_le (N := 2) 22.2
    have c3l := Sc.subf hf 35 (Sc.mulp hf 5 (Sc.mulf hf (Sc.mulf hf (Sc.num 4) cl) cl) cl) (Sc.mulp hf 6 (Sc.num 3) cl)
    have s3l := Sc.addf hf 35 (Sc.mulp hf 11 (Sc.mulf hf (Sc.mulf hf (Sc.numneg 4) sl) sl) sl) (Sc.mulp hf 12 (Sc.num 3) sl)
    have fac2 := Sc.lit hf (c := 1 / 5) 0.2 (by norm_num [abs_of_pos])
    have q : Sc 5.1 1 (fl (Re / b.r)) (Re / v.norm) := by
      have h := ((Sc.num Re hR.le).div (y := v.norm) (y' := b.r) (l := 4) hn.ne' (by rw [abs_of_pos hn]; exact hb.r) (by norm_num) (by norm_num)
        (by norm_num) (by norm_num)).fl hf (by norm_num)
      refine (h.mono (l := 5.1) (by norm_num)).le (by norm_num) ?_
      rw [abs_of_pos hn, div_le_one hn]
      exact hv
    have fac3 : Sc 6.2 0.142858 (fl (fl (Re / b.r) / 7)) (Re / v.norm / 7) := by
      have h := (q.div (y := 7) (y' := 7) (l := 0) (by norm_num) (by norm_num) (by norm_num) (by norm_num) (by norm_num) (by norm_num)).fl hf (by norm_num)
      rw [abs_of_pos (by norm_num : (0 : ℝ) < 7)] at h
      exact h.abs_le 6.2
    have zero : Sc 85 0.28 (0 : ℝ) 0 := ⟨by norm_num, by rw [sub_self, abs_zero]; exact mul_nonneg (mul_nonneg (by norm_num) u_pos.le) (by norm_num)⟩
    have l1 := Sc.lit hf (c := 0.30190) 0.30190 (by norm_num [abs_of_pos])
    have l2 := Sc.lit hf (c := 0.29830) 0.29830 (by norm_num [abs_of_pos])
    have l3 := Sc.lit hf (c := -0.00144) 0.00144 (by rw [abs_neg]; norm_num [abs_of_pos])
    have l4 := Sc.lit hf (c := 0.30102) 0.30102 (by norm_num [abs_of_pos])
    have l5 := Sc.lit hf (c := -0.00130) 0.00130 (by rw [abs_neg]; norm_num [abs_of_pos])
    have l6 := Sc.lit hf (c := 0.093) 0.093 (by norm_num [abs_of_pos])
    have l7 := Sc.lit hf (c := 0.094) 0.094 (by norm_num [abs_of_pos])
    have l8 := Sc.lit hf (c := -0.00089) 0.00089 (by rw [abs_neg]; norm_num [abs_of_pos])
    have l9 := Sc.lit hf (c := -0.00080) 0.00080 (by rw [abs_neg]; norm_num [abs_of_pos])
    have l10 := Sc.lit hf (c := -0.00057) 0.00057 (by rw [abs_neg]; norm_num [abs_of_pos])
    intro i
  · fin_cases i
    · exact (Sc.mulf hf (Sc.mulf hf fac2 P20) l1).abs_le 85
    · exact (Sc.mulf hf (Sc.mulf hf fac2 P21) (Sc.addf hf 13 (Sc.mulp hf 7 l2 cl) (Sc.mulp hf 8 l3 sl))).abs_le 85
    · exact (Sc.mulf hf (Sc.mulf hf fac2 P22) (Sc.addf hf 25 (Sc.mulp hf 9 l4 c2l) (Sc.mulp hf 10 l5 s2l))).abs_le 85
    · exact (Sc.mulf hf (Sc.mulf hf fac3 P30) l6).abs_le 85
    · exact (Sc.mulf hf (Sc.mulf hf (Sc.mulf hf fac3 P31) l6) cl).abs_le 85
    · exact (Sc.mulf hf (Sc.mulf hf (Sc.mulf hf fac3 P32) l6) c2l).abs_le 85
    · exact (Sc.mulf hf (Sc.mulf hf (Sc.mulf hf fac3 P33) l7) c3l).abs_le 85
    · exact (Sc.mulf hf (Sc.mulf hf fac2 P20) l8).abs_le 85
    · exact (Sc.mulf hf (Sc.mulf hf (Sc.mulf hf fac2 P21) l9) cl).abs_le 85
    · exact (Sc.mulf hf (Sc.mulf hf (Sc.mulf hf fac2 P22) l10) c2l).abs_le 85
    · exact zero
    · exact zero
  · fin_cases i
    · exact zero
    · exact (Sc.mulf hf (Sc.mulf hf fac2 P21) (Sc.subf hf 13 (Sc.mulp hf 13 l2 sl) (Sc.mulp hf 14 l3 cl))).abs_le 85
    · exact (Sc.mulf hf (Sc.mulf hf fac2 P22) (Sc.subf hf 25 (Sc.mulp hf 15 l4 s2l) (Sc.mulp hf 16 l5 c2l))).abs_le 85
    · exact zero
    · exact (Sc.mulf hf (Sc.mulf hf (Sc.mulf hf fac3 P31) l6) sl).abs_le 85
    · exact (Sc.mulf hf (Sc.mulf hf (Sc.mulf hf fac3 P32) l6) s2l).abs_le 85
    · exact (Sc.mulf hf (Sc.mulf hf (Sc.mulf hf fac3 P33) l7) s3l).abs_le 85
    · exact zero
    · exact (Sc.mulf hf (Sc.mulf hf (Sc.mulf hf fac2 P21) l9) sl).abs_le 85
    · exact (Sc.mulf hf (Sc.mulf hf (Sc.mulf hf fac2 P22) l10) s2l).abs_le 85
    · exact zero
    · exact zero


/-- The factor of a body. -/
theorem fac_sc {cube : ℝ → ℝ} (hc : Cube cube) {b : Sph} {v : V3} (hb : Spherical b v) {Re : ℝ} (hR : 0 < Re) (hv : Re ≤ v.norm) (ratio : ℝ) :
    Sc 19.4 |pull Re ⟨ratio, v⟩| (fl (fl ratio * cube (fl (Re / b.r)))) (ratio * (Re / v.norm) ^ 3) := by
  have hn : 0 < v.norm := hR.trans_le hv
  have q : Sc 5.1 (Re / v.norm) (fl (Re / b.r)) (Re / v.norm) := by
    have h := ((Sc.num Re hR.le).div (y := v.norm) (y' := b.r) (l := 4) hn.ne' (by rw [abs_of_pos hn]; exact hb.r) (by norm_num) (by norm_num)
      (by norm_num) (by norm_num)).fl hf (by norm_num)
    rw [abs_of_pos hn] at h
    exact h.mono (by norm_num)
  have c := q.cube hc (by norm_num) (by norm_num)
  have r := Sc.of_rel (Rel.one hf.toRounds ratio)
  have e : |pull Re ⟨ratio, v⟩| = |ratio| * (Re / v.norm) ^ 3 := by
    unfold pull
    rw [abs_mul, abs_of_nonneg (by positivity : 0 ≤ (Re / v.norm) ^ 3)]
  rw [e]
  exact (Sc.mulf hf r c).mono (by norm_num)

/-- Both bodies. -/
theorem step1_sc {fsin fcos cube : ℝ → ℝ} (hT : Trig fsin fcos) (hc : Cube cube) {sph : V3 → Sph} {rMoon rSun : V3} (hm : Spherical (sph rMoon) rMoon)
    (hs : Spherical (sph rSun) rSun) {Re : ℝ} (hR : 0 < Re) (hvm : Re ≤ rMoon.norm) (hvs : Re ≤ rSun.norm) (sr mr : ℝ) (i : Fin 12) :
    Sc 107.5 (0.28 * (|pull Re ⟨sr, rSun⟩| + |pull Re ⟨mr, rMoon⟩|)) ((step1 fl fsin fcos cube sph Re (fl sr) (fl mr) rMoon rSun).1 i)
      ((SolidTide.step1 Re sr mr rMoon rSun).1 i) ∧
    Sc 107.5 (0.28 * (|pull Re ⟨sr, rSun⟩| + |pull Re ⟨mr, rMoon⟩|)) ((step1 fl fsin fcos cube sph Re (fl sr) (fl mr) rMoon rSun).2 i)
      ((SolidTide.step1 Re sr mr rMoon rSun).2 i) := by
  obtain ⟨Cs, Ss, e1, c1, s1⟩ := body_sc hf hT hs hR hvs sr
  obtain ⟨Cm, Sm, e2, c2, s2⟩ := body_sc hf hT hm hR hvm mr
  have f1 := fac_sc hf hc hs hR hvs sr
  have f2 := fac_sc hf hc hm hR hvm mr
  have z : Sc 0 0 (0 : ℝ) 0 := by simp [Sc]
  unfold SolidTide.step1
  rw [e1, e2, mul_add]
  have A : ∀ {x' x y' y : ℝ} (j : ℕ), Sc 85 0.28 x' x → Sc 85 0.28 y' y → Sc 107.5 (0.28 * |pull Re ⟨sr, rSun⟩| + 0.28 * |pull Re ⟨mr, rMoon⟩|)
      (fl (fl (0 + fl.pr j (x' * fl (fl sr * cube (fl (Re / (sph rSun).r))))) + fl.pr j (y' * fl (fl mr * cube (fl (Re / (sph rMoon).r))))))
      (0 + x * (sr * (Re / rSun.norm) ^ 3) + y * (mr * (Re / rMoon.norm) ^ 3)) := by
    intro x' x y' y j hx hy
    have p := Sc.mulp hf j hx f1
    have q := Sc.mulp hf j hy f2
    have r := Sc.addf hf 106.45 (Sc.addf hf 105.42 z p) q
    rw [zero_add] at r
    exact r.mono (by norm_num)
  exact ⟨A 17 (c1 i) (c2 i), A 18 (s1 i) (s2 i)⟩

end

end Verif.RoundedTides
