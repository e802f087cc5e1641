import Verif.Model.RoundedState
import Verif.Spec.RoundedState
import Verif.Props.RoundedRotation
import Verif.Proof.Frames
/-
Lemmas for C122.
-/
namespace Verif.RoundedState
open Verif Verif.Rounding Verif.Rounded Verif.RoundedGcrs

theorem size_nonneg (v : V3) : 0 ≤ size v := by unfold size; positivity

theorem QNear.sq {e : ℝ} {q p : Quat} (h : QNear e q p) (he : e ≤ 1e-9) : |q.sqNorm - 1| ≤ 1e-6 := by
  have key : ∀ {p : Quat}, QApp e q p → |q.sqNorm - 1| ≤ 1e-6 := by
    intro p h
    have h1 := abs_norm_sub_norm_le (toH q) (toH p)
    rw [h.2] at h1
    have h2 := abs_le.mp (h1.trans (h.1.trans he))
    have h3 : q.sqNorm = ‖toH q‖ ^ 2 := by rw [norm_sq]; unfold Quat.sqNorm toH; simp only; ring
    rw [h3, abs_le]
    constructor <;> nlinarith
  exact h.elim key key

theorem comp_bound {q : Quat} (h : |q.sqNorm - 1| ≤ 1e-6) : |q.w| ≤ 1.001 ∧ |q.x| ≤ 1.001 ∧ |q.y| ≤ 1.001 ∧ |q.z| ≤ 1.001 := by
  have h1 := (abs_le.mp h).2
  unfold Quat.sqNorm at h1
  refine ⟨?_, ?_, ?_, ?_⟩ <;> apply abs_le_of_sq_le_sq _ (by norm_num) <;>
    nlinarith [mul_self_nonneg q.w, mul_self_nonneg q.x, mul_self_nonneg q.y, mul_self_nonneg q.z]

section
variable {fl : Rounded.Arith} (hf : Faithful fl)

include hf in
/-- One coordinate of a cross product. -/
theorem cross_app (i j : ℕ) {a b M e c' c d' d : ℝ} (ha : |a| ≤ 1.001) (hb : |b| ≤ 1.001) (hc : App M e c' c) (hd : App M e d' d) (he : e ≤ M) :
    App (2.002 * M) (2.003 * e + 4.1 * u * M + 5 * u * e) (fl (fl.pr i (a * c') - fl.pr j (b * d'))) (a * c - b * d) := by
  have hu := u_pos
  have hul := u_lt
  have M0 := (abs_nonneg _).trans hc.1
  have e0 := (abs_nonneg _).trans hc.2
  have xa : App 1.001 0 a a := ⟨ha, by simp⟩
  have xb : App 1.001 0 b b := ⟨hb, by simp⟩
  have p := ((xa.mul hc).pr hf i).mono (M' := 1.001 * M) (e' := 1.001 * e + 1.001 * u * (M + e)) le_rfl (by nlinarith)
  have q := ((xb.mul hd).pr hf j).mono (M' := 1.001 * M) (e' := 1.001 * e + 1.001 * u * (M + e)) le_rfl (by nlinarith)
  have h := ((p.sub q).fl hf)
  refine h.mono (by linarith) ?_
  have k1 : u * u * (M + e) ≤ 1e-15 * u * (M + e) := mul_le_mul_of_nonneg_right u_sq (by linarith)
  nlinarith [mul_nonneg hu.le M0, mul_nonneg hu.le e0]

include hf in
/-- One coordinate of Eigen's product: `v + w t + (a s - b r)` where `t`, `s`, `r` are twice the coordinates of a cross product. -/
theorem turn_app (i j k : ℕ) {S v w a b t' t r' r s' s : ℝ} (hv : |v| ≤ S) (hw : |w| ≤ 1.001) (ha : |a| ≤ 1.001) (hb : |b| ≤ 1.001)
    (ht : App (2.01 * S) (10.4 * u * S) t' t) (hs : App (2.01 * S) (10.4 * u * S) s' s) (hr : App (2.01 * S) (10.4 * u * S) r' r) :
    |fl (fl (v + fl.pr k (w * t')) + fl (fl.pr i (a * s') - fl.pr j (b * r'))) - (v + w * t + (a * s - b * r))| ≤ 56 * u * S := by
  have hu := u_pos
  have hul := u_lt
  have S0 := (abs_nonneg _).trans hv
  have uS : 0 ≤ u * S := by positivity
  have uS2 : u * (u * S) ≤ 1e-15 * (u * S) := mul_le_mul_of_nonneg_right (by linarith) uS
  have e1 : 10.4 * u * S ≤ 2.01 * S := by nlinarith
  have xv : App S 0 v v := ⟨hv, by simp⟩
  have xw : App 1.001 0 w w := ⟨hw, by simp⟩
  have p := ((xw.mul ht).pr hf k).mono (M' := 2.013 * S) (e' := 12.5 * u * S) (by linarith) (by nlinarith)
  have s1 := ((xv.add p).fl hf).mono (M' := 3.013 * S) (e' := 15.6 * u * S) (by linarith) (by nlinarith)
  have c := (cross_app hf i j ha hb hs hr e1).mono (M' := 4.03 * S) (e' := 29.2 * u * S) (by linarith) (by nlinarith)
  have f := ((s1.add c).fl hf)
  refine f.2.trans ?_
  nlinarith

end

/-- Eigen's product without vector instructions is accurate. -/
theorem transformVector_ok {fl : Rounded.Arith} (hf : Faithful fl) : Turns (transformVector fl) := by
  have hu := u_pos
  have hul := u_lt
  intro q v hq
  obtain ⟨hw, hx, hy, hz⟩ := comp_bound hq
  have S0 := size_nonneg v
  have ax := abs_nonneg v.x
  have ay := abs_nonneg v.y
  have az := abs_nonneg v.z
  have bx : |v.x| ≤ size v := by unfold size; linarith
  have by' : |v.y| ≤ size v := by unfold size; linarith
  have bz : |v.z| ≤ size v := by unfold size; linarith
  have uS : 0 ≤ u * size v := by positivity
  have uS2 : u * (u * size v) ≤ 1e-15 * (u * size v) := mul_le_mul_of_nonneg_right (by linarith) uS
  -- twice a coordinate of the first cross product
  have dbl : ∀ (i j : ℕ) {a b c d : ℝ}, |a| ≤ 1.001 → |b| ≤ 1.001 → |c| + |d| ≤ size v →
      App (2.01 * size v) (10.4 * u * size v) (fl (fl (fl.pr i (a * c) - fl.pr j (b * d)) + fl (fl.pr i (a * c) - fl.pr j (b * d)))) (2 * (a * c - b * d)) := by
    intro i j a b c d ha hb hcd
    have c0 := abs_nonneg c
    have d0 := abs_nonneg d
    have xc : App (size v) 0 c c := ⟨by linarith, by simp⟩
    have xd : App (size v) 0 d d := ⟨by linarith, by simp⟩
    have h := (cross_app hf i j ha hb xc xd S0).2
    have hm : |a * c - b * d| ≤ 1.001 * size v := by
      refine (abs_sub _ _).trans ?_
      rw [abs_mul, abs_mul]
      have k1 := mul_le_mul_of_nonneg_right ha c0
      have k2 := mul_le_mul_of_nonneg_right hb d0
      nlinarith
    have h1 : App (1.001 * size v) (4.1 * u * size v) (fl (fl.pr i (a * c) - fl.pr j (b * d))) (a * c - b * d) := ⟨hm, h.trans (by linarith)⟩
    have h2 := ((h1.add h1).fl hf).mono (M' := 2.01 * size v) (e' := 10.4 * u * size v) (by linarith) (by nlinarith)
    rwa [show a * c - b * d + (a * c - b * d) = 2 * (a * c - b * d) by ring] at h2
  have tx := dbl 0 1 (a := q.y) (b := q.z) (c := v.z) (d := v.y) hy hz (by unfold size; linarith)
  have ty := dbl 2 3 (a := q.z) (b := q.x) (c := v.x) (d := v.z) hz hx (by unfold size; linarith)
  have tz := dbl 4 5 (a := q.x) (b := q.y) (c := v.y) (d := v.x) hx hy (by unfold size; linarith)
  refine ⟨?_, ?_, ?_⟩
  · refine le_trans (le_of_eq ?_) (turn_app hf 9 10 6 bx hw hy hz tx tz ty)
    congr 1
    simp only [transformVector, add, cross, M3.mulVec_def, Quat.mat]
    ring
  · refine le_trans (le_of_eq ?_) (turn_app hf 11 12 7 by' hw hz hx ty tx tz)
    congr 1
    simp only [transformVector, add, cross, M3.mulVec_def, Quat.mat]
    ring
  · refine le_trans (le_of_eq ?_) (turn_app hf 13 14 8 bz hw hx hy tz ty tx)
    congr 1
    simp only [transformVector, add, cross, M3.mulVec_def, Quat.mat]
    ring

/-- The product of a matrix and a vector from left to right is accurate. -/
theorem mulVec_ok {fl : Rounded.Arith} (hf : Faithful fl) : MatVec (mulVec fl) := by
  have key : ∀ (k : ℕ) (x y z : ℝ), Dot3 (fl (fl (fl.pr k x + fl.pr (k + 1) y) + fl.pr (k + 2) z)) x y z := by
    intro k x y z
    have hu := u_pos
    have hul := u_lt
    have ex : ∀ v : ℝ, App |v| 0 v v := fun v => ⟨le_rfl, by simp⟩
    have h := ((((((ex x).pr hf k).add ((ex y).pr hf (k + 1))).fl hf).add ((ex z).pr hf (k + 2))).fl hf).2
    refine h.trans ?_
    have x0 := abs_nonneg x
    have y0 := abs_nonneg y
    have z0 := abs_nonneg z
    generalize |x| = a at *
    generalize |y| = b at *
    generalize |z| = c at *
    have hs := u_sq
    have c3 : u * u * u ≤ 1e-15 * u := by nlinarith
    have p1 : u * u * (a + b + c) ≤ 1e-15 * u * (a + b + c) := mul_le_mul_of_nonneg_right hs (by linarith)
    have p2 : u * u * u * (a + b + c) ≤ 1e-15 * u * (a + b + c) := mul_le_mul_of_nonneg_right c3 (by linarith)
    have q0 : 0 ≤ u * a := by positivity
    have q1 : 0 ≤ u * b := by positivity
    have q2 : 0 ≤ u * c := by positivity
    have q3 : 0 ≤ u * u * c := by positivity
    have q4 : 0 ≤ u * u * u * c := by positivity
    ring_nf at *
    linarith
  intro a v
  exact ⟨key _ _ _ _, key _ _ _ _, key _ _ _ _⟩

theorem conj_sq (q : Quat) : q.conj.sqNorm = q.sqNorm := by
  unfold Quat.conj Quat.sqNorm
  ring

theorem close_transpose {ε : ℝ} {a b : M3} (h : Close ε a b) : Close ε a.transpose b.transpose := by
  obtain ⟨h1, h2, h3, h4, h5, h6, h7, h8, h9⟩ := h
  exact ⟨h1, h4, h7, h2, h5, h8, h3, h6, h9⟩

theorem mapp_transpose {M e : ℝ} {a b : M3} (h : MApp M e a b) : MApp M e a.transpose b.transpose := by
  obtain ⟨h1, h2, h3, h4, h5, h6, h7, h8, h9⟩ := h
  exact ⟨h1, h4, h7, h2, h5, h8, h3, h6, h9⟩

/-- Entries up to `B`. -/
def Bounded (B : ℝ) (a : M3) : Prop := |a.xx| ≤ B ∧ |a.xy| ≤ B ∧ |a.xz| ≤ B ∧ |a.yx| ≤ B ∧ |a.yy| ≤ B ∧ |a.yz| ≤ B ∧ |a.zx| ≤ B ∧ |a.zy| ≤ B ∧ |a.zz| ≤ B

theorem row_bound {B a b c x y z : ℝ} (ha : |a| ≤ B) (hb : |b| ≤ B) (hc : |c| ≤ B) : |a * x| + |b * y| + |c * z| ≤ B * (|x| + |y| + |z|) := by
  rw [abs_mul, abs_mul, abs_mul]
  have k1 := mul_le_mul_of_nonneg_right ha (abs_nonneg x)
  have k2 := mul_le_mul_of_nonneg_right hb (abs_nonneg y)
  have k3 := mul_le_mul_of_nonneg_right hc (abs_nonneg z)
  linarith

theorem abs3 (a b c : ℝ) : |a + b + c| ≤ |a| + |b| + |c| := by
  have h1 := abs_add_le (a + b) c
  have h2 := abs_add_le a b
  linarith

theorem Bounded.vec {B : ℝ} {a : M3} (h : Bounded B a) (v : V3) : |(a * v).x| ≤ B * size v ∧ |(a * v).y| ≤ B * size v ∧ |(a * v).z| ≤ B * size v := by
  obtain ⟨h1, h2, h3, h4, h5, h6, h7, h8, h9⟩ := h
  exact ⟨(abs3 _ _ _).trans (row_bound h1 h2 h3), (abs3 _ _ _).trans (row_bound h4 h5 h6), (abs3 _ _ _).trans (row_bound h7 h8 h9)⟩

theorem Bounded.size {B : ℝ} {a : M3} (h : Bounded B a) (v : V3) : size (a * v) ≤ 3 * (B * RoundedState.size v) := by
  obtain ⟨h1, h2, h3⟩ := h.vec v
  unfold RoundedState.size at h1 h2 h3 ⊢
  linarith

theorem mapp_bounded {M e : ℝ} {a b : M3} (h : MApp M e a b) : Bounded M b := by
  obtain ⟨h1, h2, h3, h4, h5, h6, h7, h8, h9⟩ := h
  exact ⟨h1.1, h2.1, h3.1, h4.1, h5.1, h6.1, h7.1, h8.1, h9.1⟩

/-- A rotation has entries up to one. -/
theorem rotation_bounded {a : M3} (h : EarthRot.IsRotation a) : Bounded 1 a := by
  have h1 := h.1
  rw [M3.mul_def, M3.one_def] at h1
  simp only [M3.transpose, M3.mk.injEq] at h1
  obtain ⟨k1, -, -, -, k2, -, -, -, k3⟩ := h1
  refine ⟨?_, ?_, ?_, ?_, ?_, ?_, ?_, ?_, ?_⟩ <;> apply abs_le_one_iff_mul_self_le_one.mpr <;>
    nlinarith [mul_self_nonneg a.xx, mul_self_nonneg a.xy, mul_self_nonneg a.xz, mul_self_nonneg a.yx, mul_self_nonneg a.yy, mul_self_nonneg a.yz,
      mul_self_nonneg a.zx, mul_self_nonneg a.zy, mul_self_nonneg a.zz]

section
variable {fl : Rounded.Arith} {rot : Quat → V3 → V3} {mv : M3 → V3 → V3}

/-- A turned vector. -/
theorem turned (ht : Turns rot) {q : Quat} (hq : |q.sqNorm - 1| ≤ 1e-6) {Q : M3} (hc : Close 3.2e-12 q.mat Q) (v : V3) :
    Close3 (3.21e-12 * size v) (rot q v) (Q * v) := by
  obtain ⟨a1, a2, a3⟩ := ht q v hq
  obtain ⟨b1, b2, b3⟩ := position_rounded hc v
  have S0 := size_nonneg v
  have hul := mul_le_mul_of_nonneg_right u_lt.le S0
  have key : ∀ {x y z : ℝ}, |x - y| ≤ 56 * u * size v → |y - z| ≤ 3.2e-12 * size v → |x - z| ≤ 3.21e-12 * size v := by
    intro x y z h1 h2
    have := abs_sub_le x y z
    linarith
  exact ⟨key a1 b1, key a2 b2, key a3 b3⟩

/-- A row of the derivative times a vector. -/
theorem row_app' {r a' a b' b c' c x y z : ℝ} (h : Dot3 r (a' * x) (b' * y) (c' * z)) (ha : App 6.57e-4 1e-15 a' a) (hb : App 6.57e-4 1e-15 b' b)
    (hc : App 6.57e-4 1e-15 c' c) : |r - (a * x + b * y + c * z)| ≤ 1.001e-15 * (|x| + |y| + |z|) := by
  have hul := u_lt
  have hu := u_pos
  have h1 := row_bound (x := x) (y := y) (z := z) ha.abs' hb.abs' hc.abs'
  have h2 : |(a' * x + b' * y + c' * z) - (a * x + b * y + c * z)| ≤ 1e-15 * (|x| + |y| + |z|) := by
    rw [show (a' * x + b' * y + c' * z) - (a * x + b * y + c * z) = (a' - a) * x + (b' - b) * y + (c' - c) * z by ring]
    exact (abs3 _ _ _).trans (row_bound ha.2 hb.2 hc.2)
  have h3 := abs_sub_le r (a' * x + b' * y + c' * z) (a * x + b * y + c * z)
  unfold Dot3 at h
  have S0 : 0 ≤ |x| + |y| + |z| := by positivity
  have h4 := mul_le_mul_of_nonneg_left h1 (by positivity : 0 ≤ 4 * u)
  have h5 := mul_le_mul_of_nonneg_right hul.le S0
  nlinarith

/-- Position and velocity, for a rotation and a derivative that are accurate. -/
theorem state_app (hf : Faithful fl) (ht : Turns rot) (hmv : MatVec mv) {q : Quat} (hq : |q.sqNorm - 1| ≤ 1e-6) {Q dM D : M3} (hc : Close 3.2e-12 q.mat Q)
    (hQ : Bounded 1 Q) (hD : MApp 6.57e-4 1e-15 dM D) (r v : V3) :
    Close3 (3.3e-12 * size r) (rot q r) (Q * r) ∧ Close3 (3.3e-12 * size v + 1.1e-15 * size r) (add fl (rot q v) (mv dM r)) (Q * v + D * r) := by
  have hu := u_pos
  have hul := u_lt
  have R0 := size_nonneg r
  have V0 := size_nonneg v
  obtain ⟨a1, a2, a3⟩ := turned ht hq hc r
  obtain ⟨b1, b2, b3⟩ := turned ht hq hc v
  obtain ⟨m1, m2, m3⟩ := hQ.vec v
  obtain ⟨n1, n2, n3⟩ := (mapp_bounded hD).vec r
  obtain ⟨d1, d2, d3, d4, d5, d6, d7, d8, d9⟩ := hD
  obtain ⟨e1, e2, e3⟩ := hmv dM r
  have f1 := row_app' e1 d1 d2 d3
  have f2 := row_app' e2 d4 d5 d6
  have f3 := row_app' e3 d7 d8 d9
  refine ⟨⟨a1.trans (by linarith), a2.trans (by linarith), a3.trans (by linarith)⟩, ?_⟩
  have key : ∀ {x' x y' y : ℝ}, |x' - x| ≤ 3.21e-12 * size v → |x| ≤ 1 * size v → |y' - y| ≤ 1.001e-15 * size r → |y| ≤ 6.57e-4 * size r →
      |fl (x' + y') - (x + y)| ≤ 3.3e-12 * size v + 1.1e-15 * size r := by
    intro x' x y' y h1 h2 h3 h4
    have hx : App (1 * size v) (3.21e-12 * size v) x' x := ⟨h2, h1⟩
    have hy : App (6.57e-4 * size r) (1.001e-15 * size r) y' y := ⟨h4, h3⟩
    refine ((hx.add hy).fl hf).2.trans ?_
    have := mul_le_mul_of_nonneg_right hul.le (by positivity : 0 ≤ 1 * size v + 6.57e-4 * size r + (3.21e-12 * size v + 1.001e-15 * size r))
    linarith
  exact ⟨key b1 m1 f1 n1, key b2 m2 f2 n2, key b3 m3 f3 n3⟩

end

/-- Rotations that move: the derivative is skew in their frame. -/
theorem skew {N : ℝ → M3} (hN : ∀ x, EarthRot.IsRotation (N x)) {D : M3} (h : ∀ w : V3, Harmonic.Moves (fun x => (N x).transpose * w) (D * w) 0) :
    (N 0) * D + D.transpose * (N 0).transpose = 0 := by
  obtain ⟨a1, a2, a3⟩ := h ⟨1, 0, 0⟩
  obtain ⟨b1, b2, b3⟩ := h ⟨0, 1, 0⟩
  obtain ⟨c1, c2, c3⟩ := h ⟨0, 0, 1⟩
  simp only [M3.mulVec_def, M3.transpose, mul_one, mul_zero, add_zero, zero_add] at a1 a2 a3 b1 b2 b3 c1 c2 c3
  have hc : ∀ x, (N x) * (N x).transpose = 1 := fun x => (hN x).1
  simp only [M3.mul_def, M3.transpose, M3.one_def, M3.mk.injEq] at hc
  have key : ∀ {f g : ℝ → ℝ} {d : ℝ} {c : ℝ}, HasDerivAt f d 0 → (∀ x, f x = c) → d = 0 := by
    intro f g d c hf hc
    have : f = fun _ => c := funext hc
    rw [this] at hf
    exact hf.unique (hasDerivAt_const _ _)
  have k11 := key (g := id) (((a1.mul a1).add (a2.mul a2)).add (a3.mul a3)) (fun x => (hc x).1)
  have k12 := key (g := id) (((a1.mul b1).add (a2.mul b2)).add (a3.mul b3)) (fun x => (hc x).2.1)
  have k13 := key (g := id) (((a1.mul c1).add (a2.mul c2)).add (a3.mul c3)) (fun x => (hc x).2.2.1)
  have k22 := key (g := id) (((b1.mul b1).add (b2.mul b2)).add (b3.mul b3)) (fun x => (hc x).2.2.2.2.1)
  have k23 := key (g := id) (((b1.mul c1).add (b2.mul c2)).add (b3.mul c3)) (fun x => (hc x).2.2.2.2.2.1)
  have k33 := key (g := id) (((c1.mul c1).add (c2.mul c2)).add (c3.mul c3)) (fun x => (hc x).2.2.2.2.2.2.2.2)
  simp only [M3.mul_def, M3.add_def, M3.transpose, M3.zero_def, M3.mk.injEq]
  refine ⟨?_, ?_, ?_, ?_, ?_, ?_, ?_, ?_, ?_⟩ <;> linarith

theorem rotation_t {a : M3} (h : EarthRot.IsRotation a) : EarthRot.IsRotation a.transpose := by
  refine ⟨h.2.1, h.1, ?_⟩
  have h3 := h.2.2
  unfold M3.det M3.transpose at *
  linarith

theorem size_close {ε : ℝ} {a b : V3} (h : Close3 ε a b) : size a ≤ size b + 3 * ε := by
  obtain ⟨h1, h2, h3⟩ := h
  have k1 := abs_sub_abs_le_abs_sub a.x b.x
  have k2 := abs_sub_abs_le_abs_sub a.y b.y
  have k3 := abs_sub_abs_le_abs_sub a.z b.z
  unfold size
  linarith

theorem bounded_close {B ε : ℝ} {A : M3} (hA : Bounded B A) {a b : V3} (h : Close3 ε a b) (hB : 0 ≤ B) : Close3 (B * (3 * ε)) (A * a) (A * b) := by
  have h0 : size ⟨a.x - b.x, a.y - b.y, a.z - b.z⟩ ≤ 3 * ε := by
    obtain ⟨h1, h2, h3⟩ := h
    unfold size
    linarith
  obtain ⟨k1, k2, k3⟩ := hA.vec ⟨a.x - b.x, a.y - b.y, a.z - b.z⟩
  have h1 := mul_le_mul_of_nonneg_left h0 hB
  simp only [M3.mulVec_def] at k1 k2 k3 ⊢
  refine ⟨le_trans (le_of_eq ?_) (k1.trans h1), le_trans (le_of_eq ?_) (k2.trans h1), le_trans (le_of_eq ?_) (k3.trans h1)⟩ <;> congr 1 <;> simp only <;> ring

theorem abs4 (a b c d : ℝ) : |a + b - (c + d)| ≤ |a - c| + |b - d| := by
  rw [add_sub_add_comm]
  exact abs_add_le _ _

section
variable {fl : Rounded.Arith} {rot : Quat → V3 → V3}

theorem Close3.mono {ε δ : ℝ} {a b : V3} (h : Close3 ε a b) (hd : ε ≤ δ) : Close3 δ a b := ⟨h.1.trans hd, h.2.1.trans hd, h.2.2.trans hd⟩

theorem Close3.trans {ε δ : ℝ} {a b c : V3} (h : Close3 ε a b) (k : Close3 δ b c) : Close3 (ε + δ) a c :=
  ⟨(abs_sub_le _ _ _).trans (add_le_add h.1 k.1), (abs_sub_le _ _ _).trans (add_le_add h.2.1 k.2.1), (abs_sub_le _ _ _).trans (add_le_add h.2.2 k.2.2)⟩

/-- A vector that is off, turned by a quaternion that is off. -/
theorem turned2 (ht : Turns rot) {q : Quat} (hq : |q.sqNorm - 1| ≤ 1e-6) {Q : M3} {ε δ : ℝ} (hc : Close ε q.mat Q) (hQ : Bounded 1 Q) {v' v : V3}
    (hv : Close3 δ v' v) : Close3 ((56 * u + ε) * (size v + 3 * δ) + 3 * δ) (rot q v') (Q * v) := by
  have h1 := size_close hv
  have hu := u_pos
  have e0 : 0 ≤ ε := (abs_nonneg _).trans hc.1
  have a : Close3 ((56 * u + ε) * size v') (rot q v') (Q * v') := by
    refine Close3.mono (Close3.trans (ht q v' hq) (b := q.mat * v') (δ := ε * size v') ?_) (by linarith)
    exact position_rounded hc v'
  have b := bounded_close hQ hv zero_le_one
  refine Close3.mono (Close3.trans a b) ?_
  have := mul_le_mul_of_nonneg_left h1 (by positivity : 0 ≤ 56 * u + ε)
  linarith

/-- The cross product with a vector along the third axis. -/
theorem cross_z (hf : Faithful fl) {w' w : ℝ} (hw : App 7.3e-5 3e-20 w' w) {a' a : V3} {δ S : ℝ} (h : Close3 δ a' a) (ha : |a.x| ≤ S ∧ |a.y| ≤ S ∧ |a.z| ≤ S)
    (hS : 0 ≤ S) (hδ : 0 ≤ δ) (hd : δ ≤ 1e-10 * S) :
    Close3 (7.31e-5 * δ + 1e-19 * S) (cross fl 0 ⟨0, 0, w'⟩ a') (V3.cross ⟨0, 0, w⟩ a) := by
  have hu := u_pos
  have hul := u_lt
  have hz : ∀ k, fl.pr k 0 = 0 := fun k => by simpa using hf.prel k 0
  have f0 : fl 0 = 0 := by simpa using hf.rel 0
  have key : ∀ k {x' x : ℝ}, |x' - x| ≤ δ → |x| ≤ S → |fl.pr k (w' * x') - w * x| ≤ 7.305e-5 * δ + 5e-20 * S ∧ |w * x| ≤ 7.3e-5 * S := by
    intro k x' x h1 h2
    have hx : App S δ x' x := ⟨h2, h1⟩
    have m := hw.mul hx
    have p := m.pr hf k
    refine ⟨p.2.trans ?_, m.1⟩
    nlinarith
  obtain ⟨h1, h2, h3⟩ := h
  obtain ⟨a1, a2, a3⟩ := ha
  obtain ⟨y1, y2⟩ := key 1 h2 a2
  obtain ⟨x1, x2⟩ := key 2 h1 a1
  have fin : ∀ {z' z : ℝ}, |z' - z| ≤ 7.305e-5 * δ + 5e-20 * S → |z| ≤ 7.3e-5 * S → |fl z' - z| ≤ 7.31e-5 * δ + 1e-19 * S := by
    intro z' z g1 g2
    have := (App.fl (M := 7.3e-5 * S) (e := 7.305e-5 * δ + 5e-20 * S) hf ⟨g2, g1⟩).2
    refine this.trans ?_
    nlinarith
  unfold cross V3.cross
  refine ⟨?_, ?_, ?_⟩
  · simp only [zero_mul, hz, zero_sub]
    refine fin ?_ (by rw [abs_neg]; exact y2)
    rwa [neg_sub_neg, abs_sub_comm]
  · simp only [zero_mul, hz, sub_zero]
    exact fin x1 x2
  · simp only [zero_mul, hz, sub_zero, f0, sub_self, abs_zero]
    positivity

/-- One quaternion, the sum with a velocity of `7.3e-5` times the position, and the other quaternion. -/
theorem two_app (hf : Faithful fl) (ht : Turns rot) {a b : Quat} (ha : |a.sqNorm - 1| ≤ 1e-6) (hb : |b.sqNorm - 1| ≤ 1e-6) {A B : M3} {εa εb : ℝ}
    (ca : Close εa a.mat A) (cb : Close εb b.mat B) (bA : Bounded 1 A) (bB : Bounded 1 B) (he : εa + εb ≤ 3.26e-12) (r v : V3) :
    Close3 (1e-11 * size r) (rot b (rot a r)) (B * (A * r)) ∧ Close3 ((56 * u + εa) * size r) (rot a r) (A * r) ∧
    ∀ c' c : V3, Close3 (7.31e-5 * ((56 * u + εa) * size r) + 1e-19 * size r) c' c → |c.x| ≤ 7.3e-5 * size r ∧ |c.y| ≤ 7.3e-5 * size r ∧ |c.z| ≤ 7.3e-5 * size r →
      Close3 (1e-11 * size v + 8e-16 * size r) (rot b (add fl (rot a v) c')) (B * (A * v + c)) := by
  have hu := u_pos
  have hul := u_lt
  have R0 := size_nonneg r
  have V0 := size_nonneg v
  have ea : 0 ≤ εa := (abs_nonneg _).trans ca.1
  have eb : 0 ≤ εb := (abs_nonneg _).trans cb.1
  have z : ∀ w : V3, Close3 0 w w := fun w => ⟨by simp, by simp, by simp⟩
  have ar := turned2 ht ha ca bA (z r)
  have av := turned2 ht ha ca bA (z v)
  simp only [mul_zero, add_zero] at ar av
  have sr := bA.size r
  have sv := bA.size v
  generalize hα : 56 * u + εa = α at *
  have α0 : 0 ≤ α := by rw [← hα]; positivity
  have hαβ : α + (56 * u + εb) ≤ 3.275e-12 := by linarith
  have β0 : 0 ≤ 56 * u + εb := by positivity
  refine ⟨?_, ar, ?_⟩
  · refine Close3.mono (turned2 ht hb cb bB ar) ?_
    generalize 56 * u + εb = β at *
    have h1 : size (A * r) + 3 * (α * size r) ≤ 3.01 * size r := by nlinarith
    have h2 := mul_le_mul_of_nonneg_left h1 β0
    have h3 := mul_le_mul_of_nonneg_right hαβ R0
    nlinarith
  · intro c' c hc hb'
    have hsum : Close3 (α * size v + (7.31e-5 * (α * size r) + 1e-19 * size r) + 1.3e-16 * (size v + 7.3e-5 * size r)) (add fl (rot a v) c') (A * v + c) := by
      have key : ∀ {x' x y' y : ℝ}, |x' - x| ≤ α * size v → |x| ≤ 1 * size v → |y' - y| ≤ 7.31e-5 * (α * size r) + 1e-19 * size r → |y| ≤ 7.3e-5 * size r →
          |fl (x' + y') - (x + y)| ≤ α * size v + (7.31e-5 * (α * size r) + 1e-19 * size r) + 1.3e-16 * (size v + 7.3e-5 * size r) := by
        intro x' x y' y h1 h2 h3 h4
        have hx : App (1 * size v) (α * size v) x' x := ⟨h2, h1⟩
        have hy : App (7.3e-5 * size r) (7.31e-5 * (α * size r) + 1e-19 * size r) y' y := ⟨h4, h3⟩
        refine ((hx.add hy).fl hf).2.trans ?_
        have k1 : α * size v ≤ 1e-11 * size v := mul_le_mul_of_nonneg_right (by linarith) V0
        have k2 : α * size r ≤ 1e-11 * size r := mul_le_mul_of_nonneg_right (by linarith) R0
        have := mul_le_mul_of_nonneg_right hul.le (by positivity : 0 ≤ 1 * size v + 7.3e-5 * size r + (α * size v + (7.31e-5 * (α * size r) + 1e-19 * size r)))
        linarith
      obtain ⟨m1, m2, m3⟩ := bA.vec v
      exact ⟨key av.1 m1 hc.1 hb'.1, key av.2.1 m2 hc.2.1 hb'.2.1, key av.2.2 m3 hc.2.2 hb'.2.2⟩
    refine Close3.mono (turned2 ht hb cb bB hsum) ?_
    have hs : size (A * v + c) ≤ 3 * size v + 2.2e-4 * size r := by
      have k1 := abs_add_le (A * v).x c.x
      have k2 := abs_add_le (A * v).y c.y
      have k3 := abs_add_le (A * v).z c.z
      unfold size at sv ⊢
      simp only [V3.add_x, V3.add_y, V3.add_z]
      obtain ⟨b1, b2, b3⟩ := hb'
      unfold size at b1 b2 b3 R0
      linarith
    generalize 56 * u + εb = β at *
    have k1 : α * size v ≤ 1e-11 * size v := mul_le_mul_of_nonneg_right (by linarith) V0
    have k2 : α * size r ≤ 1e-11 * size r := mul_le_mul_of_nonneg_right (by linarith) R0
    have h1 : size (A * v + c) + 3 * (α * size v + (7.31e-5 * (α * size r) + 1e-19 * size r) + 1.3e-16 * (size v + 7.3e-5 * size r)) ≤
      3.01 * size v + 2.21e-4 * size r := by linarith
    have h2 := mul_le_mul_of_nonneg_left h1 β0
    have h3 := mul_le_mul_of_nonneg_right hαβ R0
    have h4 := mul_le_mul_of_nonneg_right hαβ V0
    have h5 := mul_nonneg α0 R0
    have h6 := mul_nonneg α0 V0
    have h7 := mul_nonneg β0 R0
    have h8 := mul_nonneg β0 V0
    linarith

end

/-- The turning of the frame as a cross product. -/
theorem moves_spin (C W : M3) (θ w : ℝ) (a : V3) :
    Harmonic.Moves (fun x => (C * EarthRot.spin (θ + w * x) * W).transpose * a)
      (W.transpose * ⟨0, w, 0, -w, 0, 0, 0, 0, 0⟩ * (C * EarthRot.spin θ).transpose * a) 0 := by
  have h : HasDerivAt (fun x : ℝ => θ + w * x) w 0 := by simpa using ((hasDerivAt_id (0 : ℝ)).const_mul w).const_add θ
  have hc := h.cos
  have hs := h.sin
  simp only [mul_zero, add_zero] at hc hs
  have hx : ∀ b : V3, HasDerivAt (fun x : ℝ => Real.cos (θ + w * x) * b.x + Real.sin (θ + w * x) * b.y) (-Real.sin θ * w * b.x + Real.cos θ * w * b.y) 0 :=
    fun b => (hc.mul_const b.x).add (hs.mul_const b.y)
  have hy : ∀ b : V3, HasDerivAt (fun x : ℝ => -Real.sin (θ + w * x) * b.x + Real.cos (θ + w * x) * b.y) (-(Real.cos θ * w) * b.x + -Real.sin θ * w * b.y) 0 :=
    fun b => (hs.neg.mul_const b.x).add (hc.mul_const b.y)
  have e : ∀ x, (C * EarthRot.spin (θ + w * x) * W).transpose * a = W.transpose * (⟨Real.cos (θ + w * x) * (C.transpose * a).x + Real.sin (θ + w * x) * (C.transpose * a).y,
      -Real.sin (θ + w * x) * (C.transpose * a).x + Real.cos (θ + w * x) * (C.transpose * a).y, (C.transpose * a).z⟩ : V3) := by
    intro x
    rw [M3.transpose_mul, M3.transpose_mul, M3.mulVec_mul, M3.mulVec_mul]
    congr 1
    generalize C.transpose * a = b
    unfold EarthRot.spin EarthRot.R3
    simp only [M3.mulVec_def, M3.transpose, Real.cos_neg, Real.sin_neg]
    ext <;> simp only <;> ring
  have e2 : W.transpose * ⟨0, w, 0, -w, 0, 0, 0, 0, 0⟩ * (C * EarthRot.spin θ).transpose * a = W.transpose *
      (⟨-Real.sin θ * w * (C.transpose * a).x + Real.cos θ * w * (C.transpose * a).y, -(Real.cos θ * w) * (C.transpose * a).x + -Real.sin θ * w * (C.transpose * a).y, 0⟩ : V3) := by
    rw [M3.transpose_mul, M3.mulVec_mul, M3.mulVec_mul, M3.mulVec_mul]
    congr 1
    generalize C.transpose * a = b
    unfold EarthRot.spin EarthRot.R3
    simp only [M3.mulVec_def, M3.transpose, Real.cos_neg, Real.sin_neg]
    ext <;> simp only <;> ring
  rw [e2]
  simp only [e]
  have h1 := hx (C.transpose * a)
  have h2 := hy (C.transpose * a)
  generalize C.transpose * a = b at *
  unfold Harmonic.Moves
  simp only [M3.mulVec_def, M3.transpose, mul_zero, add_zero]
  refine ⟨?_, ?_, ?_⟩
  · exact ((h1.const_mul W.xx).add (h2.const_mul W.yx)).add_const _
  · exact ((h1.const_mul W.xy).add (h2.const_mul W.yy)).add_const _
  · exact ((h1.const_mul W.xz).add (h2.const_mul W.yz)).add_const _

end Verif.RoundedState
