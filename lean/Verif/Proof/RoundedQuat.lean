import Verif.Spec.RoundedGcrs
import Verif.Proof.RoundedCip
import Verif.Model.RoundedGcrs
import Mathlib.Analysis.Quaternion
/-
Rounding errors of quaternions. Distances are those of Mathlib's quaternions.
-/
namespace Verif.RoundedGcrs
open Verif Verif.Rounding

/-- The quaternion of Mathlib. -/
noncomputable def toH (q : Quat) : Quaternion ℝ := ⟨q.w, q.x, q.y, q.z⟩

theorem toH_mul (a b : Quat) : toH (a * b) = toH a * toH b := by
  ext
  · rw [Quaternion.re_mul]; simp only [toH, Quat.mul_def]
  · rw [Quaternion.imI_mul]; simp only [toH, Quat.mul_def]
  · rw [Quaternion.imJ_mul]; simp only [toH, Quat.mul_def]; ring
  · rw [Quaternion.imK_mul]; simp only [toH, Quat.mul_def]; ring

theorem norm_sq (a : Quaternion ℝ) : ‖a‖ ^ 2 = a.re ^ 2 + a.imI ^ 2 + a.imJ ^ 2 + a.imK ^ 2 := by
  rw [sq ‖a‖, ← Quaternion.normSq_eq_norm_mul_self, Quaternion.normSq_def']

theorem norm_le {a : Quaternion ℝ} {e : ℝ} (he : 0 ≤ e) (h : a.re ^ 2 + a.imI ^ 2 + a.imJ ^ 2 + a.imK ^ 2 ≤ e ^ 2) : ‖a‖ ≤ e := by
  rw [← norm_sq] at h
  exact abs_le_of_sq_le_sq' h he |>.2

theorem comp_le (a : Quaternion ℝ) : |a.re| ≤ ‖a‖ ∧ |a.imI| ≤ ‖a‖ ∧ |a.imJ| ≤ ‖a‖ ∧ |a.imK| ≤ ‖a‖ := by
  have h := norm_sq a
  have h0 := norm_nonneg a
  refine ⟨?_, ?_, ?_, ?_⟩ <;> apply abs_le_of_sq_le_sq _ h0 <;> nlinarith [sq_nonneg a.re, sq_nonneg a.imI, sq_nonneg a.imJ, sq_nonneg a.imK]

/-- `q'` is `q`, of length one, up to `e`. -/
def QApp (e : ℝ) (q' q : Quat) : Prop := ‖toH q' - toH q‖ ≤ e ∧ ‖toH q‖ = 1

/-- The sum of four products, without signs. -/
theorem cauchy4 (a b c d x y z w : ℝ) (N M : ℝ) (hN : 0 ≤ N) (hM : 0 ≤ M) (h1 : a ^ 2 + b ^ 2 + c ^ 2 + d ^ 2 = N ^ 2)
    (h2 : x ^ 2 + y ^ 2 + z ^ 2 + w ^ 2 = M ^ 2) : |a * x| + |b * y| + |c * z| + |d * w| ≤ N * M := by
  simp only [abs_mul]
  rw [← sq_abs a, ← sq_abs b, ← sq_abs c, ← sq_abs d] at h1
  rw [← sq_abs x, ← sq_abs y, ← sq_abs z, ← sq_abs w] at h2
  generalize |a| = a at *
  generalize |b| = b at *
  generalize |c| = c at *
  generalize |d| = d at *
  generalize |x| = x at *
  generalize |y| = y at *
  generalize |z| = z at *
  generalize |w| = w at *
  apply le_of_sq_le_sq _ (mul_nonneg hN hM)
  rw [mul_pow, ← h1, ← h2]
  nlinarith [sq_nonneg (a * y - b * x), sq_nonneg (a * z - c * x), sq_nonneg (a * w - d * x), sq_nonneg (b * z - c * y),
    sq_nonneg (b * w - d * y), sq_nonneg (c * w - d * z)]
where
  le_of_sq_le_sq {p q : ℝ} (h : p ^ 2 ≤ q ^ 2) (hq : 0 ≤ q) : p ≤ q := (abs_le_of_sq_le_sq' h hq).2

/-- Rounding errors of a product. -/
theorem qmul_round {qmul : Quat → Quat → Quat} (hm : QuatMul qmul) (a b : Quat) :
    ‖toH (qmul a b) - toH (a * b)‖ ≤ 10 * u * (‖toH a‖ * ‖toH b‖) := by
  have hu := u_pos
  have ha : a.w ^ 2 + a.x ^ 2 + a.y ^ 2 + a.z ^ 2 = ‖toH a‖ ^ 2 := by rw [norm_sq]; rfl
  have hb : b.w ^ 2 + b.x ^ 2 + b.y ^ 2 + b.z ^ 2 = ‖toH b‖ ^ 2 := by rw [norm_sq]; rfl
  have na := norm_nonneg (toH a)
  have nb := norm_nonneg (toH b)
  have k1 := cauchy4 a.w a.x a.y a.z b.w b.x b.y b.z _ _ na nb ha hb
  have k2 := cauchy4 a.w a.x a.y a.z b.x b.w b.z b.y _ _ na nb ha (by linarith)
  have k3 := cauchy4 a.w a.y a.z a.x b.y b.w b.x b.z _ _ na nb (by linarith) (by linarith)
  have k4 := cauchy4 a.w a.z a.x a.y b.z b.w b.y b.x _ _ na nb (by linarith) (by linarith)
  generalize hP : ‖toH a‖ * ‖toH b‖ = P at *
  have hP0 : 0 ≤ P := by rw [← hP]; positivity
  have e1 := (hm.w a b).trans (mul_le_mul_of_nonneg_left k1 (by positivity))
  have e2 := (hm.x a b).trans (mul_le_mul_of_nonneg_left k2 (by positivity))
  have e3 := (hm.y a b).trans (mul_le_mul_of_nonneg_left k3 (by positivity))
  have e4 := (hm.z a b).trans (mul_le_mul_of_nonneg_left k4 (by positivity))
  apply norm_le (by positivity)
  have sqle : ∀ {v : ℝ}, |v| ≤ 5 * u * P → v ^ 2 ≤ (5 * u * P) ^ 2 := fun h => sq_le_sq' (by linarith [abs_le.mp h]) (abs_le.mp h).2
  have f1 := sqle e1
  have f2 := sqle e2
  have f3 := sqle e3
  have f4 := sqle e4
  show ((qmul a b).w - (a * b).w) ^ 2 + ((qmul a b).x - (a * b).x) ^ 2 + ((qmul a b).y - (a * b).y) ^ 2 + ((qmul a b).z - (a * b).z) ^ 2 ≤ _
  nlinarith

theorem QApp.mul {qmul : Quat → Quat → Quat} (hm : QuatMul qmul) {e d : ℝ} {a' a b' b : Quat} (ha : QApp e a' a) (hb : QApp d b' b) (he : e ≤ 1e-3)
    (hd : d ≤ 1e-3) : QApp (e + d + e * d + 11 * u) (qmul a' b') (a * b) := by
  have hu := u_pos
  have e0 : 0 ≤ e := (norm_nonneg _).trans ha.1
  have d0 : 0 ≤ d := (norm_nonneg _).trans hb.1
  have na : ‖toH a'‖ ≤ 1 + e := by
    have := norm_sub_norm_le (toH a') (toH a); rw [ha.2] at this; linarith [ha.1]
  have nb : ‖toH b'‖ ≤ 1 + d := by
    have := norm_sub_norm_le (toH b') (toH b); rw [hb.2] at this; linarith [hb.1]
  refine ⟨?_, by rw [toH_mul, norm_mul, ha.2, hb.2, one_mul]⟩
  have h1 := qmul_round hm a' b'
  have hp : ‖toH a'‖ * ‖toH b'‖ ≤ 1.1 := by
    calc _ ≤ (1 + e) * (1 + d) := mul_le_mul na nb (norm_nonneg _) (by linarith)
      _ ≤ 1.1 := by nlinarith
  have h2 : ‖toH (a' * b') - toH (a * b)‖ ≤ e + d + e * d := by
    rw [toH_mul, toH_mul, show toH a' * toH b' - toH a * toH b = (toH a' - toH a) * toH b' + toH a * (toH b' - toH b) by noncomm_ring]
    refine (norm_add_le _ _).trans ?_
    rw [norm_mul, norm_mul, ha.2, one_mul]
    have := mul_le_mul ha.1 nb (norm_nonneg _) e0
    linarith [hb.1]
  have h3 : toH (qmul a' b') - toH (a * b) = (toH (qmul a' b') - toH (a' * b')) + (toH (a' * b') - toH (a * b)) := by abel
  rw [h3]
  refine (norm_add_le _ _).trans ?_
  have := mul_le_mul_of_nonneg_left hp (by positivity : 0 ≤ 10 * u)
  linarith

theorem QApp.mono {e e' : ℝ} {q' q : Quat} (h : QApp e q' q) (he : e ≤ e') : QApp e' q' q := ⟨h.1.trans he, h.2⟩

/-- The opposite quaternion: the same rotation. -/
def opp (q : Quat) : Quat := ⟨-q.w, -q.x, -q.y, -q.z⟩

theorem toH_opp (q : Quat) : toH (opp q) = -toH q := by ext <;> rfl

/-- `q'` is `q` or its opposite up to `e`. -/
def QNear (e : ℝ) (q' q : Quat) : Prop := QApp e q' q ∨ QApp e q' (opp q)

theorem opp_mul (a b : Quat) : opp a * b = opp (a * b) := by
  simp only [Quat.mul_def, opp]
  ext <;> ring

theorem mul_opp (a b : Quat) : a * opp b = opp (a * b) := by
  simp only [Quat.mul_def, opp]
  ext <;> ring

theorem opp_opp (a : Quat) : opp (opp a) = a := by
  simp only [opp, neg_neg]

theorem QNear.mul {qmul : Quat → Quat → Quat} (hm : QuatMul qmul) {e d : ℝ} {a' a b' b : Quat} (ha : QNear e a' a) (hb : QNear d b' b)
    (he : e ≤ 1e-3) (hd : d ≤ 1e-3) : QNear (e + d + e * d + 11 * u) (qmul a' b') (a * b) := by
  rcases ha with ha | ha <;> rcases hb with hb | hb
  · exact .inl (ha.mul hm hb he hd)
  · exact .inr (by rw [← mul_opp]; exact ha.mul hm hb he hd)
  · exact .inr (by rw [← opp_mul]; exact ha.mul hm hb he hd)
  · refine .inl ?_
    have := ha.mul hm hb he hd
    rwa [opp_mul, mul_opp, opp_opp] at this

theorem QNear.mono {e e' : ℝ} {q' q : Quat} (h : QNear e q' q) (he : e ≤ e') : QNear e' q' q := h.imp (·.mono he) (·.mono he)

/-- The same matrix up to rounding. -/
theorem close_mat {e : ℝ} {q' q : Quat} (h : QApp e q' q) (he : e ≤ 1e-3) : Close (4.01 * e) q'.mat q.mat := by
  have e0 : 0 ≤ e := (norm_nonneg _).trans h.1
  have hN := h.2
  have hq : q.w ^ 2 + q.x ^ 2 + q.y ^ 2 + q.z ^ 2 = 1 := by
    have := norm_sq (toH q); rw [hN, one_pow] at this; exact this.symm
  have hd : (q'.w - q.w) ^ 2 + (q'.x - q.x) ^ 2 + (q'.y - q.y) ^ 2 + (q'.z - q.z) ^ 2 ≤ e ^ 2 := by
    have h1 := norm_sq (toH q' - toH q)
    have h2 : ‖toH q' - toH q‖ ^ 2 ≤ e ^ 2 := pow_le_pow_left₀ (norm_nonneg _) h.1 2
    rw [h1] at h2
    exact h2
  obtain ⟨w', x', y', z'⟩ := q'
  obtain ⟨w, x, y, z⟩ := q
  simp only at hq hd
  obtain ⟨dw, rfl⟩ : ∃ dw, w' = w + dw := ⟨w' - w, by ring⟩
  obtain ⟨dx, rfl⟩ : ∃ dx, x' = x + dx := ⟨x' - x, by ring⟩
  obtain ⟨dy, rfl⟩ : ∃ dy, y' = y + dy := ⟨y' - y, by ring⟩
  obtain ⟨dz, rfl⟩ : ∃ dz, z' = z + dz := ⟨z' - z, by ring⟩
  simp only [add_sub_cancel_left] at hd
  -- a product of two vectors with four components
  have key : ∀ (a b c d a' b' c' d' : ℝ), a ^ 2 + b ^ 2 + c ^ 2 + d ^ 2 ≤ 1 → a' ^ 2 + b' ^ 2 + c' ^ 2 + d' ^ 2 ≤ e ^ 2 →
      |a * a' + b * b' + c * c' + d * d'| ≤ e := by
    intro a b c d a' b' c' d' h1 h2
    apply abs_le_of_sq_le_sq _ e0
    have h3 : (a ^ 2 + b ^ 2 + c ^ 2 + d ^ 2) * (a' ^ 2 + b' ^ 2 + c' ^ 2 + d' ^ 2) ≤ 1 * e ^ 2 :=
      mul_le_mul h1 h2 (by positivity) (by norm_num)
    nlinarith [sq_nonneg (a * b' - b * a'), sq_nonneg (a * c' - c * a'), sq_nonneg (a * d' - d * a'), sq_nonneg (b * c' - c * b'),
      sq_nonneg (b * d' - d * b'), sq_nonneg (c * d' - d * c')]
  have hx0 := sq_nonneg x
  have hy0 := sq_nonneg y
  have hz0 := sq_nonneg z
  have hw0 := sq_nonneg w
  have hdx := sq_nonneg dx
  have hdy := sq_nonneg dy
  have hdz := sq_nonneg dz
  have hdw := sq_nonneg dw
  have fin : ∀ {v l s : ℝ}, |l| ≤ e → |s| ≤ e ^ 2 → v = 4 * l + 2 * s → |v| ≤ 4.01 * e := by
    intro v l s hl hs hv
    rw [hv]
    refine (abs_add_le _ _).trans ?_
    rw [abs_mul, abs_mul]
    norm_num
    nlinarith
  have sq2 : ∀ {a b c d : ℝ}, a ^ 2 + b ^ 2 + c ^ 2 + d ^ 2 ≤ e ^ 2 → |a * b + c * d| ≤ e ^ 2 := by
    intro a b c d h
    rw [abs_le]
    constructor <;> nlinarith [sq_nonneg (a + b), sq_nonneg (a - b), sq_nonneg (c + d), sq_nonneg (c - d)]
  have two : ∀ {a b c d a' b' c' d' : ℝ}, a ^ 2 + b ^ 2 + c ^ 2 + d ^ 2 ≤ 1 → a' ^ 2 + b' ^ 2 + c' ^ 2 + d' ^ 2 ≤ e ^ 2 →
      |(a * b' + b * a' + c * d' + d * c') / 2| ≤ e := by
    intro a b c d a' b' c' d' h1 h2
    have := key a b c d b' a' d' c' h1 (by linarith)
    rw [abs_div]
    norm_num
    linarith
  unfold Close Quat.mat
  simp only
  refine ⟨?_, ?_, ?_, ?_, ?_, ?_, ?_, ?_, ?_⟩
  · exact fin (l := -(y * dy + z * dz + 0 * 0 + 0 * 0)) (s := -(dy ^ 2 + dz ^ 2))
      (by rw [abs_neg]; exact key _ _ _ _ _ _ _ _ (by linarith) (by linarith)) (by rw [abs_neg, abs_of_nonneg (by positivity)]; linarith) (by ring)
  · exact fin (l := (y * dx + x * dy + z * (-dw) + (-w) * dz) / 2) (s := dy * dx + dz * (-dw))
      (two (a := y) (b := x) (c := z) (d := -w) (a' := dy) (b' := dx) (c' := dz) (d' := -dw) (by linarith [neg_sq w]) (by linarith [neg_sq dw])) (sq2 (by linarith [neg_sq dw])) (by ring)
  · exact fin (l := (z * dx + x * dz + y * dw + w * dy) / 2) (s := dz * dx + dy * dw)
      (two (a := z) (b := x) (c := y) (d := w) (a' := dz) (b' := dx) (c' := dy) (d' := dw) (by linarith) (by linarith)) (sq2 (by linarith)) (by ring)
  · exact fin (l := (y * dx + x * dy + z * dw + w * dz) / 2) (s := dy * dx + dz * dw)
      (two (a := y) (b := x) (c := z) (d := w) (a' := dy) (b' := dx) (c' := dz) (d' := dw) (by linarith) (by linarith)) (sq2 (by linarith)) (by ring)
  · exact fin (l := -(x * dx + z * dz + 0 * 0 + 0 * 0)) (s := -(dx ^ 2 + dz ^ 2))
      (by rw [abs_neg]; exact key _ _ _ _ _ _ _ _ (by linarith) (by linarith)) (by rw [abs_neg, abs_of_nonneg (by positivity)]; linarith) (by ring)
  · exact fin (l := (z * dy + y * dz + x * (-dw) + (-w) * dx) / 2) (s := dz * dy + dx * (-dw))
      (two (a := z) (b := y) (c := x) (d := -w) (a' := dz) (b' := dy) (c' := dx) (d' := -dw) (by linarith [neg_sq w]) (by linarith [neg_sq dw])) (sq2 (by linarith [neg_sq dw])) (by ring)
  · exact fin (l := (z * dx + x * dz + y * (-dw) + (-w) * dy) / 2) (s := dz * dx + dy * (-dw))
      (two (a := z) (b := x) (c := y) (d := -w) (a' := dz) (b' := dx) (c' := dy) (d' := -dw) (by linarith [neg_sq w]) (by linarith [neg_sq dw])) (sq2 (by linarith [neg_sq dw])) (by ring)
  · exact fin (l := (z * dy + y * dz + x * dw + w * dx) / 2) (s := dz * dy + dx * dw)
      (two (a := z) (b := y) (c := x) (d := w) (a' := dz) (b' := dy) (c' := dx) (d' := dw) (by linarith) (by linarith)) (sq2 (by linarith)) (by ring)
  · exact fin (l := -(x * dx + y * dy + 0 * 0 + 0 * 0)) (s := -(dx ^ 2 + dy ^ 2))
      (by rw [abs_neg]; exact key _ _ _ _ _ _ _ _ (by linarith) (by linarith)) (by rw [abs_neg, abs_of_nonneg (by positivity)]; linarith) (by ring)

theorem mat_opp (q : Quat) : (opp q).mat = q.mat := by
  unfold Quat.mat opp
  simp only [M3.mk.injEq]
  refine ⟨?_, ?_, ?_, ?_, ?_, ?_, ?_, ?_, ?_⟩ <;> ring

theorem QNear.mat {e : ℝ} {q' q : Quat} (h : QNear e q' q) (he : e ≤ 1e-3) : Close (4.01 * e) q'.mat q.mat := by
  rcases h with h | h
  · exact close_mat h he
  · rw [← mat_opp q]; exact close_mat h he

end Verif.RoundedGcrs
