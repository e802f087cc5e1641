import Verif.Proof.Rel
import Verif.Model.RoundedPoint
import Verif.Spec.RoundedPoint
import Verif.Props.PointMass
import Verif.Proof.RoundNearest
import Verif.Spec.RoundedGcrs
/-
C106: the attraction by a third body in double precision.
-/
namespace Verif.RoundedPoint
open Verif Verif.Rounding

theorem rel_trans {k l a b c : ℝ} (h : Rel k a b) (g : Rel l b c) (h0 : 0 ≤ k) (hk : k ≤ 100) (hl : l ≤ 100) : Rel (k + l + 0.01) a c := by
  have gs := g.size
  unfold Rounding.Rel at *
  have hu := u_pos
  have t := abs_add_le (a - b) (b - c)
  rw [show a - b + (b - c) = a - c by ring] at t
  have h1 : k * u * |b| ≤ k * u * (|c| + l * u * |c|) := mul_le_mul_of_nonneg_left gs (by positivity)
  have h2 : l * u * |c| ≤ 1e-4 * |c| := mul_le_mul_of_nonneg_right (ku hl) (abs_nonneg _)
  have h3 : k * u * (l * u * |c|) ≤ k * u * (1e-4 * |c|) := mul_le_mul_of_nonneg_left h2 (by positivity)
  have h4 : k * (1e-4 * (u * |c|)) ≤ 100 * (1e-4 * (u * |c|)) := mul_le_mul_of_nonneg_right hk (by positivity)
  nlinarith

/-- The squared length of a vector known up to a rounding error in each component. -/
theorem sq_rel {sq : V3 → ℝ} (hq : SumOfSquares sq) {v' v : V3} (hx : Rel 1 v'.x v.x) (hy : Rel 1 v'.y v.y) (hz : Rel 1 v'.z v.z) :
    Rel 6.1 (sq v') (v.dot v) := by
  have s2 : ∀ {a' a : ℝ}, Rel 1 a' a → Rel 2.01 (a' ^ 2) (a * a) := by
    intro a' a h
    rw [pow_two]
    exact (h.mul h (by norm_num) (by norm_num) (by norm_num)).mono (by norm_num)
  have h := ((s2 hx).add_nonneg (s2 hy) (mul_self_nonneg _) (mul_self_nonneg _)).add_nonneg (s2 hz)
    (add_nonneg (mul_self_nonneg _) (mul_self_nonneg _)) (mul_self_nonneg _)
  have g : Rel 4 (sq v') (v'.x ^ 2 + v'.y ^ 2 + v'.z ^ 2) := by
    have := hq v'
    unfold Rounding.Rel
    rwa [abs_of_nonneg (by positivity : 0 ≤ v'.x ^ 2 + v'.y ^ 2 + v'.z ^ 2)]
  exact (rel_trans g h (by norm_num) (by norm_num) (by norm_num)).mono (by norm_num)

theorem norm_pos {v : V3} (h : v ≠ 0) : 0 < v.dot v ∧ 0 < v.norm := by
  have : 0 < v.dot v := by
    rcases (show 0 ≤ v.dot v by unfold V3.dot; nlinarith [mul_self_nonneg v.x, mul_self_nonneg v.y, mul_self_nonneg v.z]).eq_or_lt with h0 | h0
    · exfalso
      apply h
      unfold V3.dot at h0
      have a := mul_self_nonneg v.x
      have b := mul_self_nonneg v.y
      have c := mul_self_nonneg v.z
      ext
      · exact mul_self_eq_zero.mp (by linarith)
      · exact mul_self_eq_zero.mp (by linarith)
      · exact mul_self_eq_zero.mp (by linarith)
    · exact h0
  exact ⟨this, Real.sqrt_pos.mpr this⟩

theorem cube_rel {fl : ℝ → ℝ} {sq : V3 → ℝ} (hf : Rounds fl) (hq : SumOfSquares sq) {v' v : V3} (hx : Rel 1 v'.x v.x) (hy : Rel 1 v'.y v.y)
    (hz : Rel 1 v'.z v.z) : Rel 14.4 (cube fl sq v') (v.dot v * v.norm) := by
  have h := sq_rel hq hx hy hz
  have hd : 0 ≤ v.dot v := by unfold V3.dot; nlinarith [mul_self_nonneg v.x, mul_self_nonneg v.y, mul_self_nonneg v.z]
  have n := (h.sqrt hd (h.nonneg (by norm_num) hd)).fl hf (by norm_num)
  exact ((h.mul n (by norm_num) (by norm_num) (by norm_num)).fl hf (by norm_num)).mono (by norm_num)

/-- A sum of two numbers that may cancel, times a constant. -/
theorem sum_rel {fl : ℝ → ℝ} (hf : Rounds fl) {k a' a b' b c : ℝ} (ha : Rel k a' a) (hb : Rel k b' b) (hk0 : 0 ≤ k) (hk : k ≤ 90) :
    |fl (fl (a' + b') * c) - (a + b) * c| ≤ (k + 2.1) * u * ((|a| + |b|) * |c|) := by
  have hu := u_pos
  have hul := u_lt
  have as := ha.size
  have bs := hb.size
  have h1 := hf.rel (a' + b')
  have h2 := abs_add_le a' b'
  have hku := ku (k := k) (by linarith)
  have hs : 0 ≤ |a| + |b| := by positivity
  -- the sum
  have h3 : |fl (a' + b') - (a + b)| ≤ (k + 1.001) * u * (|a| + |b|) := by
    have e : fl (a' + b') - (a + b) = (fl (a' + b') - (a' + b')) + ((a' - a) + (b' - b)) := by ring
    have t1 := abs_add_le (fl (a' + b') - (a' + b')) ((a' - a) + (b' - b))
    have t2 := abs_add_le (a' - a) (b' - b)
    rw [e]
    unfold Rounding.Rel at ha hb
    have h4 : |a' + b'| ≤ (1 + k * u) * (|a| + |b|) := by linarith
    have h5 := mul_le_mul_of_nonneg_left h4 hu.le
    have h6 : u * (k * u * (|a| + |b|)) ≤ u * (1e-4 * (|a| + |b|)) := mul_le_mul_of_nonneg_left (mul_le_mul_of_nonneg_right hku hs) hu.le
    nlinarith
  -- the product
  have h4 := hf.rel (fl (a' + b') * c)
  have h5 : |fl (a' + b')| ≤ 1.001 * (|a| + |b|) := by
    have t := abs_add_le (fl (a' + b') - (a + b)) (a + b)
    rw [sub_add_cancel] at t
    have t2 := abs_add_le a b
    have h6 : (k + 1.001) * u * (|a| + |b|) ≤ 1e-3 * (|a| + |b|) := mul_le_mul_of_nonneg_right (by linarith) hs
    linarith
  have e : fl (fl (a' + b') * c) - (a + b) * c = (fl (fl (a' + b') * c) - fl (a' + b') * c) + (fl (a' + b') - (a + b)) * c := by ring
  rw [e]
  refine (abs_add_le _ _).trans ?_
  have h7 : |(fl (a' + b') - (a + b)) * c| ≤ (k + 1.001) * u * (|a| + |b|) * |c| := by
    rw [abs_mul]; exact mul_le_mul_of_nonneg_right h3 (abs_nonneg _)
  have h8 : |fl (a' + b') * c| ≤ 1.001 * (|a| + |b|) * |c| := by rw [abs_mul]; exact mul_le_mul_of_nonneg_right h5 (abs_nonneg _)
  have h9 := mul_le_mul_of_nonneg_left h8 hu.le
  have h10 : 0 ≤ u * ((|a| + |b|) * |c|) := by positivity
  nlinarith

theorem comp_le_norm (v : V3) : |v.x| ≤ v.norm ∧ |v.y| ≤ v.norm ∧ |v.z| ≤ v.norm := by
  refine ⟨?_, ?_, ?_⟩ <;>
  · refine Real.le_sqrt_of_sq_le ?_
    rw [sq_abs]
    unfold V3.dot
    nlinarith [mul_self_nonneg v.x, mul_self_nonneg v.y, mul_self_nonneg v.z]

theorem share {c : ℝ} {v : V3} (hv : v ≠ 0) (hc : |c| ≤ v.norm) : |c / (v.dot v * v.norm)| ≤ 1 / v.norm ^ 2 := by
  obtain ⟨h1, h2⟩ := norm_pos hv
  rw [abs_div, abs_of_pos (mul_pos h1 h2), PointMass.dot_norm, div_le_div_iff₀ (by positivity) (by positivity)]
  have := mul_le_mul_of_nonneg_right hc (by positivity : 0 ≤ v.norm ^ 2)
  nlinarith

theorem comp_rel {fl : ℝ → ℝ} {sq : V3 → ℝ} (hf : Rounds fl) (hq : SumOfSquares sq) {s' s b : V3} (GM : ℝ) (hs : s ≠ 0) (hb : b ≠ 0)
    (hx : Rel 1 s'.x s.x) (hy : Rel 1 s'.y s.y) (hz : Rel 1 s'.z s.z) {c' c d : ℝ} (hc : Rel 1 c' c) (cs : |c| ≤ s.norm) (db : |d| ≤ b.norm) :
    |comp fl c' (cube fl sq s') d (cube fl sq b) GM - -GM * ((s.dot s * s.norm)⁻¹ * c + (b.dot b * b.norm)⁻¹ * d)| ≤
      20 * u * |GM| * (1 / s.norm ^ 2 + 1 / b.norm ^ 2) := by
  have hu := u_pos
  obtain ⟨s1, s2⟩ := norm_pos hs
  obtain ⟨b1, b2⟩ := norm_pos hb
  have o : ∀ x : ℝ, Rel 1 x x := fun x => (Rel.refl x).mono (by norm_num)
  have q1 := (hc.div (cube_rel hf hq hx hy hz) (by norm_num) (by norm_num) (by norm_num) (by norm_num) (mul_pos s1 s2).ne').fl hf (by norm_num)
  have q2 := ((o d).div (cube_rel hf hq (o b.x) (o b.y) (o b.z)) (by norm_num) (by norm_num) (by norm_num) (by norm_num) (mul_pos b1 b2).ne').fl hf
    (by norm_num)
  have h := sum_rel hf (c := -GM) q1 q2 (by norm_num) (by norm_num)
  have e : -GM * ((s.dot s * s.norm)⁻¹ * c + (b.dot b * b.norm)⁻¹ * d) = (c / (s.dot s * s.norm) + d / (b.dot b * b.norm)) * -GM := by
    rw [div_eq_inv_mul, div_eq_inv_mul]; ring
  rw [e]
  refine h.trans ?_
  have k1 := share hs cs
  have k2 := share hb db
  rw [abs_neg]
  have k3 : (|c / (s.dot s * s.norm)| + |d / (b.dot b * b.norm)|) * |GM| ≤ (1 / s.norm ^ 2 + 1 / b.norm ^ 2) * |GM| :=
    mul_le_mul_of_nonneg_right (add_le_add k1 k2) (abs_nonneg _)
  have k4 : 0 ≤ (1 / s.norm ^ 2 + 1 / b.norm ^ 2) * |GM| := by positivity
  have k5 := mul_le_mul_of_nonneg_left k3 hu.le
  have k6 := mul_nonneg hu.le k4
  nlinarith

/-- C106: the acceleration by a third body, computed in double precision, is wrong by at most 20 units in the last place of the two attractions it
is the difference of, in each component; for every position of satellite and body, however much of the two cancels. -/
theorem acc_rounded {fl : ℝ → ℝ} {sq : V3 → ℝ} (hf : Rounds fl) (hq : SumOfSquares sq) (r b : V3) (GM : ℝ) (hb : b ≠ 0) (h : r ≠ b) :
    |(acc fl sq r b GM).x - (PointMass.acc r b GM).x| ≤ 20 * u * |GM| * (1 / (r - b).norm ^ 2 + 1 / b.norm ^ 2) ∧
    |(acc fl sq r b GM).y - (PointMass.acc r b GM).y| ≤ 20 * u * |GM| * (1 / (r - b).norm ^ 2 + 1 / b.norm ^ 2) ∧
    |(acc fl sq r b GM).z - (PointMass.acc r b GM).z| ≤ 20 * u * |GM| * (1 / (r - b).norm ^ 2 + 1 / b.norm ^ 2) := by
  have hs : r - b ≠ 0 := by
    intro k; apply h
    have kx := congrArg V3.x k
    have ky := congrArg V3.y k
    have kz := congrArg V3.z k
    simp only [V3.sub_x, V3.sub_y, V3.sub_z, V3.zero_x, V3.zero_y, V3.zero_z, sub_eq_zero] at kx ky kz
    exact V3.ext kx ky kz
  have hx : Rel 1 (diff fl r b).x (r - b).x := Rel.one hf _
  have hy : Rel 1 (diff fl r b).y (r - b).y := Rel.one hf _
  have hz : Rel 1 (diff fl r b).z (r - b).z := Rel.one hf _
  obtain ⟨c1, c2, c3⟩ := comp_le_norm (r - b)
  obtain ⟨d1, d2, d3⟩ := comp_le_norm b
  exact ⟨comp_rel hf hq GM hs hb hx hy hz hx c1 d1, comp_rel hf hq GM hs hb hx hy hz hy c2 d2, comp_rel hf hq GM hs hb hx hy hz hz c3 d3⟩

/-- The version with a Jacobian gives the same acceleration. -/
theorem accJ_same (fl : ℝ → ℝ) (sq : V3 → ℝ) (r b : V3) (GM : ℝ) : (accJ fl sq r b GM).1 = acc fl sq r b GM := rfl

theorem entry_rel {fl : ℝ → ℝ} {sq : V3 → ℝ} (hf : Rounds fl) (hq : SumOfSquares sq) {s' s : V3} (GM : ℝ) (hs : s ≠ 0)
    (hx : Rel 1 s'.x s.x) (hy : Rel 1 s'.y s.y) (hz : Rel 1 s'.z s.z) {one a' a b' b : ℝ} (h1 : |one| ≤ 1) (ha : Rel 1 a' a) (hb : Rel 1 b' b)
    (as : |a| ≤ s.norm) (bs : |b| ≤ s.norm) :
    |entry fl one a' b' (cube fl sq s') (fl (cube fl sq s' * sq s')) GM -
        -GM * ((s.dot s * s.norm)⁻¹ * one + (-(3 * (s.dot s * s.norm * s.dot s)⁻¹)) * (a * b))| ≤ 120 * u * |GM| / s.norm ^ 3 := by
  have hu := u_pos
  obtain ⟨s1, s2⟩ := norm_pos hs
  have c3 := cube_rel hf hq hx hy hz
  have c5 := ((c3.mul (sq_rel hq hx hy hz) (by norm_num) (by norm_num) (by norm_num)).fl hf (by norm_num)).mono (l := 21.6) (by norm_num)
  have p1 := (((Rel.refl one).div c3 (by norm_num) (by norm_num) (by norm_num) (by norm_num) (mul_pos s1 s2).ne').fl hf (by norm_num)).mono
    (l := 27) (by norm_num)
  have t := ((Rel.refl 3).mul ha (by norm_num) (by norm_num) (by norm_num)).fl hf (by norm_num)
  have p2 := (((((t.mul hb (by norm_num) (by norm_num) (by norm_num)).fl hf (by norm_num)).div c5 (by norm_num) (by norm_num) (by norm_num)
    (by norm_num) (mul_pos (mul_pos s1 s2) s1).ne').fl hf (by norm_num)).mono (l := 27) (by norm_num)).neg
  have h := sum_rel hf (c := -GM) p1 p2 (by norm_num) (by norm_num)
  have e1 : entry fl one a' b' (cube fl sq s') (fl (cube fl sq s' * sq s')) GM =
      fl (fl (fl (one / cube fl sq s') + -fl (fl (fl (3 * a') * b') / fl (cube fl sq s' * sq s'))) * -GM) := by
    unfold entry; rw [mul_comm, sub_eq_add_neg]
  have e2 : -GM * ((s.dot s * s.norm)⁻¹ * one + (-(3 * (s.dot s * s.norm * s.dot s)⁻¹)) * (a * b)) =
      (one / (s.dot s * s.norm) + -(3 * a * b / (s.dot s * s.norm * s.dot s))) * -GM := by
    rw [div_eq_inv_mul, div_eq_inv_mul]; ring
  rw [e1, e2]
  refine h.trans ?_
  have d : s.dot s = s.norm ^ 2 := PointMass.dot_norm s
  have k1 : |one / (s.dot s * s.norm)| ≤ 1 / s.norm ^ 3 := by
    rw [abs_div, abs_of_pos (mul_pos s1 s2), d, show s.norm ^ 2 * s.norm = s.norm ^ 3 by ring]
    exact div_le_div_of_nonneg_right h1 (by positivity)
  have k2 : |-(3 * a * b / (s.dot s * s.norm * s.dot s))| ≤ 3 * (1 / s.norm ^ 3) := by
    rw [abs_neg, abs_div, abs_of_pos (mul_pos (mul_pos s1 s2) s1), abs_mul, abs_mul, abs_of_pos (by norm_num : (0 : ℝ) < 3), d,
      div_le_iff₀ (by positivity)]
    have : |a| * |b| ≤ s.norm * s.norm := mul_le_mul as bs (abs_nonneg _) s2.le
    have e3 : 3 * (1 / s.norm ^ 3) * (s.norm ^ 2 * s.norm * s.norm ^ 2) = 3 * (s.norm * s.norm) := by field_simp
    rw [e3]
    linarith
  rw [abs_neg GM]
  have k3 := mul_le_mul_of_nonneg_right (add_le_add k1 k2) (abs_nonneg GM)
  have k4 := mul_le_mul_of_nonneg_left k3 hu.le
  have k5 : 0 ≤ u * (1 / s.norm ^ 3 * |GM|) := by positivity
  have e4 : 120 * u * |GM| / s.norm ^ 3 = 120 * (u * (1 / s.norm ^ 3 * |GM|)) := by ring
  rw [e4]
  have e5 : u * ((1 / s.norm ^ 3 + 3 * (1 / s.norm ^ 3)) * |GM|) = 4 * (u * (1 / s.norm ^ 3 * |GM|)) := by ring
  rw [e5] at k4
  rw [mul_assoc (27 + 2.1 : ℝ) u]
  refine (mul_le_mul_of_nonneg_left k4 (by norm_num)).trans ?_
  generalize u * (1 / s.norm ^ 3 * |GM|) = X at k5
  linarith

/-- C106: the derivative of the acceleration with respect to the position, computed in double precision, is wrong by at most 120 units in the last
place of GM/|r - b|³ in every entry. -/
theorem jacobian_rounded {fl : ℝ → ℝ} {sq : V3 → ℝ} (hf : Rounds fl) (hq : SumOfSquares sq) (r b : V3) (GM : ℝ) (h : r ≠ b) :
    Close (120 * u * |GM| / (r - b).norm ^ 3) (accJ fl sq r b GM).2 (PointMass.accJ r b GM).2 := by
  have hs : r - b ≠ 0 := by
    intro k; apply h
    have kx := congrArg V3.x k
    have ky := congrArg V3.y k
    have kz := congrArg V3.z k
    simp only [V3.sub_x, V3.sub_y, V3.sub_z, V3.zero_x, V3.zero_y, V3.zero_z, sub_eq_zero] at kx ky kz
    exact V3.ext kx ky kz
  have hx : Rel 1 (diff fl r b).x (r - b).x := Rel.one hf _
  have hy : Rel 1 (diff fl r b).y (r - b).y := Rel.one hf _
  have hz : Rel 1 (diff fl r b).z (r - b).z := Rel.one hf _
  obtain ⟨c1, c2, c3⟩ := comp_le_norm (r - b)
  have i : |(1 : ℝ)| ≤ 1 := by simp
  have o : |(0 : ℝ)| ≤ 1 := by simp
  exact ⟨entry_rel hf hq GM hs hx hy hz i hx hx c1 c1, entry_rel hf hq GM hs hx hy hz o hx hy c1 c2, entry_rel hf hq GM hs hx hy hz o hx hz c1 c3,
    entry_rel hf hq GM hs hx hy hz o hy hx c2 c1, entry_rel hf hq GM hs hx hy hz i hy hy c2 c2, entry_rel hf hq GM hs hx hy hz o hy hz c2 c3,
    entry_rel hf hq GM hs hx hy hz o hz hx c3 c1, entry_rel hf hq GM hs hx hy hz o hz hy c3 c2, entry_rel hf hq GM hs hx hy hz i hz hz c3 c3⟩

/-- C106: at the centre of the Earth the computed acceleration is zero, without any error. -/
theorem centre_rounded {fl : ℝ → ℝ} (hf : Rounds fl) (b : V3) (GM : ℝ) (bx : IsDouble b.x) (bY : IsDouble b.y) (bz : IsDouble b.z)
    (hodd : ∀ x, fl (-x) = -fl x) {sq : V3 → ℝ} (heven : ∀ v : V3, sq (-v) = sq v) : acc fl sq 0 b GM = 0 := by
  have ex : ∀ {x}, IsDouble x → fl x = x := fun {x} h => by
    have := hf.nearest x x h
    rwa [sub_self, abs_zero, abs_nonpos_iff, sub_eq_zero] at this
  have hx := ex bx
  have hy := ex bY
  have hz := ex bz
  have z : fl 0 = 0 := by
    have := hf.rel 0
    simpa using this
  have d : diff fl 0 b = -b := by
    unfold diff
    ext <;> simp [hodd, hx, hy, hz]
  have c : cube fl sq (-b) = cube fl sq b := by unfold cube; rw [heven]
  unfold acc
  simp only [d, c]
  ext <;> simp [comp, neg_div, hodd, z]

/-- The sum of squares as it is formed without vector instructions is one of those allowed. -/
theorem squares_ok {fl : Rounded.Arith} (hf : Faithful fl) : SumOfSquares (squares fl) := by
  intro v
  have e : ∀ a : ℝ, a ^ 2 = a * a := fun a => by ring
  have q : ∀ (k : ℕ) (a : ℝ), Rel 1 (fl.pr k (a * a)) (a * a) := fun k a => by unfold Rounding.Rel; rw [one_mul]; exact hf.prel k _
  have yz := ((q 1 v.y).add_nonneg (q 2 v.z) (mul_self_nonneg _) (mul_self_nonneg _)).fl hf.toRounds (by norm_num)
  have h := ((((q 0 v.x).mono (by norm_num)).add_nonneg yz (mul_self_nonneg _) (add_nonneg (mul_self_nonneg _) (mul_self_nonneg _))).fl hf.toRounds
    (by norm_num)).mono (l := 4) (by norm_num)
  have n : 0 ≤ v.x * v.x + (v.y * v.y + v.z * v.z) := by nlinarith [mul_self_nonneg v.x, mul_self_nonneg v.y, mul_self_nonneg v.z]
  unfold Rounding.Rel at h
  rw [abs_of_nonneg n] at h
  rw [e, e, e, add_assoc]
  exact h

/-- The hypotheses can be met: the Moon at its mean distance and a satellite at 12000 km. -/
example (s : ℕ → Bool) : |(acc (rn 53) (squares (rnArith s)) ⟨1.2e7, 0, 0⟩ ⟨0, 3.84e8, 0⟩ 4.9e12).x - (PointMass.acc ⟨1.2e7, 0, 0⟩ ⟨0, 3.84e8, 0⟩ 4.9e12).x| ≤
    20 * u * |4.9e12| * (1 / ((⟨1.2e7, 0, 0⟩ : V3) - ⟨0, 3.84e8, 0⟩).norm ^ 2 + 1 / (⟨0, 3.84e8, 0⟩ : V3).norm ^ 2) :=
  (acc_rounded rn_rounds (squares_ok (rn_faithful s)) _ _ _ (by intro h; have := congrArg V3.y h; norm_num at this)
    (by intro h; have := congrArg V3.y h; norm_num at this)).1

example (s : ℕ → Bool) : Close (120 * u * |4.9e12| / ((⟨1.2e7, 0, 0⟩ : V3) - ⟨0, 3.84e8, 0⟩).norm ^ 3)
    (accJ (rn 53) (squares (rnArith s)) ⟨1.2e7, 0, 0⟩ ⟨0, 3.84e8, 0⟩ 4.9e12).2 (PointMass.accJ ⟨1.2e7, 0, 0⟩ ⟨0, 3.84e8, 0⟩ 4.9e12).2 :=
  jacobian_rounded rn_rounds (squares_ok (rn_faithful s)) _ _ _ (by intro h; have := congrArg V3.y h; norm_num at this)

/-- Rounding to nearest that treats both signs alike. -/
noncomputable def symmetric (x : ℝ) : ℝ := if x < 0 then -rn 53 (-x) else rn 53 x

theorem symmetric_rounds : Rounds symmetric := by
  constructor
  · intro x
    unfold symmetric
    split
    · obtain ⟨m, e, hm, h⟩ := rn_rounds.isDouble (-x)
      exact ⟨-m, e, by rwa [abs_neg], by rw [h]; push_cast; ring⟩
    · exact rn_rounds.isDouble x
  · intro x y hy
    unfold symmetric
    split
    · obtain ⟨m, e, hm, h⟩ := hy
      have := rn_rounds.nearest (-x) (-y) ⟨-m, e, by rwa [abs_neg], by rw [h]; push_cast; ring⟩
      rw [show -rn 53 (-x) - x = -(rn 53 (-x) - -x) by ring, abs_neg]
      rwa [show -y - -x = -(y - x) by ring, abs_neg] at this
    · exact rn_rounds.nearest x y hy

theorem symmetric_odd (x : ℝ) : symmetric (-x) = -symmetric x := by
  have z : rn 53 0 = 0 := by
    have := rn_rounds.rel 0
    simpa using this
  unfold symmetric
  rcases lt_trichotomy x 0 with h | h | h
  · rw [if_neg (by linarith), if_pos h, neg_neg]
  · subst h; simp [z]
  · rw [if_pos (by linarith), if_neg (by linarith), neg_neg]

example (s : ℕ → Bool) : acc symmetric (squares ⟨symmetric, fun k x => if s k then x else symmetric x⟩) 0 ⟨0, 3.84e8, 0⟩ 4.9e12 = 0 :=
  centre_rounded symmetric_rounds _ _ ⟨0, 0, by norm_num, by simp⟩ ⟨384000000, 0, by norm_num, by norm_num⟩ ⟨0, 0, by norm_num, by simp⟩ symmetric_odd
    (fun v => by unfold squares; simp)

end Verif.RoundedPoint
