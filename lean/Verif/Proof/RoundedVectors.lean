import Verif.Proof.RoundedRelativity
import Verif.Proof.RoundNearest
/-
Vectors known up to rounding errors: norms, dot and cross products.
-/
namespace Verif.RoundedRelativity
open Verif Verif.Rounding Verif.Rounded
open Verif.Relativity (State)

theorem dot_sq (a : V3) : a.norm * a.norm = a.x * a.x + a.y * a.y + a.z * a.z :=
  Real.mul_self_sqrt (by unfold V3.dot; nlinarith [mul_self_nonneg a.x, mul_self_nonneg a.y, mul_self_nonneg a.z])

theorem norm_nonneg (a : V3) : 0 ≤ a.norm := Real.sqrt_nonneg _

theorem le_norm {a : V3} {x : ℝ} (h : x * x ≤ a.x * a.x + a.y * a.y + a.z * a.z) : |x| ≤ a.norm := by
  refine abs_le_of_sq_le_sq' ?_ (norm_nonneg a) |> fun h => abs_le.mpr h
  rw [pow_two, pow_two, dot_sq]
  exact h

/-- Cauchy and Schwarz. -/
theorem cauchy (a b : V3) : |a.x * b.x| + |a.y * b.y| + |a.z * b.z| ≤ a.norm * b.norm := by
  refine (abs_le_of_sq_le_sq' ?_ (mul_nonneg (norm_nonneg a) (norm_nonneg b))).2
  rw [show (a.norm * b.norm) ^ 2 = (a.norm * a.norm) * (b.norm * b.norm) by ring, dot_sq, dot_sq, abs_mul, abs_mul, abs_mul,
    ← abs_mul_abs_self a.x, ← abs_mul_abs_self a.y, ← abs_mul_abs_self a.z, ← abs_mul_abs_self b.x, ← abs_mul_abs_self b.y, ← abs_mul_abs_self b.z]
  generalize |a.x| = p, |a.y| = q, |a.z| = r, |b.x| = x, |b.y| = y, |b.z| = z
  nlinarith [sq_nonneg (p * y - q * x), sq_nonneg (p * z - r * x), sq_nonneg (q * z - r * y)]

theorem cauchy2 (a b : V3) : |a.y * b.z| + |a.z * b.y| ≤ a.norm * b.norm ∧ |a.z * b.x| + |a.x * b.z| ≤ a.norm * b.norm ∧
    |a.x * b.y| + |a.y * b.x| ≤ a.norm * b.norm := by
  have key : ∀ {p q x y P Q : ℝ}, p * p + q * q ≤ P * P → x * x + y * y ≤ Q * Q → 0 ≤ P → 0 ≤ Q → |p * y| + |q * x| ≤ P * Q := by
    intro p q x y P Q h1 h2 hP hQ
    refine (abs_le_of_sq_le_sq' ?_ (mul_nonneg hP hQ)).2
    have h3 := mul_le_mul h1 h2 (by nlinarith [mul_self_nonneg x, mul_self_nonneg y]) (mul_self_nonneg P)
    rw [abs_mul, abs_mul]
    rw [← abs_mul_abs_self p, ← abs_mul_abs_self q, ← abs_mul_abs_self x, ← abs_mul_abs_self y] at h3
    generalize |p| = p, |q| = q, |x| = x, |y| = y at *
    nlinarith [sq_nonneg (p * x - q * y)]
  have ha := dot_sq a
  have hb := dot_sq b
  have h := norm_nonneg a
  have g := norm_nonneg b
  refine ⟨key (P := a.norm) (Q := b.norm) ?_ ?_ h g, key (P := a.norm) (Q := b.norm) ?_ ?_ h g, key (P := a.norm) (Q := b.norm) ?_ ?_ h g⟩ <;>
    nlinarith [mul_self_nonneg a.x, mul_self_nonneg a.y, mul_self_nonneg a.z, mul_self_nonneg b.x, mul_self_nonneg b.y, mul_self_nonneg b.z]

/-- A vector known up to two rounding errors in each component. -/
structure VRel (a' a : V3) : Prop where
  x : Rel 2.1 a'.x a.x
  y : Rel 2.1 a'.y a.y
  z : Rel 2.1 a'.z a.z

theorem VRel.neg {a' a : V3} (h : VRel a' a) : VRel (-a') (-a) := ⟨h.x.neg, h.y.neg, h.z.neg⟩

theorem scale_rel {fl : Rounded.Arith} (hf : Faithful fl) (x : ℝ) {k : ℝ} (hk : 0 ≤ k) : Rel 2.1 (fl (x * lit fl k)) (x * k) := by
  have l : Rel 1 (lit fl k) k := by
    unfold lit
    rw [if_neg (not_lt.mpr hk)]
    exact Rel.one hf.toRounds k
  exact (((Rel.refl x).mul l (by norm_num) (by norm_num) (by norm_num)).fl hf.toRounds (by norm_num)).mono (by norm_num)

theorem km_rel {fl : Rounded.Arith} (hf : Faithful fl) (a : V3) : VRel (km fl a) ((1e-3 : ℝ) * a) := by
  have h : ∀ x : ℝ, Rel 2.1 (fl (x * lit fl 1e-3)) (1e-3 * x) := fun x => by rw [mul_comm 1e-3 x]; exact scale_rel hf x (by norm_num)
  exact ⟨h _, h _, h _⟩

theorem norm_rel {fl : Rounded.Arith} (hf : Faithful fl) {sq : V3 → ℝ} (hq : SumOfSquares sq) {v' v : V3} (h : VRel v' v) :
    Rel 9.5 (norm fl sq v') v.norm := by
  have s2 : ∀ {a' a : ℝ}, Rel 2.1 a' a → Rel 4.21 (a' ^ 2) (a * a) := by
    intro a' a h
    rw [pow_two]
    exact (h.mul h (by norm_num) (by norm_num) (by norm_num)).mono (by norm_num)
  have p := ((s2 h.x).add_nonneg (s2 h.y) (mul_self_nonneg _) (mul_self_nonneg _)).add_nonneg (s2 h.z)
    (add_nonneg (mul_self_nonneg _) (mul_self_nonneg _)) (mul_self_nonneg _)
  have g : Rel 4 (sq v') (v'.x ^ 2 + v'.y ^ 2 + v'.z ^ 2) := by
    have := hq v'
    unfold Rounding.Rel
    rwa [abs_of_nonneg (by positivity : 0 ≤ v'.x ^ 2 + v'.y ^ 2 + v'.z ^ 2)]
  have t := RoundedPoint.rel_trans g p (by norm_num) (by norm_num) (by norm_num)
  have n0 : 0 ≤ v.x * v.x + v.y * v.y + v.z * v.z := by nlinarith [mul_self_nonneg v.x, mul_self_nonneg v.y, mul_self_nonneg v.z]
  exact ((t.sqrt n0 (t.nonneg (by norm_num) n0)).fl hf.toRounds (by norm_num)).mono (by norm_num)

theorem dot_sc {dot : V3 → V3 → ℝ} (hd : DotProduct dot) {a' a b' b : V3} (ha : VRel a' a) (hb : VRel b' b) :
    Sc 8.4 (a.norm * b.norm) (dot a' b') (a.dot b) := by
  have m : ∀ {x' x y' y : ℝ}, Rel 2.1 x' x → Rel 2.1 y' y → Sc 4.21 |x * y| (x' * y') (x * y) := fun h g => by
    have := ((Sc.of_rel h).mul (Sc.of_rel g) (by norm_num) (by norm_num) (by norm_num) (by norm_num)).mono (l := 4.21) (by norm_num)
    rwa [← abs_mul] at this
  have s := ((m ha.x hb.x).add (m ha.y hb.y)).add (m ha.z hb.z)
  have size : |a'.x * b'.x| + |a'.y * b'.y| + |a'.z * b'.z| ≤ 1.001 * (|a.x * b.x| + |a.y * b.y| + |a.z * b.z|) := by
    have one : ∀ {x' x : ℝ}, Sc 4.21 |x| x' x → |x'| ≤ 1.001 * |x| := by
      intro x' x h
      have t := abs_add_le (x' - x) x
      rw [sub_add_cancel] at t
      have := h.2
      have := abs_nonneg x
      have := mul_le_mul_of_nonneg_right (ku' (by norm_num : (4.21 : ℝ) ≤ 1000)) (abs_nonneg x)
      linarith
    have h1 := one (m ha.x hb.x)
    have h2 := one (m ha.y hb.y)
    have h3 := one (m ha.z hb.z)
    linarith
  have c := cauchy a b
  refine Sc.le (M := |a.x * b.x| + |a.y * b.y| + |a.z * b.z|) ⟨s.1, ?_⟩ (by norm_num) c
  have r := hd a' b'
  have e := s.2
  have hu := u_pos
  have t := abs_add_le (dot a' b' - (a'.x * b'.x + a'.y * b'.y + a'.z * b'.z)) (a'.x * b'.x + a'.y * b'.y + a'.z * b'.z - (a.x * b.x + a.y * b.y + a.z * b.z))
  rw [show dot a' b' - (a'.x * b'.x + a'.y * b'.y + a'.z * b'.z) + (a'.x * b'.x + a'.y * b'.y + a'.z * b'.z - (a.x * b.x + a.y * b.y + a.z * b.z)) =
    dot a' b' - a.dot b by unfold V3.dot; ring] at t
  have r2 : 4 * u * (|a'.x * b'.x| + |a'.y * b'.y| + |a'.z * b'.z|) ≤ 4 * u * (1.001 * (|a.x * b.x| + |a.y * b.y| + |a.z * b.z|)) :=
    mul_le_mul_of_nonneg_left size (by positivity)
  have n : 0 ≤ u * (|a.x * b.x| + |a.y * b.y| + |a.z * b.z|) := by positivity
  linarith

theorem minor_sc {fl : Rounded.Arith} (hf : Faithful fl) (j : ℕ) {k m A B C D a' a b' b c' c d' d : ℝ} (h0 : 0 ≤ k) (hk : k ≤ 100) (m0 : 0 ≤ m) (hm : m ≤ 100)
    (ha : Sc k A a' a) (hb : Sc m B b' b) (hc : Sc k C c' c) (hd : Sc m D d' d) :
    Sc (k + m + 2.01) (A * B + C * D) (minor fl j a' b' c' d') (a * b - c * d) := by
  have p := (ha.mul hb h0 (by linarith) m0 (by linarith)).pr hf j (by linarith)
  have q := (hc.mul hd h0 (by linarith) m0 (by linarith)).pr hf (j + 1) (by linarith)
  exact ((p.sub q).fl hf (by linarith)).mono (by linarith)

theorem cross_sc {fl : Rounded.Arith} (hf : Faithful fl) {a' a b' b : V3} (ha : VRel a' a) (hb : VRel b' b) :
    Sc 6.3 (a.norm * b.norm) (cross fl a' b').x (a.cross b).x ∧ Sc 6.3 (a.norm * b.norm) (cross fl a' b').y (a.cross b).y ∧
      Sc 6.3 (a.norm * b.norm) (cross fl a' b').z (a.cross b).z := by
  obtain ⟨h1, h2, h3⟩ := cauchy2 a b
  simp only [abs_mul] at h1 h2 h3
  have n1 : (0 : ℝ) ≤ 2.1 := by norm_num
  have n2 : (2.1 : ℝ) ≤ 100 := by norm_num
  have n3 : (2.1 : ℝ) + 2.1 + 2.01 ≤ 6.3 := by norm_num
  have n4 : (0 : ℝ) ≤ 6.3 := by norm_num
  exact ⟨((minor_sc hf 10 n1 n2 n1 n2 (.of_rel ha.y) (.of_rel hb.z) (.of_rel ha.z) (.of_rel hb.y)).mono n3).le n4 h1,
    ((minor_sc hf 12 n1 n2 n1 n2 (.of_rel ha.z) (.of_rel hb.x) (.of_rel ha.x) (.of_rel hb.z)).mono n3).le n4 h2,
    ((minor_sc hf 14 n1 n2 n1 n2 (.of_rel ha.x) (.of_rel hb.y) (.of_rel ha.y) (.of_rel hb.x)).mono n3).le n4 h3⟩

theorem cross2_sc {fl : Rounded.Arith} (hf : Faithful fl) {a' a b' b v' v : V3} (ha : VRel a' a) (hb : VRel b' b) (hv : VRel v' v) :
    Sc 10.6 (2 * (a.norm * b.norm * v.norm)) (cross fl (cross fl a' b') v').x ((a.cross b).cross v).x ∧
      Sc 10.6 (2 * (a.norm * b.norm * v.norm)) (cross fl (cross fl a' b') v').y ((a.cross b).cross v).y ∧
      Sc 10.6 (2 * (a.norm * b.norm * v.norm)) (cross fl (cross fl a' b') v').z ((a.cross b).cross v).z := by
  obtain ⟨h1, h2, h3⟩ := cross_sc hf ha hb
  have m : 0 ≤ a.norm * b.norm := mul_nonneg (norm_nonneg a) (norm_nonneg b)
  have vx : |v.x| ≤ v.norm := le_norm (by nlinarith [mul_self_nonneg v.y, mul_self_nonneg v.z])
  have vy : |v.y| ≤ v.norm := le_norm (by nlinarith [mul_self_nonneg v.x, mul_self_nonneg v.z])
  have vz : |v.z| ≤ v.norm := le_norm (by nlinarith [mul_self_nonneg v.y, mul_self_nonneg v.x])
  have n1 : (0 : ℝ) ≤ 2.1 := by norm_num
  have n2 : (2.1 : ℝ) ≤ 100 := by norm_num
  have n3 : (6.3 : ℝ) + 2.1 + 2.01 ≤ 10.6 := by norm_num
  have n4 : (0 : ℝ) ≤ 10.6 := by norm_num
  have n5 : (0 : ℝ) ≤ 6.3 := by norm_num
  have n6 : (6.3 : ℝ) ≤ 100 := by norm_num
  have b : ∀ {p q : ℝ}, p ≤ v.norm → q ≤ v.norm → a.norm * b.norm * p + a.norm * b.norm * q ≤ 2 * (a.norm * b.norm * v.norm) := by
    intro p q hp hq
    have := mul_le_mul_of_nonneg_left hp m
    have := mul_le_mul_of_nonneg_left hq m
    linarith
  exact ⟨((minor_sc hf 10 n5 n6 n1 n2 h2 (.of_rel hv.z) h3 (.of_rel hv.y)).mono n3).le n4 (b vz vy),
    ((minor_sc hf 12 n5 n6 n1 n2 h3 (.of_rel hv.x) h1 (.of_rel hv.z)).mono n3).le n4 (b vx vz),
    ((minor_sc hf 14 n5 n6 n1 n2 h1 (.of_rel hv.y) h2 (.of_rel hv.x)).mono n3).le n4 (b vy vx)⟩

theorem norm_km (a : V3) : ((1e-3 : ℝ) * a).norm = 1e-3 * a.norm := by
  rw [Relativity.norm_scale, abs_of_pos (by norm_num)]

theorem norm_neg (a : V3) : (-a).norm = a.norm := by
  have : (-a : V3) = (-1 : ℝ) * a := by ext <;> simp
  rw [this, Relativity.norm_scale]; simp

theorem size_km {s R GMe c : ℝ} (v V GMs J beta gamma : ℝ) (s0 : 0 < s) (R0 : 0 < R) (c0 : c ≠ 0) :
    1000 * termSize (1e-3 * s) (1e-3 * v) (1e-3 * R) (1e-3 * V) (GMe * 1e-9) (GMs * 1e-9) (J * 1e-6) (c * 1e-3) beta gamma =
      termSize s v R V GMe GMs J c beta gamma := by
  unfold termSize
  rw [abs_mul, abs_mul, abs_mul, abs_of_pos (by norm_num : (0 : ℝ) < 1e-9), abs_of_pos (by norm_num : (0 : ℝ) < 1e-6)]
  field_simp
  ring

theorem size_default {s v R V : ℝ} (s0 : 0 < s) (R0 : 0 < R) (hs : 6.5e6 ≤ s) (v0 : 0 ≤ v) (hv : v ≤ 1.2e4) (hR : 1.4e11 ≤ R) (V0 : 0 ≤ V)
    (hV : V ≤ 3.1e4) : termSize s v R V 3.986004418e14 1.32712442099e20 9.8e8 299792458 1 1 ≤ 1.1e-7 := by
  unfold termSize
  rw [abs_of_pos (by norm_num : (0 : ℝ) < 3.986004418e14), abs_of_pos (by norm_num : (0 : ℝ) < 1.32712442099e20),
    abs_of_pos (by norm_num : (0 : ℝ) < 9.8e8), abs_of_pos (by norm_num : (0 : ℝ) < 1)]
  have i : s⁻¹ ≤ (6.5e6)⁻¹ := inv_anti₀ (by norm_num) hs
  have I : R⁻¹ ≤ (1.4e11)⁻¹ := inv_anti₀ (by norm_num) hR
  have i0 := (inv_pos.mpr s0).le
  have I0 := (inv_pos.mpr R0).le
  have e1 : 3.986004418e14 / (299792458 ^ 2 * s ^ 3) * ((2 * (1 + 1) * (3.986004418e14 / s) + 1 * v ^ 2) * s + 2 * (1 + 1) * (s * v) * v) =
      3.986004418e14 / 299792458 ^ 2 * ((4 * 3.986004418e14) * (s⁻¹) ^ 3 + 5 * (v ^ 2 * (s⁻¹) ^ 2)) := by
    field_simp
    ring
  have e2 : 3.986004418e14 / (299792458 ^ 2 * s ^ 3) * (4 * (1 + 1) * v * 9.8e8) = 3.986004418e14 / 299792458 ^ 2 * (8 * 9.8e8) * ((s⁻¹) ^ 3 * v) := by
    field_simp
    ring
  have e3 : 2 * (1 + 2 * 1) * (1.32712442099e20 / (299792458 ^ 2 * R ^ 3)) * (V * R * v) = 6 * 1.32712442099e20 / 299792458 ^ 2 * ((R⁻¹) ^ 2 * (V * v)) := by
    field_simp
    ring
  rw [e1, e2, e3]
  have a1 := pow_le_pow_left₀ i0 i 3
  have a2 := mul_le_mul (pow_le_pow_left₀ v0 hv 2) (pow_le_pow_left₀ i0 i 2) (by positivity) (by norm_num)
  have a3 := mul_le_mul a1 hv v0 (by norm_num)
  have a4 := mul_le_mul (pow_le_pow_left₀ I0 I 2) (mul_le_mul hV hv v0 (by norm_num)) (by positivity) (by norm_num)
  norm_num at a1 a2 a3 a4 ⊢
  linarith

end Verif.RoundedRelativity
