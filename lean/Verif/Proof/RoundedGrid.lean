import Verif.Model.RoundedGrid
import Verif.Spec.RoundedGrid
import Verif.Proof.Rounding
import Verif.Props.DesaiGrid
/-
Lookups in grids in double precision.
-/
namespace Verif.RoundedGrid
open Verif Verif.Rounded Verif.Grid Verif.DesaiGrid Verif.PoleTide Verif.Rounding

variable {fl : Arith} (hf : Faithful fl)

theorem u_le : u ≤ 1.1103e-16 := by unfold u; norm_num

/-! ### Along an axis -/

include hf in
/-- The index of a point, known up to 4.5e-13, that lies in a cell. -/
theorem index_ok {start step : ℚ} {pts i : Int} (ha : Axis.Usual start step pts) (hi : 0 ≤ i) (hi' : i < pts) {x' x : ℝ} (hx' : |x' - x| ≤ 4.5e-13)
    (h1 : (start : ℝ) + i * step + 1e-12 ≤ x) (h2 : x ≤ start + (i + 1) * step - 1e-12) :
    index fl start step x' = i ∧ InRange fl start step pts x' := by
  obtain ⟨a1, a2, a3⟩ := ha
  have a1 : (-360 : ℝ) ≤ start := by exact_mod_cast a1
  have a2 : (start : ℝ) + pts * step ≤ 720 := by exact_mod_cast a2
  have a3 : (1 / 1000 : ℝ) ≤ step := by
    have : ((1 / 1000 : ℚ) : ℝ) ≤ step := by exact_mod_cast a3
    simpa using this
  have i0 : (0 : ℝ) ≤ i := by exact_mod_cast hi
  have i1 : (i : ℝ) + 1 ≤ pts := by exact_mod_cast hi'
  have s0 : (0 : ℝ) < step := by linarith
  have hm := mul_le_mul_of_nonneg_right i1 s0.le
  have hm0 := mul_nonneg i0 s0.le
  have hm1 : ((i : ℝ) + 1) * step = i * step + step := by ring
  have hs1 : (start : ℝ) ≤ 720 := by linarith
  have hu := u_le
  have u0 := u_pos
  have rs := hf.rel (start : ℝ)
  have rt := hf.rel (step : ℝ)
  rw [abs_of_pos s0] at rt
  have hsa : |(start : ℝ)| ≤ 720 := abs_le.mpr ⟨by linarith, hs1⟩
  have rs' : |fl start - start| ≤ 8.1e-14 := rs.trans ((mul_le_mul hu hsa (abs_nonneg _) (by norm_num)).trans (by norm_num))
  have hst : (pts : ℝ) * step ≤ 1080 := by linarith
  have hp0 : 0 ≤ (pts : ℝ) * step := by linarith
  -- numerator
  set N := fl (x' - fl start) with hN
  have rN := hf.rel (x' - fl start)
  rw [← hN] at rN
  obtain ⟨e1, e2⟩ := abs_le.mp hx'
  obtain ⟨e3, e4⟩ := abs_le.mp rs'
  have hb : |x' - fl start| ≤ 1081 := abs_le.mpr ⟨by linarith, by linarith⟩
  have rN' : |N - (x' - fl start)| ≤ 1.21e-13 := rN.trans ((mul_le_mul hu hb (abs_nonneg _) (by norm_num)).trans (by norm_num))
  obtain ⟨e5, e6⟩ := abs_le.mp rN'
  have n1 : i * step + 1e-12 - 6.6e-13 ≤ N := by linarith
  have n2 : N ≤ (i + 1) * step - 1e-12 + 6.6e-13 := by linarith
  have N0 : 0 < N := by linarith
  have N1 : N ≤ 1080 := by linarith
  -- quotient
  obtain ⟨t1, t2⟩ := abs_le.mp rt
  have hus : u * step ≤ 1.1103e-16 * step := mul_le_mul_of_nonneg_right hu s0.le
  have t0 : 0 < fl step := by linarith
  have rq := hf.rel (N / fl step)
  rw [abs_of_pos (div_pos N0 t0)] at rq
  set q := fl (N / fl step) with hq
  have hd : N / fl step * fl step = N := div_mul_cancel₀ _ t0.ne'
  set d := N / fl step with hdd
  have d0 : 0 < d := div_pos N0 t0
  obtain ⟨q1, q2⟩ := abs_le.mp rq
  have hud : u * d ≤ 1.1103e-16 * d := mul_le_mul_of_nonneg_right hu d0.le
  -- `d * step` is close to `N`
  have hds1 : d * step * (1 - 1.1103e-16) ≤ N := by
    have : d * (step * (1 - 1.1103e-16)) ≤ d * fl step := mul_le_mul_of_nonneg_left (by linarith) d0.le
    linarith
  have hds2 : N ≤ d * step * (1 + 1.1103e-16) := by
    have : d * fl step ≤ d * (step * (1 + 1.1103e-16)) := mul_le_mul_of_nonneg_left (by linarith) d0.le
    linarith
  have hds0 : 0 < d * step := mul_pos d0 s0
  have hdsle : d * step ≤ 1081 := by linarith
  have hqs1 : q * step ≤ d * step * (1 + 1.1103e-16) := by
    have : q * step ≤ d * (1 + 1.1103e-16) * step := mul_le_mul_of_nonneg_right (by linarith) s0.le
    linarith
  have hqs2 : d * step * (1 - 1.1103e-16) ≤ q * step := by
    have : d * (1 - 1.1103e-16) * step ≤ q * step := mul_le_mul_of_nonneg_right (by linarith) s0.le
    linarith
  refine ⟨?_, ?_, ?_⟩
  · unfold index
    rw [← hN, ← hdd, ← hq, Int.floor_eq_iff]
    constructor
    · have : (i : ℝ) * step ≤ q * step := by linarith
      exact le_of_mul_le_mul_right this s0
    · have : q * step < (i + 1) * step := by linarith
      exact lt_of_mul_lt_mul_right this s0.le
  · linarith
  · unfold stop
    have rp : |fl.pr 0 (pts * fl step) - pts * fl step| ≤ u * |pts * fl step| := hf.prel 0 _
    have p0 : (0 : ℝ) < pts := by linarith
    have hpf : (0 : ℝ) ≤ pts * fl step := by positivity
    rw [abs_of_nonneg hpf] at rp
    have hpf1 : pts * step * (1 - 1.1103e-16) ≤ pts * fl step := by
      have : pts * (step * (1 - 1.1103e-16)) ≤ (pts : ℝ) * fl step := mul_le_mul_of_nonneg_left (by linarith) p0.le
      linarith
    have hpf2 : pts * fl step ≤ pts * step * (1 + 1.1103e-16) := by
      have : (pts : ℝ) * fl step ≤ pts * (step * (1 + 1.1103e-16)) := mul_le_mul_of_nonneg_left (by linarith) p0.le
      linarith
    have hpf3 : pts * fl step ≤ 1081 := by linarith
    have rp' : |fl.pr 0 (pts * fl step) - pts * fl step| ≤ 1.21e-13 := rp.trans ((mul_le_mul hu hpf3 hpf (by norm_num)).trans (by norm_num))
    obtain ⟨p1, p2⟩ := abs_le.mp rp'
    have rr := hf.rel (fl start + fl.pr 0 (pts * fl step))
    have hb2 : |fl start + fl.pr 0 (pts * fl step)| ≤ 1801 := abs_le.mpr ⟨by linarith, by linarith⟩
    have rr' : |fl (fl start + fl.pr 0 (pts * fl step)) - (fl start + fl.pr 0 (pts * fl step))| ≤ 2.1e-13 :=
      rr.trans ((mul_le_mul hu hb2 (abs_nonneg _) (by norm_num)).trans (by norm_num))
    obtain ⟨r1, r2⟩ := abs_le.mp rr'
    linarith

/-! ### The interpolation -/

/-- `x'` is `x` up to `k * c` times the bound `M` of `x`. -/
def Q (c k M x' x : ℝ) : Prop := |x| ≤ M ∧ |x' - x| ≤ k * c * M

/-- What `c` must be. -/
def Small (c : ℝ) : Prop := 11 * u ≤ c ∧ c ≤ 1.5e-9

theorem Q.M0 {c k M x' x : ℝ} (h : Q c k M x' x) : 0 ≤ M := (abs_nonneg _).trans h.1

theorem Q.mono {c k k' M x' x : ℝ} (hc : Small c) (h : Q c k M x' x) (hk : k ≤ k') : Q c k' M x' x := by
  have c0 : 0 ≤ c := by have := u_pos; linarith [hc.1]
  exact ⟨h.1, h.2.trans (mul_le_mul_of_nonneg_right (mul_le_mul_of_nonneg_right hk c0) h.M0)⟩

theorem Q.abs' {c k M x' x : ℝ} (hc : Small c) (hk : k ≤ 10) (h : Q c k M x' x) : |x'| ≤ 1.01 * M := by
  have c0 : 0 ≤ c := by have := u_pos; linarith [hc.1]
  have h1 : k * c ≤ 0.01 := by
    have : k * c ≤ 10 * c := mul_le_mul_of_nonneg_right hk c0
    have := hc.2
    linarith
  have h2 : k * c * M ≤ 0.01 * M := mul_le_mul_of_nonneg_right h1 h.M0
  have h3 : |x'| ≤ |x' - x| + |x| := by
    have := abs_add_le (x' - x) x
    rwa [sub_add_cancel] at this
  linarith [h.1, h.2]

theorem Q.round {c k M x' x r : ℝ} (hc : Small c) (hk : k ≤ 10) (h : Q c k M x' x) (hr : |r - x'| ≤ u * |x'|) : Q c (k + 0.1) M r x := by
  refine ⟨h.1, ?_⟩
  have h1 : u * |x'| ≤ c / 11 * (1.01 * M) := mul_le_mul (by linarith [hc.1]) (h.abs' hc hk) (abs_nonneg _) (by have := u_pos; linarith [hc.1])
  have h2 : |r - x| ≤ |r - x'| + |x' - x| := by
    have := abs_add_le (r - x') (x' - x)
    rwa [sub_add_sub_cancel] at this
  have c0 : 0 ≤ c := by have := u_pos; linarith [hc.1]
  have h3 : 0 ≤ c * M := mul_nonneg c0 h.M0
  have h4 := h.2
  have e1 : c / 11 * (1.01 * M) = 1.01 / 11 * (c * M) := by ring
  have e2 : (k + 0.1) * c * M = k * c * M + 0.1 * (c * M) := by ring
  rw [e2]
  rw [e1] at h1
  linarith

theorem Q.add {c k M N x' x y' y : ℝ} (hx : Q c k M x' x) (hy : Q c k N y' y) : Q c k (M + N) (x' + y') (x + y) := by
  refine ⟨(abs_add_le _ _).trans (add_le_add hx.1 hy.1), ?_⟩
  have := abs_add_le (x' - x) (y' - y)
  rw [show x' - x + (y' - y) = x' + y' - (x + y) from by ring] at this
  refine this.trans ?_
  have e : k * c * (M + N) = k * c * M + k * c * N := by ring
  rw [e]
  exact add_le_add hx.2 hy.2

/-- A product, from bounds of its factors. -/
theorem mul_err {M N e f x' x y' y : ℝ} (hx : |x| ≤ M) (hx' : |x' - x| ≤ e * M) (hy : |y| ≤ N) (hy' : |y' - y| ≤ f * N) (hM : 0 ≤ M) (hN : 0 ≤ N)
    (he : 0 ≤ e) : |x' * y' - x * y| ≤ (e + f + e * f) * (M * N) := by
  have e1 : x' * y' - x * y = (x' - x) * y + x * (y' - y) + (x' - x) * (y' - y) := by ring
  rw [e1]
  refine (abs_add_le _ _).trans ?_
  refine (add_le_add_left (abs_add_le _ _) _).trans ?_
  rw [abs_mul, abs_mul, abs_mul]
  have a1 : |x' - x| * |y| ≤ e * M * N := mul_le_mul hx' hy (abs_nonneg _) (by positivity)
  have a2 : |x| * |y' - y| ≤ M * (f * N) := mul_le_mul hx hy' (abs_nonneg _) hM
  have a3 : |x' - x| * |y' - y| ≤ e * M * (f * N) := mul_le_mul hx' hy' (abs_nonneg _) (by positivity)
  have : (e + f + e * f) * (M * N) = e * M * N + M * (f * N) + e * M * (f * N) := by ring
  linarith

theorem Q.mul {c k l M N x' x y' y : ℝ} (hc : Small c) (hk0 : 0 ≤ k) (hk : k ≤ 10) (hl0 : 0 ≤ l) (hl : l ≤ 10) (hx : Q c k M x' x) (hy : Q c l N y' y) :
    Q c (k + l + 0.001) (M * N) (x' * y') (x * y) := by
  have c0 : 0 ≤ c := by have := u_pos; linarith [hc.1]
  refine ⟨by rw [abs_mul]; exact mul_le_mul hx.1 hy.1 (abs_nonneg _) hx.M0, ?_⟩
  refine (mul_err hx.1 hx.2 hy.1 hy.2 hx.M0 hy.M0 (mul_nonneg hk0 c0)).trans ?_
  refine mul_le_mul_of_nonneg_right ?_ (mul_nonneg hx.M0 hy.M0)
  have h1 : k * l ≤ 10 * 10 := mul_le_mul hk hl hl0 (by norm_num)
  have h2 : k * l * c ≤ 100 * c := by
    have := mul_le_mul_of_nonneg_right h1 c0
    linarith
  have h3 : k * l * c ≤ 0.001 := by linarith [hc.2]
  have h4 : k * l * c * c ≤ 0.001 * c := mul_le_mul_of_nonneg_right h3 c0
  have e : k * c + l * c + k * c * (l * c) = (k + l) * c + k * l * c * c := by ring
  rw [e]
  linarith

/-- A reciprocal. -/
theorem Q.inv {c k D' D : ℝ} (hc : Small c) (hk0 : 0 ≤ k) (hk : k ≤ 10) (h0 : 0 < D) (h : Q c k D D' D) : Q c (k + 0.001) (1 / D) (1 / D') (1 / D) := by
  have c0 : 0 ≤ c := by have := u_pos; linarith [hc.1]
  have hkc : k * c ≤ 1.5e-8 := by
    have : k * c ≤ 10 * c := mul_le_mul_of_nonneg_right hk c0
    linarith [hc.2]
  have hkc0 : 0 ≤ k * c := mul_nonneg hk0 c0
  have h2 := h.2
  obtain ⟨h3, h4⟩ := abs_le.mp h2
  have h5 : k * c * D ≤ 1.5e-8 * D := mul_le_mul_of_nonneg_right hkc h0.le
  have hD' : 0 < D' := by linarith
  have hi : 0 < 1 / D := by positivity
  refine ⟨by rw [abs_of_pos hi], ?_⟩
  have e : 1 / D' - 1 / D = (D - D') / D' * (1 / D) := by field_simp
  rw [e, abs_mul, abs_of_pos hi]
  refine mul_le_mul_of_nonneg_right ?_ hi.le
  rw [abs_div, abs_of_pos hD', div_le_iff₀ hD', abs_sub_comm]
  refine h2.trans ?_
  have h6 : (1 - 1.5e-8) * D ≤ D' := by linarith
  have h7 : (k + 0.001) * c * ((1 - 1.5e-8) * D) ≤ (k + 0.001) * c * D' := mul_le_mul_of_nonneg_left h6 (by positivity)
  refine le_trans ?_ h7
  have h8 : k * (c * D) ≤ 10 * (c * D) := mul_le_mul_of_nonneg_right hk (mul_nonneg c0 h0.le)
  have h9 : 0 ≤ c * D := mul_nonneg c0 h0.le
  have e2 : (k + 0.001) * c * ((1 - 1.5e-8) * D) = (1 - 1.5e-8) * (k * (c * D)) + 0.001 * (1 - 1.5e-8) * (c * D) := by ring
  rw [e2]
  have e3 : k * c * D = k * (c * D) := by ring
  rw [e3]
  linarith

/-- A product of two differences, each known up to its own error. -/
theorem Q.diffs {a b M N x' x y' y : ℝ} (k : ℝ) (hk0 : 0 ≤ k) (hk : k ≤ 1) (hc : Small (a + b)) (ha : 0 ≤ a) (hb : 0 ≤ b) (hM : 0 ≤ M) (hN : 0 ≤ N)
    (hx : |x| ≤ M) (hx' : |x' - x| ≤ k * a * M) (hy : |y| ≤ N) (hy' : |y' - y| ≤ k * b * N) : Q (a + b) (k + 0.001) (M * N) (x' * y') (x * y) := by
  refine ⟨by rw [abs_mul]; exact mul_le_mul hx hy (abs_nonneg _) hM, ?_⟩
  refine (mul_err hx hx' hy hy' hM hN (mul_nonneg hk0 ha)).trans ?_
  refine mul_le_mul_of_nonneg_right ?_ (mul_nonneg hM hN)
  have h2 := hc.2
  have h3 : k * a ≤ 0.001 := by
    have : k * a ≤ 1 * a := mul_le_mul_of_nonneg_right hk ha
    linarith
  have h4 : k * a * (k * b) ≤ 0.001 * b := by
    refine mul_le_mul h3 ?_ (mul_nonneg hk0 hb) (by norm_num)
    have : k * b ≤ 1 * b := mul_le_mul_of_nonneg_right hk hb
    linarith
  have e : (k + 0.001) * (a + b) = k * a + k * b + 0.001 * a + 0.001 * b := by ring
  rw [e]
  linarith

include hf in
/-- A difference of two approximations. -/
theorem diff_err {s t s' t' e h : ℝ} (h1 : |s' - s| ≤ e) (h2 : |t' - t| ≤ 8.1e-14) (he : e ≤ 4.5e-13) (hd : |s - t| ≤ h) (hh : h ≤ 1080) :
    |fl (s' - t') - (s - t)| ≤ e + 2.02e-13 := by
  have r := hf.rel (s' - t')
  obtain ⟨a1, a2⟩ := abs_le.mp h1
  obtain ⟨a3, a4⟩ := abs_le.mp h2
  obtain ⟨a5, a6⟩ := abs_le.mp hd
  have : |s' - t'| ≤ 1080.1 := abs_le.mpr ⟨by linarith, by linarith⟩
  have hu := u_le
  have r' : |fl (s' - t') - (s' - t')| ≤ 1.2e-13 := r.trans ((mul_le_mul hu this (abs_nonneg _) (by norm_num)).trans (by norm_num))
  obtain ⟨b1, b2⟩ := abs_le.mp r'
  exact abs_le.mpr ⟨by linarith, by linarith⟩

include hf in
theorem diff_err' {s t s' t' e h : ℝ} (h1 : |s' - s| ≤ e) (h2 : |t' - t| ≤ 8.1e-14) (he : e ≤ 4.5e-13) (hd : |t - s| ≤ h) (hh : h ≤ 1080) :
    |fl (t' - s') - (t - s)| ≤ e + 2.02e-13 := by
  have r := hf.rel (t' - s')
  obtain ⟨a1, a2⟩ := abs_le.mp h1
  obtain ⟨a3, a4⟩ := abs_le.mp h2
  obtain ⟨a5, a6⟩ := abs_le.mp hd
  have : |t' - s'| ≤ 1080.1 := abs_le.mpr ⟨by linarith, by linarith⟩
  have hu := u_le
  have r' : |fl (t' - s') - (t' - s')| ≤ 1.2e-13 := r.trans ((mul_le_mul hu this (abs_nonneg _) (by norm_num)).trans (by norm_num))
  obtain ⟨b1, b2⟩ := abs_le.mp r'
  exact abs_le.mpr ⟨by linarith, by linarith⟩

/-- The interpolated value as the code computes it, exactly. -/
noncomputable def exactValue (x1 x2 y1 y2 x y bl br tl tr : ℝ) : ℝ :=
  1 / ((x2 - x1) * (y2 - y1)) * (bl * ((x2 - x) * (y2 - y)) + br * ((x - x1) * (y2 - y)) + tl * ((x2 - x) * (y - y1)) + tr * ((x - x1) * (y - y1)))

theorem exactValue_ok (x1 x2 y1 y2 x y bl br tl tr : ℝ) (hx : x1 ≠ x2) (hy : y1 ≠ y2) :
    Interpolates x1 x2 y1 y2 bl br tl tr x y (exactValue x1 x2 y1 y2 x y bl br tl tr) := by
  have hx' : x2 - x1 ≠ 0 := sub_ne_zero.mpr (Ne.symm hx)
  have hy' : y2 - y1 ≠ 0 := sub_ne_zero.mpr (Ne.symm hy)
  refine ⟨(bl * x2 * y2 - br * x1 * y2 - tl * x2 * y1 + tr * x1 * y1) / ((x2 - x1) * (y2 - y1)),
    (-bl * y2 + br * y2 + tl * y1 - tr * y1) / ((x2 - x1) * (y2 - y1)),
    (-bl * x2 + br * x1 + tl * x2 - tr * x1) / ((x2 - x1) * (y2 - y1)),
    (bl - br - tl + tr) / ((x2 - x1) * (y2 - y1)), ?_, ?_, ?_, ?_, ?_⟩
  · field_simp; ring
  · field_simp; ring
  · field_simp; ring
  · field_simp; ring
  · unfold exactValue; field_simp; ring

include hf in
/-- The interpolation from approximate coordinates. -/
theorem bilinear_err {x1 x2 y1 y2 x y x1' x2' y1' y2' x' y' : ℝ} (hx : x1 ≤ x ∧ x ≤ x2) (hy : y1 ≤ y ∧ y ≤ y2)
    (wx : 1 / 1000 ≤ x2 - x1 ∧ x2 - x1 ≤ 1080) (wy : 1 / 1000 ≤ y2 - y1 ∧ y2 - y1 ≤ 1080)
    (e1 : |x1' - x1| ≤ 8.1e-14) (e2 : |x2' - x2| ≤ 8.1e-14) (e3 : |y1' - y1| ≤ 8.1e-14) (e4 : |y2' - y2| ≤ 8.1e-14)
    (e5 : |x' - x| ≤ 4.5e-13) (e6 : |y' - y| ≤ 4.5e-13) (bl br tl tr : ℝ) :
    |bilinear fl x1' x2' y1' y2' x' y' (fl bl) (fl br) (fl tl) (fl tr) - exactValue x1 x2 y1 y2 x y bl br tl tr| ≤
      2e-12 * (1 / (x2 - x1) + 1 / (y2 - y1)) * (|bl| + |br| + |tl| + |tr|) := by
  set X := x2 - x1 with hX
  set Y := y2 - y1 with hY
  have X0 : 0 < X := by linarith [wx.1]
  have Y0 : 0 < Y := by linarith [wy.1]
  set a := 7e-13 / X with ha
  set b := 7e-13 / Y with hb
  have aX : a * X = 7e-13 := by rw [ha]; field_simp
  have bY : b * Y = 7e-13 := by rw [hb]; field_simp
  have a0 : 0 < a := by positivity
  have b0 : 0 < b := by positivity
  have hu := u_le
  have a1 : 7e-13 / 1080 ≤ a := div_le_div_of_nonneg_left (by norm_num) X0 wx.2
  have b1 : 7e-13 / 1080 ≤ b := div_le_div_of_nonneg_left (by norm_num) Y0 wy.2
  have a2 : a ≤ 7e-13 / (1 / 1000) := div_le_div_of_nonneg_left (by norm_num) (by norm_num) wx.1
  have b2 : b ≤ 7e-13 / (1 / 1000) := div_le_div_of_nonneg_left (by norm_num) (by norm_num) wy.1
  have hc : Small (a + b) := ⟨by norm_num at a1 b1 ⊢; linarith, by norm_num at a2 b2 ⊢; linarith⟩
  -- the differences
  have dx2 : |fl (x2' - x') - (x2 - x)| ≤ 1 * a * X := by
    rw [one_mul, aX]; exact (diff_err' hf e5 e2 le_rfl (h := X) (abs_le.mpr ⟨by linarith, by linarith⟩) wx.2).trans (by norm_num)
  have dx1 : |fl (x' - x1') - (x - x1)| ≤ 1 * a * X := by
    rw [one_mul, aX]; exact (diff_err hf e5 e1 le_rfl (h := X) (abs_le.mpr ⟨by linarith, by linarith⟩) wx.2).trans (by norm_num)
  have dy2 : |fl (y2' - y') - (y2 - y)| ≤ 1 * b * Y := by
    rw [one_mul, bY]; exact (diff_err' hf e6 e4 le_rfl (h := Y) (abs_le.mpr ⟨by linarith, by linarith⟩) wy.2).trans (by norm_num)
  have dy1 : |fl (y' - y1') - (y - y1)| ≤ 1 * b * Y := by
    rw [one_mul, bY]; exact (diff_err hf e6 e3 le_rfl (h := Y) (abs_le.mpr ⟨by linarith, by linarith⟩) wy.2).trans (by norm_num)
  have dX : |fl (x2' - x1') - X| ≤ 0.43 * a * X := by
    rw [mul_assoc, aX]; exact (diff_err hf e2 e1 (by norm_num) (h := X) (abs_le.mpr ⟨by linarith, by linarith⟩) wx.2).trans (by norm_num)
  have dY : |fl (y2' - y1') - Y| ≤ 0.43 * b * Y := by
    rw [mul_assoc, bY]; exact (diff_err hf e4 e3 (by norm_num) (h := Y) (abs_le.mpr ⟨by linarith, by linarith⟩) wy.2).trans (by norm_num)
  have mx2 : |x2 - x| ≤ X := abs_le.mpr ⟨by linarith, by linarith⟩
  have mx1 : |x - x1| ≤ X := abs_le.mpr ⟨by linarith, by linarith⟩
  have my2 : |y2 - y| ≤ Y := abs_le.mpr ⟨by linarith, by linarith⟩
  have my1 : |y - y1| ≤ Y := abs_le.mpr ⟨by linarith, by linarith⟩
  -- the weights
  have P : ∀ {p' p q' q : ℝ}, |p| ≤ X → |p' - p| ≤ 1 * a * X → |q| ≤ Y → |q' - q| ≤ 1 * b * Y → Q (a + b) 1.101 (X * Y) (fl (p' * q')) (p * q) := by
    intro p' p q' q h1 h2 h3 h4
    exact ((Q.diffs 1 (by norm_num) le_rfl hc a0.le b0.le X0.le Y0.le h1 h2 h3 h4).round hc (by norm_num) (hf.rel _)).mono hc (by norm_num)
  have F : Q (a + b) 0.632 (1 / (X * Y)) (fl (1 / fl (fl (x2' - x1') * fl (y2' - y1')))) (1 / (X * Y)) := by
    have h := Q.diffs 0.43 (by norm_num) (by norm_num) hc a0.le b0.le X0.le Y0.le (abs_of_pos X0).le dX (abs_of_pos Y0).le dY
    have h := h.round hc (by norm_num) (hf.rel _)
    have h := (h.inv hc (by norm_num) (by norm_num) (mul_pos X0 Y0)).round hc (by norm_num) (hf.rel _)
    exact h.mono hc (by norm_num)
  -- the terms
  have V : ∀ v : ℝ, Q (a + b) 0.1 |v| (fl v) v := by
    intro v
    have h : Q (a + b) 0 |v| v v := ⟨le_rfl, by simp⟩
    exact (h.round hc (by norm_num) (hf.rel v)).mono hc (by norm_num)
  have T : ∀ (k : ℕ) (v : ℝ) {w' w : ℝ}, Q (a + b) 1.101 (X * Y) w' w → Q (a + b) 1.302 (|v| * (X * Y)) (fl.pr k (fl v * w')) (v * w) := by
    intro k v w' w h
    exact (((V v).mul hc (by norm_num) (by norm_num) (by norm_num) (by norm_num) h).round hc (by norm_num) (hf.prel k _)).mono hc (by norm_num)
  have t1 := T 0 bl (P mx2 dx2 my2 dy2)
  have t2 := T 1 br (P mx1 dx1 my2 dy2)
  have t3 := T 2 tl (P mx2 dx2 my1 dy1)
  have t4 := T 3 tr (P mx1 dx1 my1 dy1)
  have s1 := (t1.add t2).round hc (by norm_num) (hf.rel _)
  have s2 := (s1.add (t3.mono hc (by norm_num))).round hc (by norm_num) (hf.rel _)
  have s3 := (s2.add (t4.mono hc (by norm_num))).round hc (by norm_num) (hf.rel _)
  have r := (F.mul hc (by norm_num) (by norm_num) (by norm_num) (by norm_num) s3).round hc (by norm_num) (hf.rel _)
  have r2 := r.2
  unfold bilinear exactValue
  refine r2.trans ?_
  have e7 : 1 / (X * Y) * (|bl| * (X * Y) + |br| * (X * Y) + |tl| * (X * Y) + |tr| * (X * Y)) = |bl| + |br| + |tl| + |tr| := by
    field_simp
  rw [e7]
  refine mul_le_mul_of_nonneg_right ?_ (by positivity)
  have e8 : a + b = 7e-13 * (1 / X + 1 / Y) := by rw [ha, hb]; ring
  rw [e8]
  have : 0 < 1 / X + 1 / Y := by positivity
  generalize 1 / X + 1 / Y = z at this
  norm_num
  linarith

end Verif.RoundedGrid
