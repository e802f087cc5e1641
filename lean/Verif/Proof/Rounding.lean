import Verif.Spec.Rounding
import Verif.Model.Rounded
import Verif.Proof.Angle
import Mathlib.Analysis.Real.Pi.Bounds
import Mathlib.Data.Int.Log
import Mathlib.Algebra.Order.Round
/-
Lemmas on rounding errors.
-/
namespace Verif.Rounding
open Verif.Rounded Verif.Angle

theorem u_pos : 0 < u := by unfold u; positivity

theorem u_lt : u < 1.2e-16 := by unfold u; norm_num

theorem Rounds.rel {fl : ℝ → ℝ} (h : Rounds fl) (x : ℝ) : |fl x - x| ≤ u * |x| := by
  rcases eq_or_ne x 0 with rfl | hx
  · have := h.nearest 0 0 ⟨0, 0, by norm_num, by simp⟩
    simpa using this
  · have hax : 0 < |x| := abs_pos.mpr hx
    let q := Int.log 2 |x|
    let e := q - 52
    have hpe : (0 : ℝ) < 2 ^ e := zpow_pos (by norm_num) e
    have hq1 : (2 : ℝ) ^ q ≤ |x| := by
      have := Int.zpow_log_le_self (R := ℝ) (b := 2) (by norm_num) hax
      simpa using this
    have hq2 : |x| < (2 : ℝ) ^ (q + 1) := by
      have := Int.lt_zpow_succ_log_self (R := ℝ) (b := 2) (by norm_num) |x|
      simpa using this
    have hqe : (2 : ℝ) ^ (q + 1) = 2 ^ (53 : ℕ) * (2 : ℝ) ^ e := by
      rw [← zpow_natCast, ← zpow_add₀ (by norm_num)]; congr 1; simp only [e]; push_cast; ring
    have hue : u * (2 : ℝ) ^ q = (2 : ℝ) ^ e / 2 := by
      have : (2 : ℝ) ^ q = 2 ^ (52 : ℕ) * (2 : ℝ) ^ e := by
        rw [← zpow_natCast, ← zpow_add₀ (by norm_num)]; congr 1; simp only [e]; push_cast; ring
      rw [this]; unfold u; norm_num; ring
    let v := x / (2 : ℝ) ^ e
    have hxv : x = v * (2 : ℝ) ^ e := by simp only [v]; field_simp
    have hv : |v| < 2 ^ 53 := by
      have : |x| = |v| * (2 : ℝ) ^ e := by rw [hxv, abs_mul, abs_of_pos hpe]
      rw [this, hqe] at hq2
      exact lt_of_mul_lt_mul_right hq2 hpe.le
    have hr : |v - round v| ≤ 1 / 2 := abs_sub_round v
    have hd : IsDouble ((round v : ℝ) * (2 : ℝ) ^ e) := by
      have hle : |(round v : ℤ)| ≤ 2 ^ 53 := by
        have h1 : (|round v| : ℝ) < 2 ^ 53 + 1 := by
          have h2 : |(round v : ℝ)| ≤ |v| + |v - round v| := by
            have := abs_sub_abs_le_abs_sub (round v : ℝ) v
            rw [abs_sub_comm] at this; linarith
          linarith
        have h3 : ((|round v| : ℤ) : ℝ) < ((2 ^ 53 + 1 : ℤ) : ℝ) := by push_cast; linarith
        have := Int.cast_lt.mp h3
        omega
      rcases lt_or_eq_of_le hle with hlt | heq
      · exact ⟨round v, e, hlt, rfl⟩
      · rcases abs_eq (by norm_num : (0 : ℤ) ≤ 2 ^ 53) |>.mp heq with hh | hh
        · refine ⟨2 ^ 52, e + 1, by norm_num, ?_⟩
          rw [hh, zpow_add₀ (by norm_num)]; push_cast; ring
        · refine ⟨-2 ^ 52, e + 1, by norm_num, ?_⟩
          rw [hh, zpow_add₀ (by norm_num)]; push_cast; ring
    calc |fl x - x| ≤ |(round v : ℝ) * (2 : ℝ) ^ e - x| := h.nearest x _ hd
      _ = |v - round v| * (2 : ℝ) ^ e := by
        rw [hxv, ← sub_mul, abs_mul, abs_of_pos hpe, abs_sub_comm]
      _ ≤ 1 / 2 * (2 : ℝ) ^ e := by gcongr
      _ = u * (2 : ℝ) ^ q := by rw [hue]; ring
      _ ≤ u * |x| := by gcongr; exact u_pos.le

theorem Faithful.prel {fl : Arith} (h : Faithful fl) (k : ℕ) (x : ℝ) : |fl.pr k x - x| ≤ u * |x| := by
  rcases h.fused k x with e | e
  · rw [e]; exact h.rel x
  · rw [e, sub_self, abs_zero]; exact mul_nonneg u_pos.le (abs_nonneg x)

/-- `x'` approximates `x` to `e`, and `x` is not larger than `M`. -/
def App (M e x' x : ℝ) : Prop := |x| ≤ M ∧ |x' - x| ≤ e

theorem App.mono {M e M' e' x' x : ℝ} (h : App M e x' x) (hM : M ≤ M') (he : e ≤ e') : App M' e' x' x :=
  ⟨h.1.trans hM, h.2.trans he⟩

theorem App.abs' {M e x' x : ℝ} (h : App M e x' x) : |x'| ≤ M + e := by
  have := abs_sub_abs_le_abs_sub x' x
  have h1 := h.1; have h2 := h.2
  linarith

/-- Rounding a result. -/
theorem App.fl {fl : Arith} (hf : Faithful fl) {M e x' x : ℝ} (h : App M e x' x) : App M (e + u * (M + e)) (fl x') x := by
  refine ⟨h.1, ?_⟩
  have h1 := hf.rel x'
  have h2 : u * |x'| ≤ u * (M + e) := mul_le_mul_of_nonneg_left h.abs' u_pos.le
  have h3 := h.2
  calc |fl x' - x| = |(fl x' - x') + (x' - x)| := by congr 1; ring
    _ ≤ |fl x' - x'| + |x' - x| := abs_add_le _ _
    _ ≤ e + u * (M + e) := by linarith

theorem App.pr {fl : Arith} (hf : Faithful fl) (k : ℕ) {M e x' x : ℝ} (h : App M e x' x) : App M (e + u * (M + e)) (fl.pr k x') x := by
  refine ⟨h.1, ?_⟩
  have h1 := hf.prel k x'
  have h2 : u * |x'| ≤ u * (M + e) := mul_le_mul_of_nonneg_left h.abs' u_pos.le
  have h3 := h.2
  calc |fl.pr k x' - x| = |(fl.pr k x' - x') + (x' - x)| := by congr 1; ring
    _ ≤ |fl.pr k x' - x'| + |x' - x| := abs_add_le _ _
    _ ≤ e + u * (M + e) := by linarith

theorem App.add {M e x' x N d y' y : ℝ} (hx : App M e x' x) (hy : App N d y' y) : App (M + N) (e + d) (x' + y') (x + y) := by
  refine ⟨(abs_add_le _ _).trans (add_le_add hx.1 hy.1), ?_⟩
  calc |x' + y' - (x + y)| = |(x' - x) + (y' - y)| := by congr 1; ring
    _ ≤ _ := (abs_add_le _ _).trans (add_le_add hx.2 hy.2)

theorem App.neg {M e x' x : ℝ} (hx : App M e x' x) : App M e (-x') (-x) := by
  refine ⟨by rw [abs_neg]; exact hx.1, ?_⟩
  rw [show -x' - -x = -(x' - x) by ring, abs_neg]; exact hx.2

theorem App.sub {M e x' x N d y' y : ℝ} (hx : App M e x' x) (hy : App N d y' y) : App (M + N) (e + d) (x' - y') (x - y) := by
  have := hx.add hy.neg
  rwa [← sub_eq_add_neg, ← sub_eq_add_neg] at this

theorem App.mul {M e x' x N d y' y : ℝ} (hx : App M e x' x) (hy : App N d y' y) :
    App (M * N) (e * N + M * d + e * d) (x' * y') (x * y) := by
  have hM : 0 ≤ M := (abs_nonneg _).trans hx.1
  have he : 0 ≤ e := (abs_nonneg _).trans hx.2
  refine ⟨by rw [abs_mul]; exact mul_le_mul hx.1 hy.1 (abs_nonneg _) hM, ?_⟩
  calc |x' * y' - x * y| = |(x' - x) * y + x * (y' - y) + (x' - x) * (y' - y)| := by congr 1; ring
    _ ≤ |(x' - x) * y| + |x * (y' - y)| + |(x' - x) * (y' - y)| := abs_add_three _ _ _
    _ ≤ _ := by
      rw [abs_mul, abs_mul, abs_mul]
      gcongr
      · exact hx.2
      · exact hy.1
      · exact hx.1
      · exact hy.2
      · exact hx.2
      · exact hy.2

theorem App.exact {x : ℝ} : App |x| 0 x x := ⟨le_refl _, by simp⟩

theorem App.lit {fl : Arith} (hf : Faithful fl) (c : ℝ) {M : ℝ} (hM : |c| ≤ M) : App M (u * M) (lit fl c) c := by
  refine ⟨hM, le_trans ?_ (mul_le_mul_of_nonneg_left hM u_pos.le)⟩
  unfold Rounded.lit
  split
  · have := hf.rel (-c)
    rw [abs_neg] at this
    rwa [show -fl (-c) - c = -(fl (-c) - -c) by ring, abs_neg]
  · exact hf.rel c

theorem Near.of_app {M e x' x : ℝ} (h : App M e x' x) : Near e x' x := ⟨0, by simpa using h.2⟩

theorem Near.mono {e e' x y : ℝ} (h : Near e x y) (hle : e ≤ e') : Near e' x y := h.imp fun _ hk => hk.trans hle

theorem Near.trans {e d x y z : ℝ} (h1 : Near e x y) (h2 : Near d y z) : Near (e + d) x z := by
  obtain ⟨k, hk⟩ := h1
  obtain ⟨l, hl⟩ := h2
  refine ⟨k + l, ?_⟩
  calc |x - z - 2 * Real.pi * ((k + l : ℤ) : ℝ)| = |(x - y - 2 * Real.pi * k) + (y - z - 2 * Real.pi * l)| := by
        congr 1; push_cast; ring
    _ ≤ _ := (abs_add_le _ _).trans (add_le_add hk hl)

theorem Near.cong {e x y z : ℝ} (h : Near e x y) (hc : Cong y z) : Near e x z := by
  obtain ⟨k, hk⟩ := h
  obtain ⟨l, rfl⟩ := hc
  exact ⟨k + l, by push_cast; rwa [show x - z - 2 * Real.pi * (k + l) = x - (z + 2 * Real.pi * l) - 2 * Real.pi * k by ring]⟩

theorem Near.add {e d x y x' y' : ℝ} (h1 : Near e x' x) (h2 : Near d y' y) : Near (e + d) (x' + y') (x + y) := by
  obtain ⟨k, hk⟩ := h1
  obtain ⟨l, hl⟩ := h2
  refine ⟨k + l, ?_⟩
  calc |x' + y' - (x + y) - 2 * Real.pi * ((k + l : ℤ) : ℝ)| = |(x' - x - 2 * Real.pi * k) + (y' - y - 2 * Real.pi * l)| := by
        congr 1; push_cast; ring
    _ ≤ _ := (abs_add_le _ _).trans (add_le_add hk hl)

theorem Near.neg {e x' x : ℝ} (h : Near e x' x) : Near e (-x') (-x) := by
  obtain ⟨k, hk⟩ := h
  refine ⟨-k, ?_⟩
  rw [show -x' - -x - 2 * Real.pi * ((-k : ℤ) : ℝ) = -(x' - x - 2 * Real.pi * k) by push_cast; ring, abs_neg]
  exact hk

theorem Near.sub {e d x y x' y' : ℝ} (h1 : Near e x' x) (h2 : Near d y' y) : Near (e + d) (x' - y') (x - y) := by
  have := h1.add h2.neg
  rwa [← sub_eq_add_neg, ← sub_eq_add_neg] at this

theorem Near.mulInt {e x' x : ℝ} (h : Near e x' x) (n : ℤ) : Near (e * |(n : ℝ)|) (x' * n) (x * n) := by
  obtain ⟨k, hk⟩ := h
  refine ⟨k * n, ?_⟩
  rw [show x' * n - x * n - 2 * Real.pi * ((k * n : ℤ) : ℝ) = (x' - x - 2 * Real.pi * k) * n by push_cast; ring, abs_mul]
  gcongr

/-- Rounding an angle. -/
theorem Near.fl {fl : Arith} (hf : Faithful fl) {e x' x M : ℝ} (h : Near e x' x) (hM : |x'| ≤ M) : Near (e + u * M) (fl x') x := by
  have : Near (u * M) (fl x') x' := ⟨0, by
    simpa using (hf.rel x').trans (mul_le_mul_of_nonneg_left hM u_pos.le)⟩
  have := this.trans h
  rwa [add_comm] at this

theorem Near.pr {fl : Arith} (hf : Faithful fl) (k : ℕ) {e x' x M : ℝ} (h : Near e x' x) (hM : |x'| ≤ M) : Near (e + u * M) (fl.pr k x') x := by
  have : Near (u * M) (fl.pr k x') x' := ⟨0, by
    simpa using (hf.prel k x').trans (mul_le_mul_of_nonneg_left hM u_pos.le)⟩
  have := this.trans h
  rwa [add_comm] at this

theorem abs_fl {fl : Arith} (hf : Faithful fl) {x M : ℝ} (h : |x| ≤ M) : |fl x| ≤ M + u * M := by
  have h1 := hf.rel x
  have h2 := abs_sub_abs_le_abs_sub (fl x) x
  have := mul_le_mul_of_nonneg_left h u_pos.le
  linarith

theorem abs_pr {fl : Arith} (hf : Faithful fl) (k : ℕ) {x M : ℝ} (h : |x| ≤ M) : |fl.pr k x| ≤ M + u * M := by
  have h1 := hf.prel k x
  have h2 := abs_sub_abs_le_abs_sub (fl.pr k x) x
  have := mul_le_mul_of_nonneg_left h u_pos.le
  linarith

/-! ### The constants -/

theorem pi_lt : Real.pi < 3.1415926536 := by have := Real.pi_lt_d20; linarith
theorem pi_gt : 3.1415926535 < Real.pi := by have := Real.pi_gt_d20; linarith

theorem app_D2PI {fl : Arith} (hf : Faithful fl) : App 6.2831853072 (u * 6.2831853072) (D2PI fl) (2 * Real.pi) := by
  have hp := Real.pi_pos
  have h : |2 * Real.pi| ≤ 6.2831853072 := by rw [abs_of_pos (by positivity)]; have := pi_lt; linarith
  exact ⟨h, (hf.rel _).trans (mul_le_mul_of_nonneg_left h u_pos.le)⟩

theorem app_DPI {fl : Arith} (hf : Faithful fl) : App 3.1415926536 (u * 3.1415926536) (DPI fl) Real.pi := by
  have hp := Real.pi_pos
  have h : |Real.pi| ≤ 3.1415926536 := by rw [abs_of_pos (by positivity)]; exact pi_lt.le
  exact ⟨h, (hf.rel _).trans (mul_le_mul_of_nonneg_left h u_pos.le)⟩

theorem D2PI_bounds {fl : Arith} (hf : Faithful fl) : 6.283 < D2PI fl ∧ D2PI fl < 6.284 := by
  have h := abs_le.mp (app_D2PI hf).2
  have h1 := pi_lt; have h2 := pi_gt; have h3 := u_lt; have h4 := u_pos
  constructor <;> nlinarith [h.1, h.2]

/-! ### Normalisation -/

theorem trunc_abs (x : ℝ) : |(trunc x : ℝ)| ≤ |x| := by
  unfold trunc
  split
  · rename_i h
    have h1 : (0 : ℝ) ≤ (⌊x⌋ : ℝ) := by exact_mod_cast Int.floor_nonneg.mpr h
    rw [abs_of_nonneg h1, abs_of_nonneg h]; exact Int.floor_le x
  · rename_i h
    have h0 := not_le.mp h
    have h1 : (⌈x⌉ : ℝ) ≤ 0 := by exact_mod_cast Int.ceil_le.mpr (by simpa using h0.le)
    rw [abs_of_nonpos h1, abs_of_neg h0]; have := Int.le_ceil x; linarith

theorem fmod_near {fl : Arith} (hf : Faithful fl) (a : ℝ) : Near (1.1 * u * |a|) (fmod a (D2PI fl)) a := by
  obtain ⟨hb1, hb2⟩ := D2PI_bounds hf
  refine ⟨-trunc (a / D2PI fl), ?_⟩
  have h1 := trunc_abs (a / D2PI fl)
  have h2 := (app_D2PI hf).2
  unfold fmod
  rw [show a - D2PI fl * trunc (a / D2PI fl) - a - 2 * Real.pi * ((-trunc (a / D2PI fl) : ℤ) : ℝ) =
    -((D2PI fl - 2 * Real.pi) * trunc (a / D2PI fl)) by push_cast; ring, abs_neg, abs_mul]
  calc _ ≤ (u * 6.2831853072) * |a / D2PI fl| := mul_le_mul h2 h1 (abs_nonneg _) (by have := u_pos; positivity)
    _ = (u * |a|) * (6.2831853072 / D2PI fl) := by rw [abs_div, abs_of_pos (by linarith : 0 < D2PI fl)]; ring
    _ ≤ (u * |a|) * 1.1 := by
      gcongr
      · have := u_pos; positivity
      · rw [div_le_iff₀ (by linarith)]; linarith
    _ = _ := by ring

theorem fmod_abs {y : ℝ} (hy : 0 < y) (x : ℝ) : |fmod x y| ≤ y := by
  rcases le_or_gt 0 x with h | h
  · obtain ⟨h1, h2⟩ := fmod_nonneg hy h
    rw [abs_of_nonneg h1]; exact h2.le
  · obtain ⟨h1, h2⟩ := fmod_neg hy h
    rw [abs_of_nonpos h2]; linarith

/-- A rounded number does not pass a double. -/
theorem fl_le {fl : Arith} (hf : Faithful fl) {x y : ℝ} (hy : IsDouble y) (h : x ≤ y) : fl x ≤ y := by
  by_contra hc
  have hc := not_le.mp hc
  have := hf.nearest x y hy
  rw [abs_of_nonneg (by linarith), abs_of_nonneg (by linarith)] at this
  linarith

theorem le_fl {fl : Arith} (hf : Faithful fl) {x y : ℝ} (hy : IsDouble y) (h : y ≤ x) : y ≤ fl x := by
  by_contra hc
  have hc := not_le.mp hc
  have := hf.nearest x y hy
  rw [abs_of_nonpos (by linarith), abs_of_nonpos (by linarith)] at this
  linarith

theorem isDouble_zero : IsDouble 0 := ⟨0, 0, by norm_num, by simp⟩

theorem anp_near {fl : Arith} (hf : Faithful fl) (a : ℝ) : Near (u * (1.1 * |a| + 13)) (Rounded.anp fl a) a := by
  obtain ⟨hb1, hb2⟩ := D2PI_bounds hf
  have hw := fmod_near hf a
  have hab := fmod_abs (by linarith : 0 < D2PI fl) a
  have hu := u_pos
  unfold Rounded.anp
  simp only
  split
  · rename_i hneg
    have h1 : Near (u * 6.2831853072) (D2PI fl) 0 := ⟨1, by simpa using (app_D2PI hf).2⟩
    have h2 := (hw.add h1).fl hf (M := 6.284) (by
      rw [abs_of_neg hneg] at hab
      rw [abs_of_nonneg (by linarith)]; linarith)
    rw [add_zero] at h2
    exact h2.mono (by nlinarith)
  · exact hw.mono (by nlinarith)

theorem anp_range {fl : Arith} (hf : Faithful fl) (a : ℝ) : 0 ≤ Rounded.anp fl a ∧ Rounded.anp fl a ≤ D2PI fl := by
  obtain ⟨hb1, hb2⟩ := D2PI_bounds hf
  have hab := fmod_abs (by linarith : 0 < D2PI fl) a
  unfold Rounded.anp
  simp only
  split
  · rename_i hneg
    rw [abs_of_neg hneg] at hab
    exact ⟨le_fl hf isDouble_zero (by linarith), fl_le hf (hf.isDouble _) (by linarith)⟩
  · rename_i hneg
    exact ⟨not_lt.mp hneg, (le_abs_self _).trans hab⟩

theorem anp_abs {fl : Arith} (hf : Faithful fl) (a : ℝ) : |Rounded.anp fl a| ≤ 6.284 := by
  obtain ⟨h1, h2⟩ := anp_range hf a
  rw [abs_of_nonneg h1]; exact h2.trans (D2PI_bounds hf).2.le

theorem u_sq : u * u ≤ 1e-15 * u := by have := u_lt; have := u_pos; nlinarith

/-- One step of a polynomial. -/
theorem App.horner {fl : Arith} (hf : Faithful fl) {t' t c C M k y : ℝ} {d : ℝ} {ds : List ℝ} (ht : App 1 (4 * u) t' t)
    (hc : |c| ≤ C) (hk : 0 ≤ k) (h : App M (k * u) (horner fl t' (d :: ds)) y) :
    App (C + M) ((2.001 * C + 6.001 * M + 1.001 * k) * u) (horner fl t' (c :: d :: ds)) (c + t * y) := by
  show App _ _ (fl (Rounded.lit fl c + fl.pr _ (t' * Rounded.horner fl t' (d :: ds)))) _
  have hC : 0 ≤ C := (abs_nonneg _).trans hc
  have hM : 0 ≤ M := (abs_nonneg _).trans h.1
  have hu := u_pos
  have hs := u_sq
  have m1 := (ht.mul h).mono (M' := M) (e' := (4 * M + 1.0001 * k) * u) (by linarith)
    (by nlinarith [mul_le_mul_of_nonneg_left hs hk])
  have m2 := (m1.pr hf (d :: ds).length).mono (M' := M) (e' := (5.0001 * M + 1.0002 * k) * u) (le_refl _)
    (by nlinarith [mul_le_mul_of_nonneg_left hs hk, mul_le_mul_of_nonneg_left hs hM])
  have m3 := (App.lit hf c hc).add m2
  exact (m3.fl hf).mono (le_refl _)
    (by nlinarith [mul_le_mul_of_nonneg_left hs hk, mul_le_mul_of_nonneg_left hs hM, mul_le_mul_of_nonneg_left hs hC])

theorem near_s2r {s2r : ℝ → ℝ} (hs : SecToRad s2r) {e x' x : ℝ} {T : ℝ} (hT : T = 1296000) (h : |x' - x| ≤ e) :
    Near (e * (2 * Real.pi / 1296000) + 4 * u * (2 * Real.pi)) (s2r (fmod x' T)) (x * (2 * Real.pi / 1296000)) := by
  subst hT
  have hp := Real.pi_pos
  have h1 := hs (fmod x' 1296000)
  have h2 := fmod_abs (by norm_num : (0 : ℝ) < 1296000) x'
  obtain ⟨k, hk⟩ := fmod_cong x' 1296000
  have h3 : |fmod x' 1296000 * (2 * Real.pi / 1296000)| ≤ 2 * Real.pi := by
    rw [abs_mul, abs_of_pos (by positivity : 0 < 2 * Real.pi / 1296000)]
    calc _ ≤ 1296000 * (2 * Real.pi / 1296000) := by gcongr
      _ = 2 * Real.pi := by ring
  refine ⟨k, ?_⟩
  calc |s2r (fmod x' 1296000) - x * (2 * Real.pi / 1296000) - 2 * Real.pi * k|
      = |(x' - x) * (2 * Real.pi / 1296000) + (s2r (fmod x' 1296000) - fmod x' 1296000 * (2 * Real.pi / 1296000))| := by
        congr 1; rw [hk]; ring
    _ ≤ |(x' - x) * (2 * Real.pi / 1296000)| + |s2r (fmod x' 1296000) - fmod x' 1296000 * (2 * Real.pi / 1296000)| := abs_add_le _ _
    _ ≤ _ := by
      rw [abs_mul, abs_of_pos (by positivity : 0 < 2 * Real.pi / 1296000)]
      have hu := u_pos
      gcongr
      exact h1.trans (by gcongr)

/-- A multiple of an angle. -/
theorem prod_near {fl : Arith} (hf : Faithful fl) (m : ℕ) {n : ℝ} (hn : 1 ≤ n) {e v y : ℝ} (k : ℤ) (h : Near e v y) (he : 0 ≤ e) (hv : |v| ≤ 6.284)
    (hk : |(k : ℝ)| ≤ n) : Near (n * (e + 7 * u)) (fl.pr m (v * k)) (y * k) ∧ |fl.pr m (v * k)| ≤ n * 6.285 := by
  have hu := u_pos
  have hul := u_lt
  have hvk : |v * k| ≤ 6.284 * n := by rw [abs_mul]; exact mul_le_mul hv hk (abs_nonneg _) (by norm_num)
  refine ⟨((h.mulInt k).pr hf m hvk).mono ?_, (abs_pr hf m hvk).trans (by nlinarith)⟩
  have h1 : e * |(k : ℝ)| ≤ e * n := mul_le_mul_of_nonneg_left hk he
  have h2 := mul_pos hu (by linarith : 0 < n)
  nlinarith

/-- A sum of such multiples. -/
theorem sum_near {fl : Arith} (hf : Faithful fl) {n : ℝ} (hn : 1 ≤ n) {e e' x x' y y' M : ℝ} (h : Near e x y ∧ |x| ≤ n * M) (hM : M ≤ 40)
    (h' : Near e' x' y' ∧ |x'| ≤ n * 6.285) :
    Near (e + e' + 50 * u * n) (fl (x + x')) (y + y') ∧ |fl (x + x')| ≤ n * (M + 6.286) := by
  have hu := u_pos
  have hul := u_lt
  have hx : |x + x'| ≤ n * (M + 6.285) := (abs_add_le _ _).trans (by have := h.2; have := h'.2; linarith)
  have h1 : u * (n * (M + 6.285)) ≤ u * (n * 50) :=
    mul_le_mul_of_nonneg_left (mul_le_mul_of_nonneg_left (by linarith) (by linarith)) hu.le
  refine ⟨((h.1.add h'.1).fl hf hx).mono (by linarith), (abs_fl hf hx).trans ?_⟩
  have h2 : u * (n * 50) ≤ n * 0.001 := by nlinarith
  linarith

end Verif.Rounding
