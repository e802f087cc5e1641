import Verif.Model.Cip
import Verif.Model.Cio
import Verif.Spec.Cip
import Verif.Spec.Cio
import Verif.Proof.CipTables
import Verif.Proof.CipMerged
import Verif.Props.Angle
import Verif.Props.SolidTide
import Mathlib.Topology.Order.IntermediateValue
/-
C79, C80: coordinates of the celestial intermediate pole and the CIO locator.
-/
namespace Verif.Cip
open Verif Angle Fundarg

/-- The trigonometric part depends on the arguments modulo a turn only. -/
theorem total_cong (l : List Spec.Term) {F G : ℕ → ℝ} (h : ∀ i < 14, Cong (F i) (G i)) :
    Spec.total l F = Spec.total l G := by
  have key : ∀ k : Spec.Term, Cong (k.argument F) (k.argument G) := by
    intro k
    rw [argument_eq, argument_eq]
    have m : ∀ i, i < 14 → Cong ((k.n.getD i 0 : ℤ) * F i) ((k.n.getD i 0 : ℤ) * G i) := by
      intro i hi
      exact (h i hi).mul_int _
    exact (((((((((((((m 0 (by norm_num)).add (m 1 (by norm_num))).add (m 2 (by norm_num))).add
      (m 3 (by norm_num))).add (m 4 (by norm_num))).add (m 5 (by norm_num))).add (m 6 (by norm_num))).add
      (m 7 (by norm_num))).add (m 8 (by norm_num))).add (m 9 (by norm_num))).add (m 10 (by norm_num))).add
      (m 11 (by norm_num))).add (m 12 (by norm_num))).add (m 13 (by norm_num))
  unfold Spec.total Spec.Term.value
  congr 1
  refine List.map_congr_left fun k _ => ?_
  rw [(SolidTide.cong_trig (key k)).1, (SolidTide.cong_trig (key k)).2]

/-- C79: the fourteen arguments returned by `xycip06a` are, modulo 2π, those of the Conventions. -/
theorem outargs_correct (t : ℝ) :
    (fargs14 t).length = 14 ∧ ∀ i < 14, Cong ((fargs14 t).getD i 0) (Spec.args t i) := by
  obtain ⟨h0, h1, h2, h3, h4⟩ := delaunay_correct_partial t
  obtain ⟨p0, p1, p2, p3, p4, p5, p6, p7⟩ := planet_longitudes_partial t
  refine ⟨rfl, fun i hi => ?_⟩
  have : i = 0 ∨ i = 1 ∨ i = 2 ∨ i = 3 ∨ i = 4 ∨ i = 5 ∨ i = 6 ∨ i = 7 ∨ i = 8 ∨ i = 9 ∨ i = 10 ∨ i = 11 ∨
    i = 12 ∨ i = 13 := by omega
  rcases this with h | h | h | h | h | h | h | h | h | h | h | h | h | h <;> subst h
  · exact h0.1
  · exact h1.1
  · exact h2.1
  · exact h3.1
  · exact h4.1
  · exact p0.1
  · exact p1.1
  · exact p2.1
  · exact p3.1
  · exact p4.1
  · exact p5.1
  · exact p6.1
  · exact p7.1
  · refine Cong.of_eq ?_
    show fapa03 t = _
    show _ = 0.024381750 * t + 0.00000538691 * t ^ 2
    unfold fapa03
    ring

theorem X_cong {F G : ℕ → ℝ} (h : ∀ i < 14, Cong (F i) (G i)) (t : ℝ) : Spec.X F t = Spec.X G t := by
  unfold Spec.X
  rw [total_cong _ h, total_cong _ h, total_cong _ h, total_cong _ h, total_cong _ h]

theorem Y_cong {F G : ℕ → ℝ} (h : ∀ i < 14, Cong (F i) (G i)) (t : ℝ) : Spec.Y F t = Spec.Y G t := by
  unfold Spec.Y
  rw [total_cong _ h, total_cong _ h, total_cong _ h, total_cong _ h, total_cong _ h]

theorem sec2rad_uas (x : ℝ) : sec2rad (x * 1e-6) = Spec.uas x := by
  unfold sec2rad Spec.uas
  ring

/-- C79: for all values of the arguments and of t, the merged series never reads outside its tables and
gives the development of the Conventions. -/
theorem merged_series (F : ℕ → ℝ) (t : ℝ) : xycip06aDetail F t = .ok (Spec.X F t, Spec.Y F t) := by
  obtain ⟨xs, ys, he, hx, hy, ⟨x0, x1, x2, x3, x4⟩, ⟨y0, y1, y2, y3, y4⟩⟩ := merged_expand
  unfold xycip06aDetail
  rw [xyLoop_ok F t _ _ xs ys he, sumT_split F t xs hx, sumT_split F t ys hy, total_perm x0, total_perm x1,
    total_perm x2, total_perm x3, total_perm x4, total_perm y0, total_perm y1, total_perm y2, total_perm y3,
    total_perm y4]
  unfold Spec.X Spec.Y
  generalize Spec.total Spec.tableX0 F = a0, Spec.total Spec.tableX1 F = a1, Spec.total Spec.tableX2 F = a2,
    Spec.total Spec.tableX3 F = a3, Spec.total Spec.tableX4 F = a4, Spec.total Spec.tableY0 F = b0,
    Spec.total Spec.tableY1 F = b1, Spec.total Spec.tableY2 F = b2, Spec.total Spec.tableY3 F = b3,
    Spec.total Spec.tableY4 F = b4
  simp only [Res.bind, Res.ok.injEq, Prod.mk.injEq]
  exact ⟨by ring, by ring⟩

/-- C79: `xycip06a` is defined for every epoch and returns X and Y of the Conventions, in radians. -/
theorem cip_coordinates (t : ℝ) : ∃ r, xycip06a t = .ok r ∧
    r.x = Spec.uas (Spec.X (Spec.args t) t) ∧ r.y = Spec.uas (Spec.Y (Spec.args t) t) ∧
    (r.outargs.length = 14 ∧ ∀ i < 14, Cong (r.outargs.getD i 0) (Spec.args t i)) := by
  unfold xycip06a
  dsimp only
  rw [merged_series]
  refine ⟨_, rfl, ?_, ?_, outargs_correct t⟩
  · show sec2rad (Spec.X _ t * 1e-6) = _
    rw [sec2rad_uas, X_cong (outargs_correct t).2]
  · show sec2rad (Spec.Y _ t * 1e-6) = _
    rw [sec2rad_uas, Y_cong (outargs_correct t).2]

/-- C79: the separate Y series is the development of the Conventions. -/
theorem y_series (F : ℕ → ℝ) (t : ℝ) : ycip06a F t = Spec.Y F t := by
  unfold ycip06a Spec.Y
  dsimp only
  simp only [seriesSum_eq]
  rw [total_perm y0_perm, total_perm y1_perm, total_perm y2_perm, total_perm y3_perm, total_perm y4_perm]
  ring

/-- C79 (partial): the separate X series differs from the development of the Conventions by exactly
0.01 t cos Ω microarcseconds, hence by at most 0.01 |t|. Missing: equality, which is false
(`extra_x_fails`): the amplitude of cos Ω in the series of degree one is 205833.1 instead of 205833.11. -/
theorem x_series_partial (F : ℕ → ℝ) (t : ℝ) :
    xcip06a F t = Spec.X F t - 0.01 * t * Real.cos (F 4) ∧ |xcip06a F t - Spec.X F t| ≤ 0.01 * |t| := by
  have e : xcip06a F t = Spec.X F t - 0.01 * t * Real.cos (F 4) := by
    unfold xcip06a Spec.X
    dsimp only
    simp only [seriesSum_eq]
    rw [total_perm x0_perm, total_perm x1_perm, total_perm x2_perm, total_perm x3_perm, total_perm x4_perm]
    have h1 : Spec.total (omegaRow :: Spec.tableX1.tail) F =
        Spec.total Spec.tableX1 F - 0.01 * Real.cos (F 4) := by
      have a : Spec.total Spec.tableX1 F = omegaTerm.value F + Spec.total Spec.tableX1.tail F := by
        conv_lhs => rw [x1_head]
        simp only [Spec.total, List.map_cons, List.sum_cons]
      have b : Spec.total (omegaRow :: Spec.tableX1.tail) F = omegaRow.value F + Spec.total Spec.tableX1.tail F := by
        simp only [Spec.total, List.map_cons, List.sum_cons]
      have q1 : omegaTerm.argument F = F 4 := by rw [argument_eq]; simp [omegaTerm]
      have q2 : omegaRow.argument F = F 4 := by rw [argument_eq]; simp [omegaRow]
      rw [a, b]
      unfold Spec.Term.value
      rw [q1, q2]
      simp only [omegaTerm, omegaRow]
      push_cast
      ring
    rw [h1]
    ring
  refine ⟨e, ?_⟩
  rw [e, show Spec.X F t - 0.01 * t * Real.cos (F 4) - Spec.X F t = -(0.01 * t * Real.cos (F 4)) from by ring,
    abs_neg, abs_mul, abs_mul, abs_of_nonneg (by norm_num : (0 : ℝ) ≤ 0.01)]
  have := Real.abs_cos_le_one (F 4)
  have h2 := abs_nonneg t
  nlinarith

/-- C79 (partial): `extra::xycip06a` returns the same Y and arguments as `xycip06a`, and an X that differs
by at most 0.01 |t| microarcseconds. -/
theorem extra_close_partial (t : ℝ) : ∃ r, xycip06a t = .ok r ∧ (xycip06aExtra t).y = r.y ∧
    (xycip06aExtra t).outargs = r.outargs ∧ |(xycip06aExtra t).x - r.x| ≤ Spec.uas (0.01 * |t|) := by
  unfold xycip06a
  dsimp only
  rw [merged_series]
  refine ⟨_, rfl, ?_, rfl, ?_⟩
  · unfold xycip06aExtra
    dsimp only
    rw [y_series]
  · unfold xycip06aExtra
    dsimp only
    obtain ⟨-, h⟩ := x_series_partial (fun i => (fargs14 t).getD i 0) t
    rw [sec2rad_uas, sec2rad_uas]
    have hp := Real.pi_pos
    have e : ∀ a b : ℝ, Spec.uas a - Spec.uas b = (a - b) * (Real.pi / 648000000000) := by
      intro a b; unfold Spec.uas; ring
    have e2 : Spec.uas (0.01 * |t|) = 0.01 * |t| * (Real.pi / 648000000000) := by unfold Spec.uas; ring
    rw [e, e2, abs_mul, abs_of_nonneg (by positivity : (0 : ℝ) ≤ Real.pi / 648000000000)]
    exact mul_le_mul_of_nonneg_right h (by positivity)

/-- C79 fails: there is an epoch in the century after J2000 at which `extra::xycip06a` does not return
the X of the Conventions: one amplitude of the series has lost its last digit. -/
theorem extra_x_fails : ∃ t : ℝ, 0 < t ∧ t < 1 ∧
    (xycip06aExtra t).x ≠ Spec.uas (Spec.X (Spec.args t) t) := by
  have hc : ContinuousOn omPoly (Set.Icc 0 1) := by
    unfold omPoly
    fun_prop
  have hiv := intermediate_value_Icc' (by norm_num : (0 : ℝ) ≤ 1) hc
  obtain ⟨t, ⟨h0, h1⟩, ht⟩ := hiv (show (0 : ℝ) ∈ Set.Icc (omPoly 1) (omPoly 0) from by
    unfold omPoly; constructor <;> norm_num)
  have ht0 : t ≠ 0 := by rintro rfl; unfold omPoly at ht; norm_num at ht
  have ht1 : t ≠ 1 := by rintro rfl; unfold omPoly at ht; norm_num at ht
  refine ⟨t, lt_of_le_of_ne h0 (Ne.symm ht0), lt_of_le_of_ne h1 ht1, ?_⟩
  unfold xycip06aExtra
  dsimp only
  rw [sec2rad_uas, (x_series_partial _ t).1, X_cong (outargs_correct t).2]
  have hcong := (outargs_correct t).2 4 (by norm_num)
  have hcos : Real.cos ((fargs14 t).getD 4 0) = 1 := by
    rw [(SolidTide.cong_trig hcong).1]
    simp [Spec.args, ht]
  rw [hcos]
  intro h
  unfold Spec.uas at h
  have hp := Real.pi_pos
  have : 0.01 * t * (Real.pi / 648000000000) = 0 := by linarith
  have h3 : (0 : ℝ) < t := lt_of_le_of_ne h0 (Ne.symm ht0)
  have : (0 : ℝ) < 0.01 * t * (Real.pi / 648000000000) := by positivity
  linarith

/-! ### C80 -/

/-- The multipliers of a term of s + XY/2 among the fourteen. -/
def Cio.Term.full (k : Cio.Term) : Spec.Term :=
  ⟨k.s, k.c, [k.l, k.l', k.F, k.D, k.Om, 0, k.Ve, k.E, 0, 0, 0, 0, 0, k.pA]⟩

theorem cio_total (l : List Cio.Term) (F : ℕ → ℝ) :
    Spec.total (l.map Cio.Term.full) F = Cio.total l (F 0) (F 1) (F 2) (F 3) (F 4) (F 6) (F 7) (F 13) := by
  have key : ∀ k : Cio.Term, k.full.argument F = k.l * F 0 + k.l' * F 1 + k.F * F 2 + k.D * F 3 + k.Om * F 4 +
      k.Ve * F 6 + k.E * F 7 + k.pA * F 13 := by
    intro k
    rw [argument_eq]
    simp only [Cio.Term.full, List.getD_cons_zero, List.getD_cons_succ]
    push_cast
    ring
  unfold Spec.total Cio.total
  rw [List.map_map]
  congr 1
  refine List.map_congr_left fun k _ => ?_
  simp only [Function.comp_apply, Spec.Term.value, key]
  simp only [Cio.Term.full]

theorem plainSum_eq (F : ℕ → ℝ) (rows : List Row) : plainSum F rows = Spec.total (rows.map Row.term) F := by
  have : ∀ (rows : List Row) (c : ℝ), rows.foldl (fun c s =>
      let arg := s.arg F
      let ca := Real.cos arg
      let sa := Real.sin arg
      c + ((s.acj / 100 : ℝ) * ca + (s.asj / 100 : ℝ) * sa)) c = c + Spec.total (rows.map Row.term) F := by
    intro rows
    induction rows with
    | nil => intro c; simp [Spec.total]
    | cons s rows ih =>
      intro c
      rw [List.foldl_cons, ih]
      simp only [Spec.total, List.map_cons, List.sum_cons, Spec.Term.value, ← row_arg]
      simp only [Row.term]
      ring
  unfold plainSum
  rw [this rows 0]
  ring

/-- The five rows left without an initialiser contribute nothing. -/
theorem c0_total (F : ℕ → ℝ) :
    Spec.total (c0Series.map Row.term) F = Cio.total Cio.s0 (F 0) (F 1) (F 2) (F 3) (F 4) (F 6) (F 7) (F 13) := by
  have e : c0Series.map Row.term =
      (Cio.s0.map Cio.Term.full).reverse ++ List.replicate 5 ⟨0, 0, List.replicate 14 0⟩ := by decide +kernel
  rw [e, ← cio_total]
  have z : Spec.total (List.replicate 5 ⟨0, 0, List.replicate 14 0⟩) F = 0 := by
    simp [Spec.total, Spec.Term.value]
  have ap : ∀ a b, Spec.total (a ++ b) F = Spec.total a F + Spec.total b F := by
    intro a b; simp [Spec.total]
  rw [ap, z, add_zero]
  exact total_perm (List.reverse_perm _) F

theorem c_total {rows : List Row} {l : List Cio.Term} (e : rows.map Row.term = (l.map Cio.Term.full).reverse)
    (F : ℕ → ℝ) :
    Spec.total (rows.map Row.term) F = Cio.total l (F 0) (F 1) (F 2) (F 3) (F 4) (F 6) (F 7) (F 13) := by
  rw [e, ← cio_total]
  exact total_perm (List.reverse_perm _) F

theorem s06Detail_eq (F : ℕ → ℝ) (t x y : ℝ) :
    s06Detail F t x y =
      Spec.uas (Cio.development t (F 0) (F 1) (F 2) (F 3) (F 4) (F 6) (F 7) (F 13)) - x * y / 2 := by
  unfold s06Detail
  dsimp only
  rw [sec2rad_uas]
  congr 2
  simp only [plainSum_eq]
  rw [c0_total, c_total (l := Cio.s1) (by decide +kernel), c_total (l := Cio.s2) (by decide +kernel),
    c_total (l := Cio.s3) (by decide +kernel), c_total (l := Cio.s4) (by decide +kernel)]
  unfold Cio.development
  ring

theorem development_cong {F G : ℕ → ℝ} (h : ∀ i < 14, Cong (F i) (G i)) (t : ℝ) :
    Cio.development t (F 0) (F 1) (F 2) (F 3) (F 4) (F 6) (F 7) (F 13) =
      Cio.development t (G 0) (G 1) (G 2) (G 3) (G 4) (G 6) (G 7) (G 13) := by
  unfold Cio.development
  simp only [← cio_total, total_cong _ h]

/-- C80: the CIO locator is the development of s + XY/2 of the Conventions minus half the product of the
coordinates given. -/
theorem cio_locator (t x y : ℝ) :
    s06 t x y = Spec.uas (Cio.development t (Spec.args t 0) (Spec.args t 1) (Spec.args t 2) (Spec.args t 3)
      (Spec.args t 4) (Spec.args t 6) (Spec.args t 7) (Spec.args t 13)) - x * y / 2 := by
  unfold s06
  rw [s06Detail_eq]
  congr 2
  exact development_cong (outargs_correct t).2 t

/-- C80: computing s from the coordinates and arguments returned by `xycip06a` gives the same value as
computing it afresh, namely the development minus half the product of the coordinates of the Conventions. -/
theorem cio_from_cip (t : ℝ) : ∃ r, xycip06a t = .ok r ∧ s06With t r.x r.y r.outargs = s06 t r.x r.y ∧
    s06With t r.x r.y r.outargs = Spec.uas (Cio.development t (Spec.args t 0) (Spec.args t 1) (Spec.args t 2)
      (Spec.args t 3) (Spec.args t 4) (Spec.args t 6) (Spec.args t 7) (Spec.args t 13)) -
      Spec.uas (Spec.X (Spec.args t) t) * Spec.uas (Spec.Y (Spec.args t) t) / 2 := by
  obtain ⟨r, hr, hx, hy, -⟩ := cip_coordinates t
  have ho : r.outargs = fargs14 t := by
    unfold xycip06a at hr
    dsimp only at hr
    rw [merged_series] at hr
    simp only [Res.bind, Res.ok.injEq] at hr
    rw [← hr]
  have e : s06With t r.x r.y r.outargs = s06 t r.x r.y := by rw [ho]; rfl
  refine ⟨r, hr, e, ?_⟩
  rw [e, cio_locator, hx, hy]

/-! Non-vacuity: at J2000 with all arguments zero the trigonometric sums are sums of cosine amplitudes; the
published tables have the published number of terms. -/

example : Spec.tableX0.length + Spec.tableX1.length + Spec.tableX2.length + Spec.tableX3.length +
    Spec.tableX4.length = 1600 := by decide +kernel
example : Spec.tableY0.length + Spec.tableY1.length + Spec.tableY2.length + Spec.tableY3.length +
    Spec.tableY4.length = 1275 := by decide +kernel
example : Cio.s0.length = 33 ∧ Cio.s1.length = 3 ∧ Cio.s2.length = 25 ∧ Cio.s3.length = 4 ∧ Cio.s4.length = 1 := by
  decide
example : ∃ x y, xycip06aDetail (fun _ => 0) 0 = .ok (x, y) := ⟨_, _, merged_series _ _⟩
example : s06 0 1 1 - s06 0 0 0 = -1 / 2 := by rw [cio_locator, cio_locator]; ring

end Verif.Cip
