import Verif.Spec.RoundedOrient
import Verif.Props.RoundedEopTides
import Verif.Props.RoundedEop
import Verif.Props.RoundedRotation
/-
Lemmas for C121: how much the exact tides and the exact rotation change with their arguments; `approx_dut1` is the interpolation of degree 1.
-/
namespace Verif.RoundedOrient
open Verif Verif.Eop Verif.EopTides Verif.Rounding Verif.Fundarg
open Verif.RoundedEopTides (amp ampw dweight dweight_abs libration_amps ocean_amps)
open Verif.RoundedCip (natAbs_cast)
open Verif.RoundedGcrs (toH toH_mul norm_le_sum unit_norm)

/-! ### Tides -/

theorem trig_size (rows : List DEntry) (p q : DEntry → Int) (θ : DEntry → ℝ) :
    |(rows.map fun e => (p e / 100 : ℝ) * Real.sin (θ e) + (q e / 100 : ℝ) * Real.cos (θ e)).sum| ≤ ((rows.map (amp p q)).sum : ℕ) / 100 := by
  induction rows with
  | nil => simp
  | cons e l ih =>
    simp only [List.map_cons, List.sum_cons]
    refine (abs_add_le _ _).trans ?_
    have h1 : |(p e / 100 : ℝ) * Real.sin (θ e)| ≤ |(p e : ℝ)| / 100 := by
      rw [abs_mul, abs_div, abs_of_pos (by norm_num : (0:ℝ) < 100)]
      exact mul_le_of_le_one_right (by positivity) (Real.abs_sin_le_one _)
    have h2 : |(q e / 100 : ℝ) * Real.cos (θ e)| ≤ |(q e : ℝ)| / 100 := by
      rw [abs_mul, abs_div, abs_of_pos (by norm_num : (0:ℝ) < 100)]
      exact mul_le_of_le_one_right (by positivity) (Real.abs_cos_le_one _)
    have h3 := abs_add_le ((p e / 100 : ℝ) * Real.sin (θ e)) ((q e / 100 : ℝ) * Real.cos (θ e))
    have h4 : ((amp p q e : ℕ) : ℝ) = |(p e : ℝ)| + |(q e : ℝ)| := by
      unfold amp; push_cast; rw [natAbs_cast, natAbs_cast]
    push_cast at ih ⊢
    rw [h4]
    linarith

theorem trig_lip (rows : List DEntry) (p q : DEntry → Int) (θ' θ : DEntry → ℝ) {δ : ℝ} (h : ∀ e ∈ rows, |θ' e - θ e| ≤ dweight e * δ) :
    |(rows.map fun e => (p e / 100 : ℝ) * Real.sin (θ' e) + (q e / 100 : ℝ) * Real.cos (θ' e)).sum -
      (rows.map fun e => (p e / 100 : ℝ) * Real.sin (θ e) + (q e / 100 : ℝ) * Real.cos (θ e)).sum| ≤ ((rows.map (ampw p q dweight)).sum : ℕ) / 100 * δ := by
  induction rows with
  | nil => simp
  | cons e l ih =>
    simp only [List.map_cons, List.sum_cons]
    have ih := ih fun e he => h e (List.mem_cons_of_mem _ he)
    have he := h e List.mem_cons_self
    have h1 : |(p e / 100 : ℝ) * (Real.sin (θ' e) - Real.sin (θ e))| ≤ |(p e : ℝ)| / 100 * (dweight e * δ) := by
      rw [abs_mul, abs_div, abs_of_pos (by norm_num : (0:ℝ) < 100)]
      exact mul_le_mul_of_nonneg_left ((Real.abs_sin_sub_sin_le _ _).trans he) (by positivity)
    have h2 : |(q e / 100 : ℝ) * (Real.cos (θ' e) - Real.cos (θ e))| ≤ |(q e : ℝ)| / 100 * (dweight e * δ) := by
      rw [abs_mul, abs_div, abs_of_pos (by norm_num : (0:ℝ) < 100)]
      exact mul_le_mul_of_nonneg_left ((Real.abs_cos_sub_cos_le _ _).trans he) (by positivity)
    have h4 : ((ampw p q dweight e : ℕ) : ℝ) = (|(p e : ℝ)| + |(q e : ℝ)|) * dweight e := by
      unfold ampw amp; push_cast; rw [natAbs_cast, natAbs_cast]
    have h5 := abs_add_le ((p e / 100 : ℝ) * (Real.sin (θ' e) - Real.sin (θ e)) + (q e / 100 : ℝ) * (Real.cos (θ' e) - Real.cos (θ e)))
      ((l.map fun e => (p e / 100 : ℝ) * Real.sin (θ' e) + (q e / 100 : ℝ) * Real.cos (θ' e)).sum -
      (l.map fun e => (p e / 100 : ℝ) * Real.sin (θ e) + (q e / 100 : ℝ) * Real.cos (θ e)).sum)
    have h6 := abs_add_le ((p e / 100 : ℝ) * (Real.sin (θ' e) - Real.sin (θ e))) ((q e / 100 : ℝ) * (Real.cos (θ' e) - Real.cos (θ e)))
    refine le_trans (le_of_eq ?_) (h5.trans (le_trans (add_le_add (h6.trans (add_le_add h1 h2)) ih) (le_of_eq ?_)))
    · congr 1; ring
    · push_cast; rw [h4]; ring

theorem phase_lip (e : DEntry) (f : Fin 5 → ℝ) (g' g : ℝ) : |e.phase f g' - e.phase f g| ≤ dweight e * |g' - g| := by
  have : e.phase f g' - e.phase f g = e.dn.i0 * (g' - g) := by unfold DEntry.phase; ring
  rw [this, abs_mul]
  exact mul_le_mul_of_nonneg_right (dweight_abs e).1 (abs_nonneg _)

/-- Sizes of the four quantities, and how fast they change with sidereal time. -/
structure Bounded (z' z : Diurnal) (a b c d δ : ℝ) : Prop where
  xp : |z.dxp| ≤ a
  yp : |z.dyp| ≤ b
  ut1 : |z.dut1| ≤ c
  lod : |z.dlod| ≤ d
  xp' : |z'.dxp - z.dxp| ≤ 4 * a * δ
  yp' : |z'.dyp - z.dyp| ≤ 4 * b * δ
  ut1' : |z'.dut1 - z.dut1| ≤ 4 * c * δ
  lod' : |z'.dlod - z.dlod| ≤ 4 * d * δ

theorem libration_bounded (f : Fin 5 → ℝ) (g' g : ℝ) : Bounded (deopLibration f g') (deopLibration f g) 61.7 61.7 5.49 66.8 |g' - g| := by
  obtain ⟨p1, q1, p2, q2, p3, q3, p4, q4, -⟩ := libration_amps
  obtain ⟨t1, t2, t3, t4⟩ := diurnal_fold f g table5NoLongTides ⟨0, 0, 0, 0⟩
  obtain ⟨t1', t2', t3', t4'⟩ := diurnal_fold f g' table5NoLongTides ⟨0, 0, 0, 0⟩
  simp only [zero_add] at t1 t2 t3 t4 t1' t2' t3' t4'
  simp only [add_comm (_ * Real.cos _) (_ * Real.sin _)] at t4 t4'
  have hp := fun (p q : DEntry → Int) => trig_size table5NoLongTides p q fun e => e.phase f g
  have hl := fun (p q : DEntry → Int) => trig_lip table5NoLongTides p q (fun e => e.phase f g') (fun e => e.phase f g) fun e _ => phase_lip e f g' g
  have hn := abs_nonneg (g' - g)
  unfold deopLibration
  refine ⟨?_, ?_, ?_, ?_, ?_, ?_, ?_, ?_⟩
  · have := hp DEntry.xps DEntry.xpc; rw [← t1, p1] at this; push_cast at this; linarith
  · have := hp DEntry.yps DEntry.ypc; rw [← t2, p2] at this; push_cast at this; linarith
  · have := hp DEntry.ut1s DEntry.ut1c; rw [← t3, p3] at this; push_cast at this; linarith
  · have := hp DEntry.lods DEntry.lodc; rw [← t4, p4] at this; push_cast at this; linarith
  · have := hl DEntry.xps DEntry.xpc; rw [← t1, ← t1', q1] at this; push_cast at this; linarith
  · have := hl DEntry.yps DEntry.ypc; rw [← t2, ← t2', q2] at this; push_cast at this; linarith
  · have := hl DEntry.ut1s DEntry.ut1c; rw [← t3, ← t3', q3] at this; push_cast at this; linarith
  · have := hl DEntry.lods DEntry.lodc; rw [← t4, ← t4', q4] at this; push_cast at this; linarith

theorem ocean_bounded (f : Fin 5 → ℝ) (g' g : ℝ) : Bounded (deopOceanTide f g') (deopOceanTide f g) 1490.2 1230.6 144.33 1153.5 |g' - g| := by
  obtain ⟨p1, q1, p2, q2, p3, q3, p4, q4, -⟩ := ocean_amps
  obtain ⟨t1, t2, t3, t4⟩ := diurnal_fold f g table8 ⟨0, 0, 0, 0⟩
  obtain ⟨t1', t2', t3', t4'⟩ := diurnal_fold f g' table8 ⟨0, 0, 0, 0⟩
  simp only [zero_add] at t1 t2 t3 t4 t1' t2' t3' t4'
  simp only [add_comm (_ * Real.cos _) (_ * Real.sin _)] at t4 t4'
  have hp := fun (p q : DEntry → Int) => trig_size table8 p q fun e => e.phase f g
  have hl := fun (p q : DEntry → Int) => trig_lip table8 p q (fun e => e.phase f g') (fun e => e.phase f g) fun e _ => phase_lip e f g' g
  have hn := abs_nonneg (g' - g)
  unfold deopOceanTide
  refine ⟨?_, ?_, ?_, ?_, ?_, ?_, ?_, ?_⟩
  · have := hp DEntry.xps DEntry.xpc; rw [← t1, p1] at this; push_cast at this; linarith
  · have := hp DEntry.yps DEntry.ypc; rw [← t2, p2] at this; push_cast at this; linarith
  · have := hp DEntry.ut1s DEntry.ut1c; rw [← t3, p3] at this; push_cast at this; linarith
  · have := hp DEntry.lods DEntry.lodc; rw [← t4, p4] at this; push_cast at this; linarith
  · have := hl DEntry.xps DEntry.xpc; rw [← t1, ← t1', q1] at this; push_cast at this; linarith
  · have := hl DEntry.yps DEntry.ypc; rw [← t2, ← t2', q2] at this; push_cast at this; linarith
  · have := hl DEntry.ut1s DEntry.ut1c; rw [← t3, ← t3', q3] at this; push_cast at this; linarith
  · have := hl DEntry.lods DEntry.lodc; rw [← t4, ← t4', q4] at this; push_cast at this; linarith

/-! ### Rotations -/

theorem half_lip (a b : ℝ) : |Real.cos (a / 2) - Real.cos (b / 2)| + |Real.sin (a / 2) - Real.sin (b / 2)| ≤ |a - b| := by
  have h1 := Real.abs_cos_sub_cos_le (a / 2) (b / 2)
  have h2 := Real.abs_sin_sub_sin_le (a / 2) (b / 2)
  rw [← sub_div, abs_div, abs_two] at h1 h2
  linarith

theorem lip_X (a b : ℝ) : ‖toH (Quat.aaX a) - toH (Quat.aaX b)‖ ≤ |a - b| := by
  refine (norm_le_sum _).trans (le_trans (le_of_eq ?_) (half_lip a b))
  show |Real.cos (a / 2) - Real.cos (b / 2)| + |Real.sin (a / 2) - Real.sin (b / 2)| + |(0 : ℝ) - 0| + |(0 : ℝ) - 0| = _
  simp

theorem lip_Y (a b : ℝ) : ‖toH (Quat.aaY a) - toH (Quat.aaY b)‖ ≤ |a - b| := by
  refine (norm_le_sum _).trans (le_trans (le_of_eq ?_) (half_lip a b))
  show |Real.cos (a / 2) - Real.cos (b / 2)| + |(0 : ℝ) - 0| + |Real.sin (a / 2) - Real.sin (b / 2)| + |(0 : ℝ) - 0| = _
  simp

theorem lip_Z (a b : ℝ) : ‖toH (Quat.aaZ a) - toH (Quat.aaZ b)‖ ≤ |a - b| := by
  refine (norm_le_sum _).trans (le_trans (le_of_eq ?_) (half_lip a b))
  show |Real.cos (a / 2) - Real.cos (b / 2)| + |(0 : ℝ) - 0| + |(0 : ℝ) - 0| + |Real.sin (a / 2) - Real.sin (b / 2)| = _
  simp

theorem mul_lip {p' p q' q : Quat} {a b : ℝ} (hp : Quat.Unit p) (hq' : Quat.Unit q') (h1 : ‖toH p' - toH p‖ ≤ a) (h2 : ‖toH q' - toH q‖ ≤ b) :
    ‖toH (p' * q') - toH (p * q)‖ ≤ a + b := by
  rw [toH_mul, toH_mul, show toH p' * toH q' - toH p * toH q = (toH p' - toH p) * toH q' + toH p * (toH q' - toH q) by noncomm_ring]
  refine (norm_add_le _ _).trans ?_
  rw [norm_mul, norm_mul, unit_norm hp, unit_norm hq', mul_one, one_mul]
  exact add_le_add h1 h2

/-- The rotation from GCRS to ITRS for other angles about the pole of the Earth and along it. -/
theorem c2i_angles (era' era s sp d e xp' xp yp' yp : ℝ) :
    ‖toH (EarthRot.c2i era' s sp d e xp' yp') - toH (EarthRot.c2i era s sp d e xp yp)‖ ≤ |yp' - yp| + |xp' - xp| + |era' - era| := by
  have hz : ‖toH (Quat.aaZ (-sp - era' + e + s)) - toH (Quat.aaZ (-sp - era + e + s))‖ ≤ |era' - era| := by
    refine (lip_Z _ _).trans (le_of_eq ?_)
    rw [show -sp - era' + e + s - (-sp - era + e + s) = -(era' - era) by ring, abs_neg]
  have zero : ∀ q : Quat, ‖toH q - toH q‖ ≤ 0 := fun q => by simp
  have := mul_lip (((((Quat.unit_X yp).mul (Quat.unit_Y xp)).mul (Quat.unit_Z (-sp - era + e + s))).mul (Quat.unit_Y (-d)))) (Quat.unit_Z (-e))
    (mul_lip (((Quat.unit_X yp).mul (Quat.unit_Y xp)).mul (Quat.unit_Z (-sp - era + e + s))) (Quat.unit_Y (-d))
      (mul_lip ((Quat.unit_X yp).mul (Quat.unit_Y xp)) (Quat.unit_Z (-sp - era' + e + s))
        (mul_lip (Quat.unit_X yp) (Quat.unit_Y xp') (lip_X yp' yp) (lip_Y xp' xp)) hz) (zero _)) (zero _)
  simpa [EarthRot.c2i] using this

/-! ### `approx_dut1` -/

/-- `approx_dut1` gives what the interpolation of degree 1 gives. -/
theorem approx_interpolate (fl : Rounded.Arith) (dd : ℝ → ℝ → ℝ) (dat : ℝ → ℝ) (s : Series ℝ) (hs : Sorted s.vec) (hc : s.CacheOk) (t : ℝ) (old : Rec ℝ) {st : Status}
    {r : Rec ℝ} {s' : Series ℝ} (h : RoundedEop.interpolate fl dd dat s t old 1 = .ok (st, r, s')) : approxDut1 fl dd dat s t = .ok (st, r.dut, s') := by
  unfold RoundedEop.interpolate at h
  rw [if_neg (by norm_num)] at h
  unfold approxDut1
  cases hh : s.hunt t with
  | ub => rw [hh] at h; cases h
  | abort => rw [hh] at h; cases h
  | throw => rw [hh] at h; cases h
  | ok it =>
    rw [hh] at h
    simp only [Res.bind] at h ⊢
    by_cases h0 : it = 0
    · rw [if_pos h0] at h ⊢
      cases hv : s.vec[0]? with
      | none => rw [hv] at h; cases h
      | some r0 =>
        rw [hv] at h
        simp only [Res.ok.injEq, Prod.mk.injEq] at h ⊢
        exact ⟨h.1, by rw [← h.2.1], h.2.2⟩
    · rw [if_neg h0] at h ⊢
      by_cases h1 : it = s.vec.length
      · rw [if_pos h1] at h ⊢
        cases hv : s.vec[it - 1]? with
        | none => rw [hv] at h; cases h
        | some r0 =>
          rw [hv] at h
          simp only [Res.ok.injEq, Prod.mk.injEq] at h ⊢
          exact ⟨h.1, by rw [← h.2.1], h.2.2⟩
      · rw [if_neg h1, if_neg (by norm_num)] at h
        rw [if_neg h1]
        have hd : dataPoints it s.vec.length (Int.toNat 1) = 1 := by
          obtain ⟨l, hl, hle⟩ := hc
          have hle := (upperBound_spec t hs).1
          rw [hunt_sorted hs hl (by assumption)] at hh
          have e : upperBound t s.vec = it := by simpa using hh
          rw [e] at hle
          have := dataPoints_spec (it := it) (n := s.vec.length) (degree := 1) (by omega) (by omega) le_rfl
          show dataPoints it s.vec.length 1 = 1
          rw [this.2]
          omega
        rw [if_pos hd] at h
        cases hv0 : s.vec[it - 1]? with
        | none => rw [hv0] at h; cases h
        | some x0 =>
          cases hv1 : s.vec[it]? with
          | none => rw [hv0, hv1] at h; cases h
          | some x1 =>
            rw [hv0, hv1] at h
            simp only [Res.ok.injEq, Prod.mk.injEq] at h ⊢
            exact ⟨h.1, by rw [← h.2.1], h.2.2⟩

/-- The exact one. -/
theorem approx_exact (dat : ℝ → ℝ) (s : Series ℝ) (hs : Sorted s.vec) (hc : s.CacheOk) (t : ℝ) (old : Rec ℝ) {st : Status} {d : ℝ} {s' : Series ℝ}
    (h : s.approxDut1 dat t = .ok (st, d, s')) : ∃ r, s.interpolate dat t old 1 = .ok (st, r, s') ∧ r.dut = d := by
  unfold Series.approxDut1 at h
  unfold Series.interpolate
  rw [if_neg (by norm_num)]
  cases hh : s.hunt t with
  | ub => rw [hh] at h; cases h
  | abort => rw [hh] at h; cases h
  | throw => rw [hh] at h; cases h
  | ok it =>
    rw [hh] at h
    simp only [Res.bind] at h ⊢
    by_cases h0 : it = 0
    · rw [if_pos h0] at h ⊢
      cases hv : s.vec[0]? with
      | none => rw [hv] at h; cases h
      | some r0 =>
        rw [hv] at h
        simp only [Res.ok.injEq, Prod.mk.injEq] at h ⊢
        exact ⟨_, ⟨h.1, rfl, h.2.2⟩, h.2.1⟩
    · rw [if_neg h0] at h ⊢
      by_cases h1 : it = s.vec.length
      · rw [if_pos h1] at h ⊢
        cases hv : s.vec[it - 1]? with
        | none => rw [hv] at h; cases h
        | some r0 =>
          rw [hv] at h
          simp only [Res.ok.injEq, Prod.mk.injEq] at h ⊢
          exact ⟨_, ⟨h.1, rfl, h.2.2⟩, h.2.1⟩
      · rw [if_neg h1] at h
        rw [if_neg h1, if_neg (by norm_num)]
        have hd : dataPoints it s.vec.length (Int.toNat 1) = 1 := by
          obtain ⟨l, hl, hle⟩ := hc
          have hle := (upperBound_spec t hs).1
          rw [hunt_sorted hs hl (by assumption)] at hh
          have e : upperBound t s.vec = it := by simpa using hh
          rw [e] at hle
          have := dataPoints_spec (it := it) (n := s.vec.length) (degree := 1) (by omega) (by omega) le_rfl
          show dataPoints it s.vec.length 1 = 1
          rw [this.2]
          omega
        rw [if_pos hd]
        cases hv0 : s.vec[it - 1]? with
        | none => rw [hv0] at h; cases h
        | some x0 =>
          cases hv1 : s.vec[it]? with
          | none => rw [hv0, hv1] at h; cases h
          | some x1 =>
            rw [hv0, hv1] at h
            simp only [Res.ok.injEq, Prod.mk.injEq] at h ⊢
            exact ⟨_, ⟨h.1, rfl, h.2.2⟩, h.2.1⟩

/-- An interpolation changes the position of the last query only. -/
theorem interpolate_series (dat : ℝ → ℝ) (s : Series ℝ) (t : ℝ) (old : Rec ℝ) (degree : Int) {st : Status} {r : Rec ℝ} {s' : Series ℝ}
    (h : s.interpolate dat t old degree = .ok (st, r, s')) : ∃ it, s.hunt t = .ok it ∧ s' = { s with last := some it } := by
  unfold Series.interpolate at h
  split at h
  · cases h
  cases hh : s.hunt t with
  | ub => rw [hh] at h; cases h
  | abort => rw [hh] at h; cases h
  | throw => rw [hh] at h; cases h
  | ok it =>
    rw [hh] at h
    simp only [Res.bind] at h
    refine ⟨it, rfl, ?_⟩
    repeat' split at h
    all_goals first
      | cases h; done
      | (simp only [Res.ok.injEq, Prod.mk.injEq] at h; exact h.2.2.symm)

end Verif.RoundedOrient
