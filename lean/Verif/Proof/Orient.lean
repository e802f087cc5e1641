import Verif.Model.Orient
import Verif.Spec.Orient
import Verif.Props.Eop
import Verif.Props.EopTides
/-
Helper lemmas for the Earth orientation at an epoch.
-/
namespace Verif.Orient
open Verif Verif.Eop Verif.EopTides Verif.Angle Polynomial

theorem fundarg_eq (T : ℝ) : fundarg T = fargsAt T := rfl

theorem dargs_eq (T : ℝ) : dargs T 0 = argL T ∧ dargs T 1 = argLp T ∧ dargs T 2 = argF T ∧ dargs T 3 = argD T ∧ dargs T 4 = argOm T := by
  refine ⟨?_, ?_, ?_, ?_, ?_⟩ <;>
  · show sec2rad _ = PoleTide.rad _
    unfold sec2rad PoleTide.rad
    ring

theorem zphase_eq (e : ZEntry) (T : ℝ) : e.phase (dargs T) = zonalPhase e T := by
  obtain ⟨h0, h1, h2, h3, h4⟩ := dargs_eq T
  unfold ZEntry.phase zonalPhase
  rw [h0, h1, h2, h3, h4]
  ring

theorem sum_scale {R : Type} (l : List R) (f g : R → ℝ) (c : ℝ) (h : ∀ r ∈ l, f r * c = g r) : (l.map f).sum * c = (l.map g).sum := by
  rw [← List.sum_map_mul_right]
  exact congrArg List.sum (List.map_congr_left h)

theorem zonal_ut1 (T : ℝ) : (deopZonalTide (fundarg T)).dut1 * 1e-6 = zonalUT1 T := by
  rw [fundarg_eq, zonal_turns (fargsAt_cong T), (zonal_sums (dargs T)).1]
  refine sum_scale _ _ _ _ fun e _ => ?_
  rw [zphase_eq]
  ring

theorem zonal_lod (T : ℝ) : (deopZonalTide (fundarg T)).dlod * 1e-6 = zonalLod T := by
  rw [fundarg_eq, zonal_turns (fargsAt_cong T), (zonal_sums (dargs T)).2.1]
  refine sum_scale _ _ _ _ fun e _ => ?_
  rw [zphase_eq]
  ring

/-- The phase of the code and that of the specification differ by whole turns. -/
theorem dphase_trig (e : DEntry) {T g g' : ℝ} (hg : Cong g g') :
    Real.cos (e.phase (fundarg T) g) = Real.cos (dailyPhase e T g') ∧ Real.sin (e.phase (fundarg T) g) = Real.sin (dailyPhase e T g') := by
  apply SolidTide.cong_trig
  have h := fargsAt_cong T
  have := (((((hg.add (Cong.refl Real.pi)).mul_int e.dn.i0).add
    (((h 2).add (h 4)).mul_int (-e.dn.i0 + e.dn.i1 + e.dn.i2 + e.dn.i3 + e.dn.i5))).sub
    ((h 3).mul_int (e.dn.i2 + e.dn.i5))).sub ((h 0).mul_int e.dn.i3)).sub ((h 4).mul_int e.dn.i4) |>.sub
    ((h 1).mul_int e.dn.i5)
  obtain ⟨h0, h1, h2, h3, h4⟩ := dargs_eq T
  rw [h0, h1, h2, h3, h4] at this
  refine (Cong.of_eq ?_).trans (this.trans (Cong.of_eq ?_))
  · rw [fundarg_eq]; unfold DEntry.phase; push_cast; ring
  · unfold dailyPhase; push_cast; ring

theorem daily_sum (a b : DEntry → Int) {T g g' : ℝ} (hg : Cong g g') (A B : ℝ)
    (hA : A = (table5NoLongTides.map fun e => (a e / 100 : ℝ) * Real.sin (e.phase (fundarg T) g) + (b e / 100 : ℝ) * Real.cos (e.phase (fundarg T) g)).sum)
    (hB : B = (table8.map fun e => (a e / 100 : ℝ) * Real.sin (e.phase (fundarg T) g) + (b e / 100 : ℝ) * Real.cos (e.phase (fundarg T) g)).sum) :
    A * 1e-6 + B * 1e-6 = daily a b T g' := by
  unfold daily
  rw [List.map_append, List.sum_append, hA, hB]
  congr 1 <;>
  · refine sum_scale _ _ _ _ fun e _ => ?_
    obtain ⟨hc, hs⟩ := dphase_trig e (T := T) hg
    rw [hc, hs]
    ring

/-- The sum of the two corrections. -/
theorem daily_all {T g g' : ℝ} (hg : Cong g g') :
    (deopLibration (fundarg T) g).dxp * 1e-6 + (deopOceanTide (fundarg T) g).dxp * 1e-6 = daily DEntry.xps DEntry.xpc T g' ∧
    (deopLibration (fundarg T) g).dyp * 1e-6 + (deopOceanTide (fundarg T) g).dyp * 1e-6 = daily DEntry.yps DEntry.ypc T g' ∧
    (deopLibration (fundarg T) g).dut1 * 1e-6 + (deopOceanTide (fundarg T) g).dut1 * 1e-6 = daily DEntry.ut1s DEntry.ut1c T g' ∧
    (deopLibration (fundarg T) g).dlod * 1e-6 + (deopOceanTide (fundarg T) g).dlod * 1e-6 = daily DEntry.lods DEntry.lodc T g' := by
  obtain ⟨a1, a2, a3, a4⟩ := diurnal_fold (fundarg T) g table5NoLongTides ⟨0, 0, 0, 0⟩
  obtain ⟨b1, b2, b3, b4⟩ := diurnal_fold (fundarg T) g table8 ⟨0, 0, 0, 0⟩
  simp only [zero_add] at a1 a2 a3 a4 b1 b2 b3 b4
  refine ⟨daily_sum _ _ hg _ _ a1 b1, daily_sum _ _ hg _ _ a2 b2, daily_sum _ _ hg _ _ a3 b3, daily_sum _ _ hg _ _ ?_ ?_⟩
  · exact a4.trans (congrArg List.sum (List.map_congr_left fun e _ => add_comm _ _))
  · exact b4.trans (congrArg List.sum (List.map_congr_left fun e _ => add_comm _ _))

/-- A record after `regularize`. -/
noncomputable def reg (r : Rec ℚ) : Rec ℝ :=
  { real r with dut := (r.dut : ℝ) - zonalUT1 (centuries r.t), lod := (r.lod : ℝ) - zonalLod (centuries r.t) }

theorem regularize_vec (s : Series ℚ) : (regularize (realSeries s)).vec = s.vec.map reg ∧ (regularize (realSeries s)).last = s.last := by
  refine ⟨?_, rfl⟩
  unfold regularize Series.regularize Series.regularizeImpl realSeries
  simp only [List.map_map]
  refine List.map_congr_left fun r _ => ?_
  have h1 := zonal_ut1 (centuries r.t)
  have h2 := zonal_lod (centuries r.t)
  unfold centuries at h1 h2
  simp only [Function.comp, reg, centuries]
  have hf : (if (-1 : Int) > 0 then (1 / 1000000 : ℝ) else -(1 / 1000000)) = -1e-6 := by norm_num
  rw [hf]
  simp only [real, Rec.mk.injEq, true_and, and_true]
  constructor <;> linarith

theorem sorted_reg {rs : List (Rec ℚ)} (h : Sorted rs) : Sorted (rs.map reg) := by
  unfold Sorted
  rw [List.pairwise_map]
  exact h.imp fun h => by
    show ((_ : ℚ) : ℝ) < ((_ : ℚ) : ℝ)
    exact_mod_cast h

theorem through_of {w : List (Rec ℚ)} {q : Rec ℝ → ℝ} {q' : Rec ℚ → ℝ} {t v : ℝ} (h : PolyThrough (w.map reg) q t v)
    (hq : ∀ r, q (reg r) = q' r) : Through w q' t v := by
  obtain ⟨p, h1, h2, h3⟩ := h
  refine ⟨p, by simpa using h1, fun r hr => ?_, h3⟩
  rw [← hq]
  exact h2 (reg r) (List.mem_map_of_mem hr)

end Verif.Orient
