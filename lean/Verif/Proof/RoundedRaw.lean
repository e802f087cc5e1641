import Verif.Props.RoundedOptions
import Verif.Props.RoundedEopTides
/-
Helpers for `Props/RoundedRaw`: the interpolation is linear in the records.
-/
namespace Verif.RoundedOptions
open Verif Verif.Eop Verif.EopTides Verif.Rounding Verif.Rounded Verif.Fundarg Verif.Iau Verif.RoundedState
open Verif.RoundedOrient (Clock Observed Modest Between reference ut1Days oriented delaunay)
open Verif.Angle (sec2rad)

/-- The series with every record changed. -/
noncomputable def mapped (g : Rec ℝ → Rec ℝ) (s : Series ℝ) : Series ℝ := { s with vec := s.vec.map g }

section
variable {g : Rec ℝ → Rec ℝ} (hg : ∀ r, (g r).t = r.t)
include hg

theorem upper_map (t : ℝ) (v : List (Rec ℝ)) : upperBound t (v.map g) = upperBound t v := by
  unfold upperBound
  induction v with
  | nil => rfl
  | cons a v ih => simp only [List.map_cons, List.findIdx_cons, hg, ih]

theorem hunt_map (s : Series ℝ) (t : ℝ) : (mapped g s).hunt t = s.hunt t := by
  unfold Series.hunt mapped
  simp only [List.length_map, List.getElem?_map, upper_map hg]
  cases s.last with
  | none => rfl
  | some l =>
    simp only
    split
    · cases s.vec[l - 1]? with
      | none => rfl
      | some a =>
        cases s.vec[l]? with
        | none => rfl
        | some b => simp only [Option.map_some, hg]
    · rfl

theorem nom_map (w : List (Rec ℝ)) (t : ℝ) (j : Nat) : nom (w.map g) t j = nom w t j := by
  unfold nom
  simp only [List.length_map, List.getElem?_map, Option.map_map]
  have : (Rec.t ∘ g) = Rec.t := funext hg
  simp only [this]

theorem dom_map (w : List (Rec ℝ)) (j : Nat) : dom (w.map g) j = dom w j := by
  unfold dom
  simp only [List.length_map, List.getElem?_map, Option.map_map]
  have : (Rec.t ∘ g) = Rec.t := funext hg
  simp only [this]

theorem lag_map (w : List (Rec ℝ)) (t : ℝ) (q : Rec ℝ → ℝ) : lagSum (w.map g) t q = lagSum w t (fun r => q (g r)) := by
  unfold lagSum
  simp only [List.length_map, List.getElem?_map, Option.map_map, nom_map hg, dom_map hg]
  rfl

end

theorem lag_sub (w : List (Rec ℝ)) (t : ℝ) (q p : Rec ℝ → ℝ) : lagSum w t q - lagSum w t p = lagSum w t fun r => q r - p r := by
  have key : ∀ (l : List ℕ) (a b : ℝ), l.foldl (fun a j => a + ((w[j]?.map q).getD 0) * (nom w t j / dom w j)) a -
      l.foldl (fun a j => a + ((w[j]?.map p).getD 0) * (nom w t j / dom w j)) b =
      l.foldl (fun a j => a + ((w[j]?.map fun r => q r - p r).getD 0) * (nom w t j / dom w j)) (a - b) := by
    intro l
    induction l with
    | nil => intro a b; rfl
    | cons j l ih =>
      intro a b
      simp only [List.foldl_cons]
      rw [ih]
      congr 1
      cases w[j]? with
      | none => simp
      | some r => simp only [Option.map_some, Option.getD_some]; ring
  unfold lagSum
  rw [key, sub_zero]

/-- The record of an interpolation, for the weights `L`. -/
noncomputable def record (L : (Rec ℝ → ℝ) → ℝ) (t dt : ℝ) (old : Rec ℝ) (g : Rec ℝ → Rec ℝ) : Rec ℝ :=
  { t := t, xp := L fun r => (g r).xp, yp := L fun r => (g r).yp, dut := (L fun r => (g r).dut - (g r).dat) + dt, lod := L fun r => (g r).lod,
    dX := L fun r => (g r).dX, dY := L fun r => (g r).dY, dat := old.dat, xrt := 0, yrt := 0 }

/-- The interpolation of series with the same epochs: one linear function of the records. -/
theorem interp_map (dat : ℝ → ℝ) (b : Series ℝ) (t : ℝ) (old : Rec ℝ) (degree : Int) {g0 : Rec ℝ → Rec ℝ} (h0 : ∀ r, (g0 r).t = r.t) {st : Status} {r : Rec ℝ}
    {s1 : Series ℝ} (h : (mapped g0 b).interpolate dat t old degree = .ok (st, r, s1)) (hin : st ≠ .prior ∧ st ≠ .later) :
    ∃ L : (Rec ℝ → ℝ) → ℝ, (∀ q p, L q - L p = L fun r => q r - p r) ∧
      ∀ g : Rec ℝ → Rec ℝ, (∀ r, (g r).t = r.t) → (mapped g b).interpolate dat t old degree = .ok (st, record L t (dat t) old g, { mapped g b with last := s1.last }) := by
  have len : ∀ g : Rec ℝ → Rec ℝ, (mapped g b).vec.length = b.vec.length := fun g => by simp [mapped]
  have get : ∀ (g : Rec ℝ → Rec ℝ) (i : ℕ), (mapped g b).vec[i]? = b.vec[i]?.map g := fun g i => by simp [mapped]
  unfold Series.interpolate at h ⊢
  by_cases hd : degree > 9
  · rw [if_pos hd] at h; cases h
  rw [if_neg hd, hunt_map h0] at h
  cases hh : b.hunt t with
  | ub => rw [hh] at h; cases h
  | abort => rw [hh] at h; cases h
  | throw => rw [hh] at h; cases h
  | ok it =>
    rw [hh] at h
    simp only [Res.bind, len, get] at h
    by_cases c0 : it = 0
    · rw [if_pos c0] at h
      cases k : b.vec[0]? with
      | none => rw [k] at h; cases h
      | some a =>
        rw [k] at h
        simp only [Option.map_some, Res.ok.injEq, Prod.mk.injEq] at h
        exact absurd h.1.symm hin.1
    rw [if_neg c0] at h
    by_cases c1 : it = b.vec.length
    · rw [if_pos c1] at h
      cases k : b.vec[it - 1]? with
      | none => rw [k] at h; cases h
      | some a =>
        rw [k] at h
        simp only [Option.map_some, Res.ok.injEq, Prod.mk.injEq] at h
        exact absurd h.1.symm hin.2
    rw [if_neg c1] at h
    by_cases c2 : degree < 0
    · rw [if_pos c2] at h; cases h
    rw [if_neg c2] at h
    by_cases c3 : dataPoints it b.vec.length degree.toNat = 1
    · rw [if_pos c3] at h
      cases k0 : b.vec[it - 1]? with
      | none => rw [k0] at h; cases h
      | some x0 =>
        cases k1 : b.vec[it]? with
        | none => rw [k0, k1] at h; cases h
        | some x1 =>
          rw [k0, k1] at h
          simp only [Option.map_some, Res.ok.injEq, Prod.mk.injEq] at h
          obtain ⟨rfl, -, rfl⟩ := h
          refine ⟨fun q => lin x0 x1 t q, fun q p => by unfold lin; ring, fun g hg => ?_⟩
          rw [if_neg hd, hunt_map hg, hh]
          simp only [Res.bind, len, get]
          rw [if_neg c0, if_neg c1, if_neg c2, if_pos c3, k0, k1]
          simp only [Option.map_some, record, lin, hg]
    rw [if_neg c3] at h
    by_cases c4 : it < dataPoints it b.vec.length degree.toNat ∨ it + dataPoints it b.vec.length degree.toNat > b.vec.length
    · rw [if_pos c4] at h; cases h
    rw [if_neg c4] at h
    simp only [Res.ok.injEq, Prod.mk.injEq] at h
    obtain ⟨rfl, -, rfl⟩ := h
    refine ⟨fun q => lagSum ((b.vec.drop (it - dataPoints it b.vec.length degree.toNat)).take (2 * dataPoints it b.vec.length degree.toNat)) t q,
      fun q p => lag_sub .., fun g hg => ?_⟩
    rw [if_neg hd, hunt_map hg, hh]
    simp only [Res.bind, len, get]
    rw [if_neg c0, if_neg c1, if_neg c2, if_neg c3, if_neg c4]
    have w : ((mapped g b).vec.drop (it - dataPoints it b.vec.length degree.toNat)).take (2 * dataPoints it b.vec.length degree.toNat) =
        ((b.vec.drop (it - dataPoints it b.vec.length degree.toNat)).take (2 * dataPoints it b.vec.length degree.toNat)).map g := by
      simp only [mapped, List.map_drop, List.map_take]
    simp only [w, lag_map hg, record]

/-- The weights of a daily series are bounded. -/
theorem weights_bounded {dat : ℝ → ℝ} {b : Series ℝ} {t : ℝ} {old : Rec ℝ} {degree : Int} {g0 : Rec ℝ → Rec ℝ} (h0 : ∀ r, (g0 r).t = r.t) {st : Status}
    {s1 : Series ℝ} (hin : st ≠ .prior ∧ st ≠ .later) {L : (Rec ℝ → ℝ) → ℝ}
    (hL : ∀ g : Rec ℝ → Rec ℝ, (∀ r, (g r).t = r.t) → (mapped g b).interpolate dat t old degree = .ok (st, record L t (dat t) old g, { mapped g b with last := s1.last }))
    {t0 : ℝ} (ho : Observed (mapped g0 b) t0) (q : Rec ℝ → ℝ) {B : ℝ} (hB0 : 0 ≤ B) (hB : ∀ r ∈ b.vec, |q r| ≤ B) : |L q| ≤ 292 * B := by
  let g : Rec ℝ → Rec ℝ := fun r => ⟨r.t, 0, 0, 0, q r, 0, 0, 0, 0, 0⟩
  have hg : ∀ r, (g r).t = r.t := fun r => rfl
  have hc : (mapped g b).CacheOk := by
    obtain ⟨l, hl, hle⟩ := ho.cache
    exact ⟨l, hl, by simpa [mapped] using hle⟩
  have hd : ∀ i (hi : i < (mapped g b).vec.length), (mapped g b).vec[i].t = t0 + i := by
    intro i hi
    have hi' : i < b.vec.length := by simpa [mapped] using hi
    have := ho.daily i (by simpa [mapped] using hi')
    simp only [mapped, List.getElem_map, h0] at this
    simp only [mapped, List.getElem_map, hg]
    exact this
  have := RoundedEop.daily_size dat _ hc hd t old degree (hL g hg) hin (B := B) (C := 0) hB0 (by
    intro r hr
    simp only [mapped, List.mem_map] at hr
    obtain ⟨a, ha, rfl⟩ := hr
    simp only [g, abs_zero]
    exact ⟨hB0, hB0, hB a ha, hB0, hB0⟩) le_rfl (by
    intro r hr
    simp only [mapped, List.mem_map] at hr
    obtain ⟨a, ha, rfl⟩ := hr
    simp [g])
  exact this.2.2.1

theorem ut1_wide {ck : Clock} {dat : ℝ → ℝ} (hck : ck.Accurate dat) (tt : Epoch) {x' x : ℝ} (h : |x' - x| ≤ 1.3e-9) :
    |eraIers (ck.ut1 tt x').daysSinceJ2000 - eraIers (ut1Days dat tt x)| ≤ 1e-13 := by
  have hu := u_pos
  have hul := u_lt
  refine (RoundedOrient.era_lip _ _).trans ?_
  have h1 := hck.ut1 tt x'
  have h2 : |ut1Days dat tt x' - ut1Days dat tt x| ≤ 1.3e-9 / 86400 := by
    have : ut1Days dat tt x' - ut1Days dat tt x = (x' - x) / 86400 := by unfold ut1Days; ring
    rw [this, abs_div, abs_of_pos (by norm_num : (0:ℝ) < 86400)]
    exact div_le_div_of_nonneg_right h (by norm_num)
  have h3 := abs_sub_le (ck.ut1 tt x').daysSinceJ2000 (ut1Days dat tt x') (ut1Days dat tt x)
  norm_num at h2 ⊢
  linarith

/-- The record with its tidal variations changes little with the interpolated one and with the approximate UT1. -/
theorem reference_lip (dat : ℝ → ℝ) (tt : Epoch) {d' d : ℝ} {r' r : Rec ℝ} (hd : |d' - d| ≤ 6.8e-10) (hx : |r'.xp - r.xp| ≤ 0) (hy : |r'.yp - r.yp| ≤ 0)
    (hu : |r'.dut - r.dut| ≤ 6.8e-10) (hl : |r'.lod - r.lod| ≤ 1.8e-11) :
    |(reference dat tt d' r').xp - (reference dat tt d r).xp| ≤ 1e-15 ∧ |(reference dat tt d' r').yp - (reference dat tt d r).yp| ≤ 1e-15 ∧
      |(reference dat tt d' r').dut - (reference dat tt d r).dut| ≤ 6.9e-10 ∧ |(reference dat tt d' r').lod - (reference dat tt d r).lod| ≤ 1.9e-11 := by
  have hg : |eraIers (ut1Days dat tt d') + sec2rad (gmstPoly tt.jcenturies) - (eraIers (ut1Days dat tt d) + sec2rad (gmstPoly tt.jcenturies))| ≤ 5e-14 := by
    rw [show eraIers (ut1Days dat tt d') + sec2rad (gmstPoly tt.jcenturies) - (eraIers (ut1Days dat tt d) + sec2rad (gmstPoly tt.jcenturies)) =
      eraIers (ut1Days dat tt d') - eraIers (ut1Days dat tt d) by ring]
    refine (RoundedOrient.era_lip _ _).trans ?_
    have : ut1Days dat tt d' - ut1Days dat tt d = (d' - d) / 86400 := by unfold ut1Days; ring
    rw [this, abs_div, abs_of_pos (by norm_num : (0:ℝ) < 86400)]
    have := div_le_div_of_nonneg_right hd (show (0:ℝ) ≤ 86400 by norm_num)
    norm_num at this ⊢
    linarith
  have l := RoundedOrient.libration_bounded (delaunay tt.jcenturies) (eraIers (ut1Days dat tt d') + sec2rad (gmstPoly tt.jcenturies))
    (eraIers (ut1Days dat tt d) + sec2rad (gmstPoly tt.jcenturies))
  have o := RoundedOrient.ocean_bounded (delaunay tt.jcenturies) (eraIers (ut1Days dat tt d') + sec2rad (gmstPoly tt.jcenturies))
    (eraIers (ut1Days dat tt d) + sec2rad (gmstPoly tt.jcenturies))
  have a1 := abs_le.mp l.xp'
  have a2 := abs_le.mp l.yp'
  have a3 := abs_le.mp l.ut1'
  have a4 := abs_le.mp l.lod'
  have b1 := abs_le.mp o.xp'
  have b2 := abs_le.mp o.yp'
  have b3 := abs_le.mp o.ut1'
  have b4 := abs_le.mp o.lod'
  have c1 := abs_le.mp hx
  have c2 := abs_le.mp hy
  have c3 := abs_le.mp hu
  have c4 := abs_le.mp hl
  simp only [reference]
  refine ⟨abs_le.mpr ⟨?_, ?_⟩, abs_le.mpr ⟨?_, ?_⟩, abs_le.mpr ⟨?_, ?_⟩, abs_le.mpr ⟨?_, ?_⟩⟩ <;> linarith

end Verif.RoundedOptions
