import Verif.Proof.RoundedRaw
/-
C123, from the series as it was read on: the zonal tides are removed in double precision before the first row.
-/
namespace Verif.RoundedOptions
open Verif Verif.Eop Verif.EopTides Verif.Rounding Verif.Rounded Verif.Fundarg Verif.Iau Verif.RoundedState
open Verif.RoundedOrient (Clock Observed Modest Between reference ut1Days oriented delaunay noon midnight twoDays exactClock)
open Verif.Angle (sec2rad)
open Verif.RoundedEop (DayDifference)
open Verif.EarthRot (poleX poleY locator tioLocator arcsec EopRec earthRate)

section
variable {fl : Arith} {fsin fcos fatan s2r cents : ℝ → ℝ} {fatan2 : ℝ → ℝ → ℝ} {qmul : Quat → Quat → Quat} {mmul : M3 → M3 → M3} {rot : Quat → V3 → V3}
  {mv : M3 → V3 → V3} {dd : ℝ → ℝ → ℝ} {ck : Clock}

/-- A record of `regularize`. -/
noncomputable def plain (fl : Arith) (fsin fcos s2r cents : ℝ → ℝ) (r : Rec ℝ) : Rec ℝ :=
  ((RoundedEopTides.regularize fl fsin fcos s2r cents { vec := [r], last := none, cap := 0 } : Series ℝ).vec[0]?).getD r

theorem regularize_mapped (s : Series ℝ) : RoundedEopTides.regularize fl fsin fcos s2r cents s = mapped (plain fl fsin fcos s2r cents) s := rfl

theorem plain_fields (r : Rec ℝ) : plain fl fsin fcos s2r cents r =
    { r with dut := (plain fl fsin fcos s2r cents r).dut, lod := (plain fl fsin fcos s2r cents r).lod } := rfl

/-- Removing the tides from one record, up to rounding. -/
theorem plain_close (hf : Faithful fl) (hT : Trig fsin fcos) (hs : SecToRad s2r) {s : Series ℝ} {t0 : ℝ} (h : Read cents s t0) {r : Rec ℝ} (hr : r ∈ s.vec) :
    |(plain fl fsin fcos s2r cents r).dut - (withoutZonal r).dut| ≤ 2.3e-12 ∧ |(plain fl fsin fcos s2r cents r).lod - (withoutZonal r).lod| ≤ 6e-14 := by
  have := (RoundedEopTides.regularize_rounded (cents := cents) hf hT hs { vec := [r], last := none, cap := 0 } (by
    intro a ha
    simp only [List.mem_cons, List.not_mem_nil, or_false] at ha
    subst ha
    exact ⟨h.time _ hr, (h.ut1 _ hr).1, (h.ut1 _ hr).2.1⟩)).1
  cases this with
  | cons ha hb => exact ⟨ha.2.1, ha.2.2⟩

theorem smooth_size {s : Series ℝ} {t0 : ℝ} (h : Read cents s t0) {r : Rec ℝ} (hr : r ∈ s.vec) : |(withoutZonal r).dut| ≤ 1.2 ∧ |(withoutZonal r).lod| ≤ 0.02 := by
  obtain ⟨z1, z2⟩ := RoundedEopTides.zonal_size (delaunay ((r.t - 51544.5) / 36525))
  obtain ⟨a1, a2, -⟩ := h.ut1 _ hr
  have b1 := abs_le.mp z1
  have b2 := abs_le.mp z2
  have c1 := abs_le.mp a1
  have c2 := abs_le.mp a2
  simp only [withoutZonal]
  exact ⟨abs_le.mpr ⟨by linarith, by linarith⟩, abs_le.mpr ⟨by linarith, by linarith⟩⟩

/-- A series that changes only UT1 and length of day, to moderate values. -/
theorem observed_mapped {s : Series ℝ} {t0 : ℝ} (h : Read cents s t0) {g : Rec ℝ → Rec ℝ} (hg : ∀ r, g r = { r with dut := (g r).dut, lod := (g r).lod })
    (hb : ∀ r ∈ s.vec, |(g r).dut| ≤ 1.3 ∧ |(g r).lod| ≤ 0.03) : Observed (mapped g s) t0 ∧ ∀ r ∈ (mapped g s).vec, |r.lod| ≤ 0.2 := by
  refine ⟨⟨?_, ?_, ?_, ?_⟩, ?_⟩
  · obtain ⟨l, hl, hle⟩ := h.cache
    exact ⟨l, hl, by simpa [mapped] using hle⟩
  · intro i hi
    have hi' : i < s.vec.length := by simpa [mapped] using hi
    simp only [mapped, List.getElem_map]
    rw [hg]
    exact h.daily i hi'
  · intro r hr
    simp only [mapped, List.mem_map] at hr
    obtain ⟨a, ha, rfl⟩ := hr
    obtain ⟨p1, p2, p3, p4⟩ := h.pole a ha
    have q := (hb a ha).2
    rw [hg]
    exact ⟨p1, p2, q.trans (by norm_num), p3, p4⟩
  · intro r hr
    simp only [mapped, List.mem_map] at hr
    obtain ⟨a, ha, rfl⟩ := hr
    have q := (hb a ha).1
    have p := (h.ut1 a ha).2.2
    rw [hg]
    have := abs_sub (g a).dut a.dat
    show |(g a).dut - a.dat| ≤ 100
    linarith
  · intro r hr
    simp only [mapped, List.mem_map] at hr
    obtain ⟨a, ha, rfl⟩ := hr
    exact (hb a ha).2.trans (by norm_num)

theorem Read.smooth {s : Series ℝ} {t0 : ℝ} (h : Read cents s t0) : Observed (smooth s) t0 ∧ ∀ r ∈ (smooth s).vec, |r.lod| ≤ 0.2 :=
  observed_mapped h (g := withoutZonal) (fun _ => rfl) fun r hr => by
    obtain ⟨a, b⟩ := smooth_size h hr
    exact ⟨a.trans (by norm_num), b.trans (by norm_num)⟩

theorem Read.plain (hf : Faithful fl) (hT : Trig fsin fcos) (hs : SecToRad s2r) {s : Series ℝ} {t0 : ℝ} (h : Read cents s t0) :
    Observed (mapped (plain fl fsin fcos s2r cents) s) t0 :=
  (observed_mapped h (g := RoundedOptions.plain fl fsin fcos s2r cents) (fun _ => rfl) fun r hr => by
    obtain ⟨a, b⟩ := smooth_size h hr
    obtain ⟨c, d⟩ := plain_close hf hT hs h hr
    have := abs_sub_abs_le_abs_sub (RoundedOptions.plain fl fsin fcos s2r cents r).dut (withoutZonal r).dut
    have := abs_sub_abs_le_abs_sub (RoundedOptions.plain fl fsin fcos s2r cents r).lod (withoutZonal r).lod
    exact ⟨by linarith, by linarith⟩).1

theorem Read.moved {s : Series ℝ} {t0 : ℝ} (h : Read cents s t0) {l : Option ℕ} {g : Rec ℝ → Rec ℝ} (hc : ({ mapped g s with last := l } : Series ℝ).CacheOk) :
    Read cents { s with last := l } t0 := by
  refine ⟨?_, h.daily, h.pole, h.ut1, h.time⟩
  obtain ⟨m, hm, hle⟩ := hc
  exact ⟨m, hm, by simpa [mapped] using hle⟩

theorem between_mapped {g : Rec ℝ → Rec ℝ} (hg : ∀ r, (g r).t = r.t) (s : Series ℝ) (tt : Epoch) : Between (mapped g s) tt ↔ Between s tt := by
  unfold Between mapped
  simp only [List.mem_map, exists_exists_and_eq_and, hg]

/-- The record in double precision, of the series without the tides in double precision, against the exact record of the exact series. -/
theorem record_raw (hf : Faithful fl) (hT : Trig fsin fcos) (hs : SecToRad s2r) (hdd : DayDifference dd) (dat : ℝ → ℝ) (hck : ck.Accurate dat) {s : Series ℝ}
    {t0 : ℝ} (h : Read cents s t0) (tt : Epoch) (old : Rec ℝ) (hr : |tt.jcenturies| ≤ 0.999) (hdat : |dat ((tt.mjd : ℝ) + tt.f)| ≤ 100) (hbt : Between s tt) :
    ∃ l e st r s1 d s2, oriented fl fsin fcos s2r dd ck dat (mapped (plain fl fsin fcos s2r cents) s) tt old =
        .ok ({ mapped (plain fl fsin fcos s2r cents) s with last := l }, e, true) ∧ Observed { mapped (plain fl fsin fcos s2r cents) s with last := l } t0 ∧
      (smooth s).interpolate dat ((tt.mjd : ℝ) + tt.f) old 5 = .ok (st, r, s1) ∧ (st ≠ .prior ∧ st ≠ .later) ∧
      s1.approxDut1 dat ((tt.mjd : ℝ) + tt.f) = .ok (.linear, d, s2) ∧
      |e.xp - (reference dat tt d r).xp| ≤ 7e-12 ∧ |e.yp - (reference dat tt d r).yp| ≤ 7e-12 ∧ |e.dX - (reference dat tt d r).dX| ≤ 7e-12 ∧
      |e.dY - (reference dat tt d r).dY| ≤ 7e-12 ∧ |e.dut - (reference dat tt d r).dut| ≤ 1.3e-9 ∧ |e.lod - (reference dat tt d r).lod| ≤ 3e-11 := by
  have hp := h.plain hf hT hs
  obtain ⟨hw, hwl⟩ := h.smooth
  set G := plain fl fsin fcos s2r cents with hG
  have hGt : ∀ r, (G r).t = r.t := fun r => rfl
  have hWt : ∀ r, (withoutZonal r).t = r.t := fun r => rfl
  obtain ⟨hb, ha⟩ := (between_mapped hGt s tt).mpr hbt
  have hne : (mapped G s).vec ≠ [] := by
    rintro hv
    obtain ⟨r, hr, -⟩ := hb
    rw [hv] at hr
    cases hr
  obtain ⟨st, r', s1', g1, g2, g3⟩ := eop_status_outside dat hp.sorted hp.cache hne ((tt.mjd : ℝ) + tt.f) old 5 (by norm_num) (by norm_num)
  have hin : st ≠ .prior ∧ st ≠ .later := by
    refine ⟨fun k => ?_, fun k => ?_⟩
    · obtain ⟨a, ha1, ha2⟩ := hb
      exact absurd (g2.mp k a ha1) (not_lt.mpr ha2)
    · obtain ⟨a, ha1, ha2⟩ := ha
      exact absurd (g3.mp k a ha1) (not_le.mpr ha2)
  obtain ⟨L, lin, hL⟩ := interp_map dat s ((tt.mjd : ℝ) + tt.f) old 5 hGt g1 hin
  have e1 := g1.symm.trans (hL G hGt)
  simp only [Res.ok.injEq, Prod.mk.injEq, true_and] at e1
  obtain ⟨er, es⟩ := e1
  have ho1 := hp.next g1
  have hv : s1'.vec = (mapped G s).vec := by rw [es]
  obtain ⟨d', e0, s2', s3, k1, -, -⟩ := approx_dut1_agrees dat ho1.sorted ho1.cache ((tt.mjd : ℝ) + tt.f) (by rw [hv]; exact hb) (by rw [hv]; exact ha) old
  obtain ⟨r1, hr1, hr1d⟩ := RoundedOrient.approx_exact dat s1' ho1.sorted ho1.cache ((tt.mjd : ℝ) + tt.f) old k1
  have es' : s1' = mapped G { s with last := s1'.last } := es
  have hr1' := hr1
  rw [es'] at hr1'
  have lin1 : (Status.linear ≠ .prior ∧ Status.linear ≠ .later) := ⟨by simp, by simp⟩
  obtain ⟨L1, linL1, hL1⟩ := interp_map dat { s with last := s1'.last } ((tt.mjd : ℝ) + tt.f) old 1 hGt hr1' lin1
  have e2 := hr1'.symm.trans (hL1 G hGt)
  simp only [Res.ok.injEq, Prod.mk.injEq, true_and] at e2
  obtain ⟨er1, es2⟩ := e2
  have hW := hL withoutZonal hWt
  have how := hw.next hW
  obtain ⟨hbw, haw⟩ := (between_mapped hWt s tt).mpr hbt
  obtain ⟨d, e3, s2, s4, k2, k3, k4⟩ := approx_dut1_agrees dat how.sorted how.cache ((tt.mjd : ℝ) + tt.f) hbw haw old
  have e4 := k3.symm.trans (hL1 withoutZonal hWt)
  simp only [Res.ok.injEq, Prod.mk.injEq, true_and] at e4
  obtain ⟨er3, -⟩ := e4
  have b5 : ∀ (q : Rec ℝ → ℝ) {B : ℝ}, 0 ≤ B → (∀ r ∈ s.vec, |q r| ≤ B) → |L q| ≤ 292 * B := fun q B h0 hB => weights_bounded hGt hin hL hp q h0 hB
  have b1 : ∀ (q : Rec ℝ → ℝ) {B : ℝ}, 0 ≤ B → (∀ r ∈ s.vec, |q r| ≤ B) → |L1 q| ≤ 292 * B := fun q B h0 hB =>
    weights_bounded (b := { s with last := s1'.last }) hGt lin1 hL1 (by rw [es'] at ho1; exact ho1) q h0 hB
  have hdd' : |d' - d| ≤ 6.8e-10 := by
    rw [← hr1d, ← k4, er1, er3]
    simp only [record]
    rw [add_sub_add_right_eq_sub, linL1]
    refine (b1 _ (B := 2.3e-12) (by norm_num) fun r hr => ?_).trans (by norm_num)
    refine le_trans (le_of_eq ?_) (plain_close hf hT hs h hr).1
    rw [← hG]
    show |(G r).dut - r.dat - ((withoutZonal r).dut - r.dat)| = _
    congr 1
    ring
  have hdu : |r'.dut - (record L ((tt.mjd : ℝ) + tt.f) (dat ((tt.mjd : ℝ) + tt.f)) old withoutZonal).dut| ≤ 6.8e-10 := by
    rw [er]
    simp only [record]
    rw [add_sub_add_right_eq_sub, lin]
    refine (b5 _ (B := 2.3e-12) (by norm_num) fun r hr => ?_).trans (by norm_num)
    refine le_trans (le_of_eq ?_) (plain_close hf hT hs h hr).1
    rw [← hG]
    show |(G r).dut - r.dat - ((withoutZonal r).dut - r.dat)| = _
    congr 1
    ring
  have hlo : |r'.lod - (record L ((tt.mjd : ℝ) + tt.f) (dat ((tt.mjd : ℝ) + tt.f)) old withoutZonal).lod| ≤ 1.8e-11 := by
    rw [er]
    simp only [record]
    rw [lin]
    exact (b5 _ (B := 6e-14) (by norm_num) fun r hr => (plain_close hf hT hs h hr).2).trans (by norm_num)
  have hxp : |r'.xp - (record L ((tt.mjd : ℝ) + tt.f) (dat ((tt.mjd : ℝ) + tt.f)) old withoutZonal).xp| ≤ 0 := by
    rw [er, abs_nonpos_iff, sub_eq_zero]; rfl
  have hyp : |r'.yp - (record L ((tt.mjd : ℝ) + tt.f) (dat ((tt.mjd : ℝ) + tt.f)) old withoutZonal).yp| ≤ 0 := by
    rw [er, abs_nonpos_iff, sub_eq_zero]; rfl
  have hXX : r'.dX = (record L ((tt.mjd : ℝ) + tt.f) (dat ((tt.mjd : ℝ) + tt.f)) old withoutZonal).dX := by rw [er]; rfl
  have hYY : r'.dY = (record L ((tt.mjd : ℝ) + tt.f) (dat ((tt.mjd : ℝ) + tt.f)) old withoutZonal).dY := by rw [er]; rfl
  obtain ⟨q1, q2, q3, q4⟩ := reference_lip dat tt hdd' hxp hyp hdu hlo
  obtain ⟨e, he, hx, hy, hX, hY, hu1, hl⟩ := RoundedOrient.record_rounded hf hT hs hdd dat hck hp tt hr hdat old g1 hin k1
  have tri : ∀ {a b c E F : ℝ}, |a - b| ≤ E → |b - c| ≤ F → |a - c| ≤ E + F := fun h1 h2 => (abs_sub_le _ _ _).trans (add_le_add h1 h2)
  have hs2 : s2' = { mapped G s with last := s2'.last } := by rw [es2]; rfl
  refine ⟨s2'.last, e, st, _, _, d, s2, by rw [he, ← hs2], ?_, hW, hin, k2, (tri hx q1).trans (by norm_num), (tri hy q2).trans (by norm_num), ?_, ?_,
    (tri hu1 q3).trans (by norm_num), (tri hl q4).trans (by norm_num)⟩
  · rw [← hs2]; exact ho1.next hr1
  · refine le_trans ?_ (hX.trans (by norm_num))
    simp only [reference]
    rw [hXX]
  · refine le_trans ?_ (hY.trans (by norm_num))
    simp only [reference]
    rw [hYY]

/-- C123: one row, from the series as it was read on. -/
theorem raw_inside (hf : Faithful fl) (hT : Trig fsin fcos) (hI : InverseTrig fatan fatan2) (hs : SecToRad s2r) (hq : QuatMul qmul) (hmm : MatMul mmul)
    (hrot : Turns rot) (hmv : MatVec mv) (hdd : DayDifference dd) (dat : ℝ → ℝ) (hck : ck.Accurate dat) {s : Series ℝ}
    {t0 : ℝ} (h : Read cents s t0) (x : Row) (hr : |x.tt.jcenturies| ≤ 0.999) (hdat : |dat ((x.tt.mjd : ℝ) + x.tt.f)| ≤ 100) (hb : Between s x.tt) :
    ∃ l o, turnOf fl fsin fcos fatan s2r fatan2 qmul mmul rot mv dd ck dat (RoundedEopTides.regularize fl fsin fcos s2r cents s) x.tt x.old x.ri x.vi =
        .ok ({ RoundedEopTides.regularize fl fsin fcos s2r cents s with last := l }, some o) ∧ Read cents { s with last := l } t0 ∧ Good dat (smooth s) x o := by
  obtain ⟨tt, ri, vi, old⟩ := x
  simp only at hr hdat hb ⊢
  obtain ⟨l, e, st, r, s1, d, s2, he, ho, g1, hin, k1, hx, hy, hX, hY, hu1, hl⟩ := record_raw hf hT hs hdd dat hck h tt old hr hdat hb
  obtain ⟨hw, hlod⟩ := h.smooth
  have hm := hw.modest hdat g1 hin
  have bl := reference_lod dat tt d ((lod_size hw g1 hin (by norm_num) hlod).trans (by norm_num))
  obtain ⟨sx, sy, su⟩ := RoundedOrient.reference_size dat tt d hm
  have hr1' : |tt.jcenturies| ≤ 1 := hr.trans (by norm_num)
  have bu : |e.dut| ≤ 30000 := by
    have := abs_sub_abs_le_abs_sub e.dut (reference dat tt d r).dut
    linarith
  obtain ⟨o, f1, ⟨S, M, hM, hS, f2⟩, f3⟩ := four_good (fl := fl) (fsin := fsin) (fcos := fcos) (e := Orient.eopRec e)
    (R := Orient.eopRec (reference dat tt d r)) hf hT hI hs hq hmm hrot hmv tt (ck.ut1 tt e.dut) (hck.sees tt).cents (hck.sees (ck.ut1 tt e.dut)) hr1'
    (RoundedOrient.ut1_range hck tt hr hdat bu) (hm.dX.trans (by norm_num)) (hm.dY.trans (by norm_num)) (sx.trans (by norm_num)) (sy.trans (by norm_num))
    (bl.trans (by norm_num)) (hX.trans (by norm_num)) (hY.trans (by norm_num)) (hx.trans (by norm_num)) (hy.trans (by norm_num)) (hl.trans (by norm_num))
    (ut1_wide hck tt hu1) ri vi
  refine ⟨l, o, ?_, h.moved ho.cache, ⟨S, ⟨st, r, s1, d, s2, M, g1, k1, hM, hS⟩, f2⟩, f3⟩
  rw [regularize_mapped]
  unfold turnOf
  rw [he]
  simp only [Res.bind]
  rw [if_neg (by simp), f1]

open Classical in
/-- C123: the whole program, from the series as it was read on, for any list of rows: regularisation, then results for every row before the first whose epoch is out
of bounds, all of them good for the exactly regularised series; it returns 0 exactly if every epoch is inside. -/
theorem options_raw (hf : Faithful fl) (hT : Trig fsin fcos) (hI : InverseTrig fatan fatan2) (hs : SecToRad s2r) (hq : QuatMul qmul) (hmm : MatMul mmul)
    (hrot : Turns rot) (hmv : MatVec mv)
    (hdd : DayDifference dd) (dat : ℝ → ℝ) (hdat : ∀ t, |dat t| ≤ 100) (hck : ck.Accurate dat) {s : Series ℝ} {t0 : ℝ} (h : Read cents s t0) (hne : s.vec ≠ [])
    (rows : List Row) (hr : ∀ x ∈ rows, |x.tt.jcenturies| ≤ 0.999) :
    ∃ s' os c, program fl fsin fcos fatan s2r fatan2 qmul mmul rot mv dd ck cents dat s rows = .ok (s', os, c) ∧
      List.Forall₂ (Good dat (smooth s)) (rows.takeWhile fun x => Between s x.tt) os ∧ c = if ∀ x ∈ rows, Between s x.tt then 0 else 1 := by
  have key : ∀ (rows : List Row) (l : Option ℕ), (∀ x ∈ rows, |x.tt.jcenturies| ≤ 0.999) → Read cents { s with last := l } t0 →
      ∃ s' os c, loop fl fsin fcos fatan s2r fatan2 qmul mmul rot mv dd ck dat (RoundedEopTides.regularize fl fsin fcos s2r cents { s with last := l }) rows =
        .ok (s', os, c) ∧ List.Forall₂ (Good dat (smooth s)) (rows.takeWhile fun x => Between s x.tt) os ∧ c = if ∀ x ∈ rows, Between s x.tt then 0 else 1 := by
    intro rows
    induction rows with
    | nil => intro l _ _; exact ⟨_, [], 0, rfl, .nil, by simp⟩
    | cons x rest ih =>
      intro l hr h1
      by_cases hb : Between s x.tt
      · obtain ⟨m, o, k1, k2, k3⟩ := raw_inside hf hT hI hs hq hmm hrot hmv hdd dat hck h1 x (hr _ List.mem_cons_self) (hdat _) hb
        obtain ⟨s', os, c, g1, g3, g4⟩ := ih m (fun y hy => hr y (List.mem_cons_of_mem _ hy)) k2
        refine ⟨s', o :: os, c, ?_, ?_, ?_⟩
        · unfold loop
          rw [k1]
          simp only [Res.bind]
          have : ({ RoundedEopTides.regularize fl fsin fcos s2r cents { s with last := l } with last := m } : Series ℝ) =
            RoundedEopTides.regularize fl fsin fcos s2r cents { s with last := m } := rfl
          rw [this, g1]
        · rw [List.takeWhile_cons_of_pos (by simpa using hb)]
          exact .cons (k3.cache h.smooth.1 h1.smooth.1 rfl) g3
        · simp [g4, hb]
      · have hp := h1.plain (fl := fl) hf hT hs
        have hn : (mapped (plain fl fsin fcos s2r cents) { s with last := l }).vec ≠ [] := by simpa [mapped] using hne
        obtain ⟨st, e, s2, g1, g2, g3⟩ := eop_status_outside dat hp.sorted hp.cache hn ((x.tt.mjd : ℝ) + x.tt.f) x.old 5 (by norm_num) (by norm_num)
        have hout : st = .prior ∨ st = .later := by
          by_contra hc
          push Not at hc
          exact hb ((between_mapped (g := plain fl fsin fcos s2r cents) (fun _ => rfl) { s with last := l } x.tt).mp (hp.between (by norm_num) (by norm_num) g1 hc))
        have k1 := options_outside (fsin := fsin) (fcos := fcos) (fatan := fatan) (s2r := s2r) (fatan2 := fatan2) (qmul := qmul) (mmul := mmul) (rot := rot)
          (mv := mv) (ck := ck) hf hdd dat hp x.tt (hdat _) x.old x.ri x.vi g1 hout
        refine ⟨s2, [], 1, ?_, ?_, ?_⟩
        · unfold loop
          rw [regularize_mapped, k1]
          rfl
        · rw [List.takeWhile_cons_of_neg (by simpa using hb)]
          exact .nil
        · rw [if_neg]
          intro h
          exact hb (h x List.mem_cons_self)
  exact key rows s.last hr h

end

open Classical in
/-- The hypotheses can be met: rounding to nearest, whichever products are fused, exact functions of the C library; two daily records, from which the zonal tides are
removed first; a satellite 7000 km from the centre of the Earth, at noon between them, at the last of them, which is out of bounds, and once more at noon. -/
example (b : ℕ → Bool) : ∃ s' o S, let fl := rnArith b
    let row : Epoch → Row := fun t => ⟨t, ⟨7e6, 0, 0⟩, ⟨0, 7.5e3, 0⟩, RoundedEop.sample 0⟩
    program fl Real.sin Real.cos Real.arctan (fun x => x * (2 * Real.pi / 1296000)) (fun y x => Complex.arg ⟨x, y⟩) (RoundedGcrs.product fl)
      (RoundedGcrs.matProduct fl) (transformVector fl) (mulVec fl) (fun x y => fl (x - y)) (exactClock fun _ => 37) (fun t => (t - 51544.5) / 36525) (fun _ => 37)
      twoDays [row noon, row midnight, row noon] = .ok (s', [o], 1) ∧
    Truth (fun _ => 37) (smooth twoDays) noon (RoundedEop.sample 0) ⟨7e6, 0, 0⟩ ⟨0, 7.5e3, 0⟩ S ∧ Close3 2.7e-5 o.p1 S.1 ∧ Close3 4e-8 o.v4 S.2 := by
  have hu := u_pos
  have hj : noon.jcenturies = 4540 / 36525 := by
    show (((56084 : ℤ) : ℝ) + 0.5 - 51544.5) / 36525 = _; norm_num
  have hj' : midnight.jcenturies = 4540.5 / 36525 := by
    show (((56085 : ℤ) : ℝ) + 0 - 51544.5) / 36525 = _; norm_num
  have ht : ((noon.mjd : ℤ) : ℝ) + noon.f = 56084.5 := by show ((56084 : ℤ) : ℝ) + 0.5 = _; norm_num
  have ht' : ((midnight.mjd : ℤ) : ℝ) + midnight.f = 56085 := by show ((56085 : ℤ) : ℝ) + 0 = _; norm_num
  have b1 : Between twoDays noon := by
    unfold Between
    rw [ht]
    exact ⟨⟨RoundedEop.sample 56084, by simp [twoDays], by norm_num [RoundedEop.sample]⟩, ⟨RoundedEop.sample 56085, by simp [twoDays], by norm_num [RoundedEop.sample]⟩⟩
  have b2 : ¬ Between twoDays midnight := by
    rintro ⟨-, r, hr, h⟩
    rw [ht'] at h
    simp only [twoDays, List.mem_cons, List.not_mem_nil, or_false] at hr
    rcases hr with rfl | rfl <;> norm_num [RoundedEop.sample] at h
  have s1 : size ⟨7e6, 0, 0⟩ = 7e6 := by unfold size; norm_num
  have s2 : size ⟨0, 7.5e3, 0⟩ = 7.5e3 := by unfold size; norm_num
  have ho := RoundedOrient.twoDays_ok
  have mem : ∀ {P : Rec ℝ → Prop}, P (RoundedEop.sample 56084) → P (RoundedEop.sample 56085) → ∀ r ∈ twoDays.vec, P r := by
    intro P p q r hr
    simp only [twoDays, List.mem_cons, List.not_mem_nil, or_false] at hr
    rcases hr with rfl | rfl
    · exact p
    · exact q
  obtain ⟨s', os, c, h1, h2, h3⟩ := options_raw (cents := fun t => (t - 51544.5) / 36525) (rn_faithful b)
    (show Trig Real.sin Real.cos from ⟨fun x => by simp [hu.le], fun x => by simp [hu.le]⟩) (show InverseTrig Real.arctan _ from RoundedGcrs.inverse_exact)
    s2r_exact (RoundedGcrs.product_ok (rn_faithful b)) (RoundedGcrs.matProduct_ok (rn_faithful b)) (transformVector_ok (rn_faithful b)) (mulVec_ok (rn_faithful b))
    (RoundedEop.rounded_difference (rn_faithful b)) (fun _ => 37) (fun _ => by norm_num) (RoundedOrient.exactClock_ok _)
    (⟨ho.cache, ho.daily, fun r hr => ⟨(ho.pole r hr).1, (ho.pole r hr).2.1, (ho.pole r hr).2.2.2.1, (ho.pole r hr).2.2.2.2⟩,
      mem (by norm_num [RoundedEop.sample, abs_le]) (by norm_num [RoundedEop.sample, abs_le]),
      mem ⟨by simp [hu.le], by norm_num [RoundedEop.sample, abs_le]⟩ ⟨by simp [hu.le], by norm_num [RoundedEop.sample, abs_le]⟩⟩ : Read _ twoDays _) (by simp [twoDays])
    [⟨noon, ⟨7e6, 0, 0⟩, ⟨0, 7.5e3, 0⟩, RoundedEop.sample 0⟩, ⟨midnight, ⟨7e6, 0, 0⟩, ⟨0, 7.5e3, 0⟩, RoundedEop.sample 0⟩,
      ⟨noon, ⟨7e6, 0, 0⟩, ⟨0, 7.5e3, 0⟩, RoundedEop.sample 0⟩] (by
      intro x hx
      simp only [List.mem_cons, List.not_mem_nil, or_false] at hx
      rcases hx with rfl | rfl | rfl <;> simp only [hj, hj'] <;> norm_num [abs_of_pos])
  have e : ([⟨noon, ⟨7e6, 0, 0⟩, ⟨0, 7.5e3, 0⟩, RoundedEop.sample 0⟩, ⟨midnight, ⟨7e6, 0, 0⟩, ⟨0, 7.5e3, 0⟩, RoundedEop.sample 0⟩,
      ⟨noon, ⟨7e6, 0, 0⟩, ⟨0, 7.5e3, 0⟩, RoundedEop.sample 0⟩] : List Row).takeWhile
      (fun x => decide (Between twoDays x.tt)) = [⟨noon, ⟨7e6, 0, 0⟩, ⟨0, 7.5e3, 0⟩, RoundedEop.sample 0⟩] := by
    simp [b1, b2]
  rw [e] at h2
  rw [if_neg (by
    intro h
    exact b2 (h _ (List.mem_cons_of_mem _ List.mem_cons_self)))] at h3
  subst h3
  cases h2 with
  | cons ha hb =>
    cases hb
    obtain ⟨⟨S, t1, t2, -, -, -, -, t3⟩, -⟩ := ha
    simp only [s1, s2] at t2 t3
    exact ⟨s', _, S, h1, t1, Close3.mono t2 (by norm_num), Close3.mono t3 (by norm_num)⟩

end Verif.RoundedOptions
