import Verif.Proof.RoundedOrient
/-
C121: from a series of Earth orientation parameters to the rotation of the Earth, in double precision.
-/
namespace Verif.RoundedOrient
open Verif Verif.Eop Verif.EopTides Verif.Rounding Verif.Rounded Verif.Fundarg Verif.Iau
open Verif.Angle (sec2rad)
open Verif.RoundedEop (DayDifference)

theorem Observed.sorted {s : Series ℝ} {t0 : ℝ} (h : Observed s t0) : Sorted s.vec := by
  refine List.pairwise_iff_getElem.mpr fun i j hi hj hij => ?_
  rw [h.daily i hi, h.daily j hj]
  have : (i : ℝ) + 1 ≤ j := by exact_mod_cast hij
  linarith

/-- An interpolation keeps the series as it is. -/
theorem Observed.next {s s' : Series ℝ} {t0 : ℝ} (h : Observed s t0) {dat : ℝ → ℝ} {t : ℝ} {old : Rec ℝ} {degree : Int} {st : Status} {r : Rec ℝ}
    (hi : s.interpolate dat t old degree = .ok (st, r, s')) : Observed s' t0 := by
  obtain ⟨it, h1, rfl⟩ := interpolate_series dat s t old degree hi
  obtain ⟨l, hl, hle⟩ := h.cache
  rw [hunt_sorted h.sorted hl hle] at h1
  have e : upperBound t s.vec = it := by simpa using h1
  have hb := (upperBound_spec t h.sorted).1
  rw [e] at hb
  exact ⟨⟨it, rfl, hb⟩, h.daily, h.pole, h.ut1⟩

/-- What interpolation in such a series can give at most. -/
structure Modest (r : Rec ℝ) : Prop where
  xp : |r.xp| ≤ 292
  yp : |r.yp| ≤ 292
  lod : |r.lod| ≤ 292
  dX : |r.dX| ≤ 292
  dY : |r.dY| ≤ 292
  dut : |r.dut| ≤ 29300

theorem Observed.modest {s s' : Series ℝ} {t0 : ℝ} (ho : Observed s t0) {dat : ℝ → ℝ} {t : ℝ} {old : Rec ℝ} {degree : Int} {st : Status} {r : Rec ℝ}
    (hdat : |dat t| ≤ 100) (h : s.interpolate dat t old degree = .ok (st, r, s')) (hin : st ≠ .prior ∧ st ≠ .later) : Modest r := by
  obtain ⟨h1, h2, h3, h4, h5, h6⟩ := RoundedEop.daily_size dat s ho.cache ho.daily t old degree h hin (B := 1) (C := 100) (by norm_num) ho.pole (by norm_num) ho.ut1
  have := abs_sub_abs_le_abs_sub r.dut (dat t)
  exact ⟨by linarith, by linarith, by linarith, by linarith, by linarith, by linarith⟩

/-- A query that is answered by interpolation has a record at or before it and one after it. -/
theorem Observed.between {s s' : Series ℝ} {t0 : ℝ} (ho : Observed s t0) {dat : ℝ → ℝ} {t : ℝ} {old : Rec ℝ} {degree : Int} {st : Status} {r : Rec ℝ}
    (hd1 : 1 ≤ degree) (hd : degree ≤ 9) (h : s.interpolate dat t old degree = .ok (st, r, s')) (hin : st ≠ .prior ∧ st ≠ .later) :
    (∃ r ∈ s.vec, r.t ≤ t) ∧ ∃ r ∈ s.vec, t < r.t := by
  have hne : s.vec ≠ [] := by
    intro hv
    obtain ⟨it, h1, -⟩ := interpolate_series dat s t old degree h
    obtain ⟨l, hl, hle⟩ := ho.cache
    have h2 := h1
    rw [hunt_sorted ho.sorted hl hle] at h2
    have hb := (upperBound_spec t ho.sorted).1
    have e : upperBound t s.vec = it := by simpa using h2
    rw [e, hv] at hb
    have e0 : it = 0 := by simpa using hb
    unfold Series.interpolate at h
    rw [if_neg (by omega), h1] at h
    simp [Res.bind, e0, hv] at h
  obtain ⟨st', e, s'', g1, g2, g3⟩ := eop_status_outside dat ho.sorted ho.cache hne t old degree hd1 hd
  rw [h] at g1
  have e : st = st' := by simp only [Res.ok.injEq, Prod.mk.injEq] at g1; exact g1.1
  subst e
  have k1 : ¬ ∀ r ∈ s.vec, t < r.t := fun k => hin.1 (g2.mpr k)
  have k2 : ¬ ∀ r ∈ s.vec, r.t ≤ t := fun k => hin.2 (g3.mpr k)
  push Not at k1 k2
  exact ⟨k1, k2⟩

/-- The approximate value of UT1-UTC at a query that is answered by interpolation. -/
theorem Observed.modest_dut1 {s s1 s2 : Series ℝ} {t0 : ℝ} (ho : Observed s t0) {dat : ℝ → ℝ} {t : ℝ} {old : Rec ℝ} {degree : Int} {st st' : Status} {r : Rec ℝ}
    {d : ℝ} (hd1 : 1 ≤ degree) (hd : degree ≤ 9) (hdat : |dat t| ≤ 100) (h : s.interpolate dat t old degree = .ok (st, r, s1)) (hin : st ≠ .prior ∧ st ≠ .later)
    (ha : s1.approxDut1 dat t = .ok (st', d, s2)) : |d| ≤ 29300 := by
  obtain ⟨b1, b2⟩ := ho.between hd1 hd h hin
  have hv : s1.vec = s.vec := by obtain ⟨it, -, rfl⟩ := interpolate_series dat s t old degree h; rfl
  have ho1 := ho.next h
  obtain ⟨v, e, s3, s4, g1, g2, rfl⟩ := approx_dut1_agrees dat ho1.sorted ho1.cache t (by rw [hv]; exact b1) (by rw [hv]; exact b2) old
  rw [ha] at g1
  have e : d = e.dut := by simp only [Res.ok.injEq, Prod.mk.injEq] at g1; exact g1.2.1
  rw [e]
  exact (ho1.modest hdat g2 (by simp)).dut

section
variable {fl : Arith} {fsin fcos fatan s2r : ℝ → ℝ} {fatan2 : ℝ → ℝ → ℝ} {qmul : Quat → Quat → Quat} {dd : ℝ → ℝ → ℝ} {ck : Clock}

/-- C121: `approx_dut1` in double precision, on a daily series: the status and the series are those of exact arithmetic, the value is accurate to
5.4e-10 s. -/
theorem approx_dut1_rounded (hf : Faithful fl) (hdd : DayDifference dd) (dat : ℝ → ℝ) {s : Series ℝ} {t0 : ℝ} (ho : Observed s t0) (t : ℝ) (hdat : |dat t| ≤ 100)
    {st : Status} {d : ℝ} {s' : Series ℝ} (h : s.approxDut1 dat t = .ok (st, d, s')) :
    ∃ d', approxDut1 fl dd dat s t = .ok (st, d', s') ∧ |d' - d| ≤ 5.4e-10 := by
  let old : Rec ℝ := ⟨0, 0, 0, 0, 0, 0, 0, 0, 0, 0⟩
  obtain ⟨r, hr, rfl⟩ := approx_exact dat s ho.sorted ho.cache t old h
  obtain ⟨r', h1, -, -, -, -, -, -, h2⟩ := RoundedEop.daily_rounded hf hdd dat s ho.cache ho.daily t old 1 hr (B := 1) (by norm_num) ho.pole ho.ut1 hdat
  exact ⟨_, approx_interpolate fl dd dat s ho.sorted ho.cache t old h1, h2.trans (by norm_num)⟩

/-- A quantity and a correction in 1e-6 of its unit. -/
theorem corrected (hf : Faithful fl) (k : ℕ) {M E x' x N D z' z : ℝ} (hx : App M E x' x) (hz : App N D z' z) (hM : M ≤ 30000) (hN : N ≤ 2e5) (hE : E ≤ 1e-6)
    (hD : D ≤ 1e-3) : App (M + N * 1e-6) (E + 1.001e-6 * D + 4e-16 * (M + N * 1e-6) + 1e-21) (fl (x' + fl.pr k (z' * lit fl 1e-6))) (x + z * 1e-6) := by
  have hu := u_pos
  have hul := u_lt
  have hM0 : 0 ≤ M := (abs_nonneg _).trans hx.1
  have hN0 : 0 ≤ N := (abs_nonneg _).trans hz.1
  have hE0 : 0 ≤ E := (abs_nonneg _).trans hx.2
  have hD0 : 0 ≤ D := (abs_nonneg _).trans hz.2
  have l : App 1e-6 1.2e-22 (lit fl 1e-6) 1e-6 := (App.lit hf 1e-6 (M := 1e-6) (by rw [abs_of_pos (by norm_num)])).mono le_rfl (by linarith)
  have p := ((hz.mul l).pr hf k).mono (M' := N * 1e-6) (e' := 1.0001e-6 * D + 2.5e-22 * N) le_rfl (by nlinarith [mul_nonneg hu.le hN0, mul_nonneg hu.le hD0])
  refine ((hx.add p).fl hf).mono le_rfl ?_
  have k1 : u * (M + N * 1e-6) ≤ 1.2e-16 * (M + N * 1e-6) := mul_le_mul_of_nonneg_right hul.le (by positivity)
  have k2 : u * E ≤ 1.2e-16 * 1e-6 := mul_le_mul hul.le hE hE0 (by norm_num)
  have k3 : u * (1.0001e-6 * D + 2.5e-22 * N) ≤ 1.2e-16 * (1.0001e-6 * D + 2.5e-22 * N) := mul_le_mul_of_nonneg_right hul.le (by positivity)
  have e : u * (M + N * 1e-6 + (E + (1.0001e-6 * D + 2.5e-22 * N))) = u * (M + N * 1e-6) + u * E + u * (1.0001e-6 * D + 2.5e-22 * N) := by ring
  nlinarith

/-- The Earth rotation angle and sidereal time for two epochs in UT1 that are close. -/
theorem era_lip (a b : ℝ) : |eraIers a - eraIers b| ≤ 6.31 * |a - b| := by
  have hp := Real.pi_pos
  have hp1 := pi_lt
  have e : eraIers a - eraIers b = 2 * Real.pi * 1.00273781191135448 * (a - b) := by unfold eraIers; ring
  rw [e, abs_mul, abs_of_pos (by positivity)]
  exact mul_le_mul_of_nonneg_right (by linarith) (abs_nonneg _)

theorem ut1_close {dat : ℝ → ℝ} (hck : ck.Accurate dat) (tt : Epoch) {x' x E : ℝ} (h : |x' - x| ≤ E) (hE : E ≤ 1e-9) :
    |eraIers (ck.ut1 tt x').daysSinceJ2000 - eraIers (ut1Days dat tt x)| ≤ 1e-13 := by
  have hu := u_pos
  have hul := u_lt
  refine (era_lip _ _).trans ?_
  have h1 := hck.ut1 tt x'
  have h2 : |ut1Days dat tt x' - ut1Days dat tt x| ≤ 1e-9 / 86400 := by
    have : ut1Days dat tt x' - ut1Days dat tt x = (x' - x) / 86400 := by unfold ut1Days; ring
    rw [this, abs_div, abs_of_pos (by norm_num : (0:ℝ) < 86400)]
    exact div_le_div_of_nonneg_right (h.trans hE) (by norm_num)
  have h3 := abs_sub_le (ck.ut1 tt x').daysSinceJ2000 (ut1Days dat tt x') (ut1Days dat tt x)
  norm_num at h2 ⊢
  linarith

theorem fargs_eq (t : ℝ) : (fun i : Fin 5 => (RoundedCip.fargs14 fl s2r t).getD i 0) = Rounded.fundarg fl s2r t := by
  funext i; fin_cases i <;> rfl

/-- The two corrections with sidereal time, as they are added. -/
theorem tides_near (hf : Faithful fl) (hT : Trig fsin fcos) (hs : SecToRad s2r) (tt ut1 : Epoch) {f tu t f' tu' t' : ℝ} (hut : Sees ut1 f tu t)
    (htt : Sees tt f' tu' t') (hr : |ut1.daysSinceJ2000| ≤ 36525) (hr' : |tt.jcenturies| ≤ 1) {D : ℝ} (hD : |eraIers ut1.daysSinceJ2000 - eraIers D| ≤ 1e-13) :
    let l := RoundedEopTides.deopLibration fl fsin fcos (Rounded.fundarg fl s2r t') (Rounded.gmst fl s2r t' f tu)
    let o := RoundedEopTides.deopOceanTide fl fsin fcos (Rounded.fundarg fl s2r t') (Rounded.gmst fl s2r t' f tu)
    let L := EopTides.deopLibration (delaunay tt.jcenturies) (eraIers D + sec2rad (gmstPoly tt.jcenturies))
    let O := EopTides.deopOceanTide (delaunay tt.jcenturies) (eraIers D + sec2rad (gmstPoly tt.jcenturies))
    (App 61.7 1.4e-8 l.dxp L.dxp ∧ App 61.7 1.4e-8 l.dyp L.dyp ∧ App 5.49 2.1e-9 l.dut1 L.dut1 ∧ App 66.8 2.3e-8 l.dlod L.dlod) ∧
    (App 1490.2 4.2e-7 o.dxp O.dxp ∧ App 1230.6 3.4e-7 o.dyp O.dyp ∧ App 144.33 3.9e-8 o.dut1 O.dut1 ∧ App 1153.5 3.3e-7 o.dlod O.dlod) := by
  intro l o L O
  obtain ⟨a1, a2, a3, a4⟩ := RoundedEopTides.libration_rounded hf hT hs tt ut1 hut htt hr hr'
  obtain ⟨b1, b2, b3, b4⟩ := RoundedEopTides.ocean_rounded hf hT hs tt ut1 hut htt hr hr'
  have hg : |eraIers ut1.daysSinceJ2000 + sec2rad (gmstPoly tt.jcenturies) - (eraIers D + sec2rad (gmstPoly tt.jcenturies))| ≤ 1e-13 := by
    rwa [show eraIers ut1.daysSinceJ2000 + sec2rad (gmstPoly tt.jcenturies) - (eraIers D + sec2rad (gmstPoly tt.jcenturies)) =
      eraIers ut1.daysSinceJ2000 - eraIers D by ring]
  have cl := libration_bounded (delaunay tt.jcenturies) (eraIers ut1.daysSinceJ2000 + sec2rad (gmstPoly tt.jcenturies)) (eraIers D + sec2rad (gmstPoly tt.jcenturies))
  have co := ocean_bounded (delaunay tt.jcenturies) (eraIers ut1.daysSinceJ2000 + sec2rad (gmstPoly tt.jcenturies)) (eraIers D + sec2rad (gmstPoly tt.jcenturies))
  have key : ∀ {a z' z Z E M : ℝ}, |z' - Z| ≤ E → |z| ≤ M → |Z - z| ≤ 4 * M * a → a ≤ 1e-13 → App M (E + 4 * M * 1e-13) z' z := by
    intro a z' z Z E M h1 h2 h3 h4
    have hM : 0 ≤ M := (abs_nonneg _).trans h2
    refine ⟨h2, (abs_sub_le z' Z z).trans (add_le_add h1 (h3.trans ?_))⟩
    exact mul_le_mul_of_nonneg_left h4 (by positivity)
  exact ⟨⟨(key a1 cl.xp cl.xp' hg).mono le_rfl (by norm_num), (key a2 cl.yp cl.yp' hg).mono le_rfl (by norm_num),
      (key a3 cl.ut1 cl.ut1' hg).mono le_rfl (by norm_num), (key a4 cl.lod cl.lod' hg).mono le_rfl (by norm_num)⟩,
    ⟨(key b1 co.xp co.xp' hg).mono le_rfl (by norm_num), (key b2 co.yp co.yp' hg).mono le_rfl (by norm_num),
      (key b3 co.ut1 co.ut1' hg).mono le_rfl (by norm_num), (key b4 co.lod co.lod' hg).mono le_rfl (by norm_num)⟩⟩

/-- A UT1 epoch within the century. -/
theorem ut1_range {dat : ℝ → ℝ} (hck : ck.Accurate dat) (tt : Epoch) (hr : |tt.jcenturies| ≤ 0.999) (hdat : |dat ((tt.mjd : ℝ) + tt.f)| ≤ 100) {x : ℝ}
    (hx : |x| ≤ 30000) : |(ck.ut1 tt x).daysSinceJ2000| ≤ 36525 := by
  have hu := u_pos
  have hul := u_lt
  have h1 := hck.ut1 tt x
  have h2 : tt.jcenturies = tt.daysSinceJ2000 / 36525 := rfl
  rw [h2, abs_div, abs_of_pos (by norm_num : (0:ℝ) < 36525), div_le_iff₀ (by norm_num)] at hr
  unfold ut1Days at h1
  have h3 := abs_le.mp h1
  have h4 := abs_le.mp hr
  have h5 := abs_le.mp hdat
  have h6 := abs_le.mp hx
  rw [abs_le]
  constructor <;> linarith

/-- C121: for an epoch inside a daily series the record that the programs form, interpolated and with libration, ocean tides and zonal tides added, all in
double precision, is that of exact arithmetic with the arguments of the Conventions: pole coordinates and corrections to 6e-12 arcseconds, UT1-UTC to
5.8e-10 s, length of day to 6e-12 s. -/
theorem record_rounded (hf : Faithful fl) (hT : Trig fsin fcos) (hs : SecToRad s2r) (hdd : DayDifference dd) (dat : ℝ → ℝ) (hck : ck.Accurate dat) {s : Series ℝ}
    {t0 : ℝ} (ho : Observed s t0) (tt : Epoch) (hr : |tt.jcenturies| ≤ 0.999) (hdat : |dat ((tt.mjd : ℝ) + tt.f)| ≤ 100) (old : Rec ℝ) {st st' : Status}
    {r : Rec ℝ} {d : ℝ} {s1 s2 : Series ℝ} (h : s.interpolate dat ((tt.mjd : ℝ) + tt.f) old 5 = .ok (st, r, s1)) (hin : st ≠ .prior ∧ st ≠ .later)
    (hd : s1.approxDut1 dat ((tt.mjd : ℝ) + tt.f) = .ok (st', d, s2)) :
    ∃ e, oriented fl fsin fcos s2r dd ck dat s tt old = .ok (s2, e, true) ∧ |e.xp - (reference dat tt d r).xp| ≤ 6e-12 ∧
      |e.yp - (reference dat tt d r).yp| ≤ 6e-12 ∧ |e.dX - (reference dat tt d r).dX| ≤ 6e-12 ∧ |e.dY - (reference dat tt d r).dY| ≤ 6e-12 ∧
      |e.dut - (reference dat tt d r).dut| ≤ 5.8e-10 ∧ |e.lod - (reference dat tt d r).lod| ≤ 6e-12 := by
  have hm := ho.modest hdat h hin
  have hmd := ho.modest_dut1 (by norm_num) (by norm_num) hdat h hin hd
  obtain ⟨r', h1, -, x1, y1, l1, X1, Y1, u1⟩ := RoundedEop.daily_rounded hf hdd dat s ho.cache ho.daily _ old 5 h (B := 1) (by norm_num) ho.pole ho.ut1 hdat
  obtain ⟨d', h2, hd'⟩ := approx_dut1_rounded (fl := fl) (dd := dd) hf hdd dat (ho.next h) _ hdat hd
  have hr1 : |tt.jcenturies| ≤ 1 := hr.trans (by norm_num)
  have bd' : |d'| ≤ 30000 := by
    have := abs_sub_abs_le_abs_sub d' d
    linarith
  have hera := ut1_close hck tt hd' (by norm_num)
  obtain ⟨⟨lx, ly, lu, ll⟩, ⟨ox, oy, ou, ol⟩⟩ := tides_near hf hT hs tt (ck.ut1 tt d') (hck.sees _) (hck.sees tt) (ut1_range hck tt hr hdat bd') hr1 hera
  obtain ⟨z1, z2, -⟩ := RoundedEopTides.zonal_rounded hf hT hs (hck.sees tt).cents hr1
  obtain ⟨w1, w2⟩ := RoundedEopTides.zonal_size (delaunay tt.jcenturies)
  have zu : App 172574 2.2e-6 (RoundedEopTides.deopZonalTide fl fsin fcos (Rounded.fundarg fl s2r (ck.cents tt))).dut1
    (EopTides.deopZonalTide (delaunay tt.jcenturies)).dut1 := ⟨w1, z1⟩
  have zl : App 1427 5e-8 (RoundedEopTides.deopZonalTide fl fsin fcos (Rounded.fundarg fl s2r (ck.cents tt))).dlod
    (EopTides.deopZonalTide (delaunay tt.jcenturies)).dlod := ⟨w2, z2⟩
  have ax := corrected hf 0 (corrected hf 0 (show App 292 (5.2e-12 * 1) r'.xp r.xp from ⟨hm.xp, x1⟩) lx (by norm_num) (by norm_num) (by norm_num) (by norm_num))
    ox (by norm_num) (by norm_num) (by norm_num) (by norm_num)
  have ay := corrected hf 1 (corrected hf 1 (show App 292 (5.2e-12 * 1) r'.yp r.yp from ⟨hm.yp, y1⟩) ly (by norm_num) (by norm_num) (by norm_num) (by norm_num))
    oy (by norm_num) (by norm_num) (by norm_num) (by norm_num)
  have au := corrected hf 0 (corrected hf 2 (corrected hf 2 (show App 29300 (5.4e-12 * 100) r'.dut r.dut from ⟨hm.dut, u1⟩) lu (by norm_num) (by norm_num)
    (by norm_num) (by norm_num)) ou (by norm_num) (by norm_num) (by norm_num) (by norm_num)) zu (by norm_num) (by norm_num) (by norm_num) (by norm_num)
  have al := corrected hf 1 (corrected hf 3 (corrected hf 3 (show App 292 (5.2e-12 * 1) r'.lod r.lod from ⟨hm.lod, l1⟩) ll (by norm_num) (by norm_num)
    (by norm_num) (by norm_num)) ol (by norm_num) (by norm_num) (by norm_num) (by norm_num)) zl (by norm_num) (by norm_num) (by norm_num) (by norm_num)
  have eq : oriented fl fsin fcos s2r dd ck dat s tt old = .ok (s2, addZonal fl (addDaily fl (addDaily fl r'
      (RoundedEopTides.deopLibration fl fsin fcos (Rounded.fundarg fl s2r (ck.cents tt))
        (Rounded.gmst fl s2r (ck.cents tt) (ck.frac (ck.ut1 tt d')) (ck.days (ck.ut1 tt d')))))
      (RoundedEopTides.deopOceanTide fl fsin fcos (Rounded.fundarg fl s2r (ck.cents tt))
        (Rounded.gmst fl s2r (ck.cents tt) (ck.frac (ck.ut1 tt d')) (ck.days (ck.ut1 tt d')))))
      (RoundedEopTides.deopZonalTide fl fsin fcos (Rounded.fundarg fl s2r (ck.cents tt))), true) := by
    unfold oriented
    rw [h1]
    simp only [Res.bind]
    rw [if_neg (by simpa using hin), h2]
    simp only [fargs_eq]
  refine ⟨_, eq, ?_, ?_, X1.trans (by norm_num), Y1.trans (by norm_num), ?_, ?_⟩
  · refine le_trans (le_of_eq ?_) (ax.2.trans (by norm_num))
    congr 1
    simp only [reference, addZonal, addDaily]
    ring
  · refine le_trans (le_of_eq ?_) (ay.2.trans (by norm_num))
    congr 1
    simp only [reference, addZonal, addDaily]
    ring
  · refine le_trans (le_of_eq ?_) (au.2.trans (by norm_num))
    congr 1
    simp only [reference, addZonal, addDaily]
    ring
  · refine le_trans (le_of_eq ?_) (al.2.trans (by norm_num))
    congr 1
    simp only [reference, addZonal, addDaily]
    ring

theorem arcsec_lip {x' x E : ℝ} (h : |x' - x| ≤ E) : |EarthRot.arcsec x' - EarthRot.arcsec x| ≤ 4.85e-6 * E := by
  have hp := Real.pi_pos
  have hp1 := pi_lt
  have e : EarthRot.arcsec x' - EarthRot.arcsec x = (2 * Real.pi / 1296000) * (x' - x) := by unfold EarthRot.arcsec; ring
  rw [e, abs_mul, abs_of_pos (by positivity)]
  exact mul_le_mul (by rw [div_le_iff₀ (by norm_num)]; linarith) h (abs_nonneg _) (by norm_num)

/-- The variations are small. -/
theorem reference_size (dat : ℝ → ℝ) (tt : Epoch) (d : ℝ) {r : Rec ℝ} (hm : Modest r) :
    |(reference dat tt d r).xp| ≤ 293 ∧ |(reference dat tt d r).yp| ≤ 293 ∧ |(reference dat tt d r).dut| ≤ 29301 := by
  have l := libration_bounded (delaunay tt.jcenturies) (eraIers (ut1Days dat tt d) + sec2rad (gmstPoly tt.jcenturies))
    (eraIers (ut1Days dat tt d) + sec2rad (gmstPoly tt.jcenturies))
  have o := ocean_bounded (delaunay tt.jcenturies) (eraIers (ut1Days dat tt d) + sec2rad (gmstPoly tt.jcenturies))
    (eraIers (ut1Days dat tt d) + sec2rad (gmstPoly tt.jcenturies))
  obtain ⟨w1, -⟩ := RoundedEopTides.zonal_size (delaunay tt.jcenturies)
  have a1 := abs_le.mp l.xp
  have a2 := abs_le.mp l.yp
  have a3 := abs_le.mp l.ut1
  have b1 := abs_le.mp o.xp
  have b2 := abs_le.mp o.yp
  have b3 := abs_le.mp o.ut1
  have c3 := abs_le.mp w1
  have d1 := abs_le.mp hm.xp
  have d2 := abs_le.mp hm.yp
  have d3 := abs_le.mp hm.dut
  simp only [reference]
  refine ⟨abs_le.mpr ⟨?_, ?_⟩, abs_le.mpr ⟨?_, ?_⟩, abs_le.mpr ⟨?_, ?_⟩⟩ <;> linarith

open Verif.EarthRot (poleX poleY locator tioLocator arcsec) in
/-- C121: for an epoch inside a daily series of Earth orientation parameters the rotation from GCRS to ITRS that a program computes in double precision, from
the series on (interpolation, libration, ocean and zonal tides, CIP, Earth rotation angle, locators), is the inverse of Q R W of the Conventions for the
record of exact arithmetic, up to 3.6e-12 in every entry of its matrix. -/
theorem orientation_rounded (hf : Faithful fl) (hT : Trig fsin fcos) (hI : InverseTrig fatan fatan2) (hs : SecToRad s2r) (hq : QuatMul qmul)
    (hdd : DayDifference dd) (dat : ℝ → ℝ) (hck : ck.Accurate dat) {s : Series ℝ}
    {t0 : ℝ} (ho : Observed s t0) (tt : Epoch) (hr : |tt.jcenturies| ≤ 0.999) (hdat : |dat ((tt.mjd : ℝ) + tt.f)| ≤ 100) (old : Rec ℝ) {st st' : Status}
    {r : Rec ℝ} {d : ℝ} {s1 s2 : Series ℝ} (h : s.interpolate dat ((tt.mjd : ℝ) + tt.f) old 5 = .ok (st, r, s1)) (hin : st ≠ .prior ∧ st ≠ .later)
    (hd : s1.approxDut1 dat ((tt.mjd : ℝ) + tt.f) = .ok (st', d, s2)) :
    let R := reference dat tt d r
    ∃ q δ ε, rotation fl fsin fcos fatan s2r fatan2 qmul dd ck dat s tt old = .ok (s2, some q) ∧
      Real.sin δ * Real.cos ε = poleX tt.jcenturies + arcsec R.dX ∧ Real.sin δ * Real.sin ε = poleY tt.jcenturies + arcsec R.dY ∧
      0 ≤ δ ∧ δ ≤ Real.pi / 2 ∧
      Close 3.6e-12 q.mat (EarthRot.celestial δ ε (locator tt.jcenturies) * EarthRot.spin (eraIers (ut1Days dat tt R.dut)) *
        EarthRot.polarMotion (tioLocator tt.jcenturies) (arcsec R.xp) (arcsec R.yp)).transpose := by
  intro R
  obtain ⟨e, he, hx, hy, hX, hY, hu1, -⟩ := record_rounded hf hT hs hdd dat hck ho tt hr hdat old h hin hd
  have hm := ho.modest hdat h hin
  obtain ⟨sx, sy, su⟩ := reference_size dat tt d hm
  have hr1 : |tt.jcenturies| ≤ 1 := hr.trans (by norm_num)
  have big : ∀ {a b E M : ℝ}, |a - b| ≤ E → |b| ≤ M → |a| ≤ M + E := by
    intro a b E M h1 h2
    have := abs_sub_abs_le_abs_sub a b
    linarith
  have bx := big hx sx
  have by' := big hy sy
  have bX := big hX hm.dX
  have bY := big hY hm.dY
  have bu := big hu1 su
  have hrange := ut1_range hck tt hr hdat (x := e.dut) (by linarith)
  have hsees := hck.sees (ck.ut1 tt e.dut)
  obtain ⟨x, y, δ', ε', δ0, ε0, F⟩ := RoundedGcrs.front hf hT hI hs (hck.sees tt).cents hr1 (Orient.eopRec e) (show |e.dX| ≤ 3600 by linarith)
    (show |e.dY| ≤ 3600 by linarith) (show |e.xp| ≤ 3600 by linarith) (show |e.yp| ≤ 3600 by linarith)
  obtain ⟨x2, y2, δ, ε, δ2, ε2, G⟩ := RoundedGcrs.front hf hT hI hs (hck.sees tt).cents hr1 (Orient.eopRec R) (show |r.dX| ≤ 3600 by linarith [hm.dX])
    (show |r.dY| ≤ 3600 by linarith [hm.dY]) (show |R.xp| ≤ 3600 by linarith) (show |R.yp| ≤ 3600 by linarith)
  obtain ⟨k1, k2, -, k4, k5⟩ := EarthRot.spherical_spec G.exact
  have n := RoundedGcrs.c2i_near hf hT hq (era00_rounded hf _ hsees hrange) (anp_abs hf _) F.hs F.bs F.hsp F.bsp F.hd F.bd F.he F.be F.hxp F.hyp
  -- the pole
  have dX : |fl (x + s2r e.dX) - (poleX tt.jcenturies + arcsec R.dX)| ≤ 2.2e-15 := by
    have h1 := F.aX.2
    have h2 := arcsec_lip hX
    rw [show fl (x + s2r e.dX) - (poleX tt.jcenturies + arcsec R.dX) = (fl (x + s2r e.dX) - (poleX tt.jcenturies + arcsec e.dX)) +
      (arcsec e.dX - arcsec R.dX) by ring]
    exact (abs_add_le _ _).trans ((add_le_add h1 h2).trans (by norm_num))
  have dY : |fl (y + s2r e.dY) - (poleY tt.jcenturies + arcsec R.dY)| ≤ 2.2e-15 := by
    have h1 := F.aY.2
    have h2 := arcsec_lip hY
    rw [show fl (y + s2r e.dY) - (poleY tt.jcenturies + arcsec R.dY) = (fl (y + s2r e.dY) - (poleY tt.jcenturies + arcsec e.dY)) +
      (arcsec e.dY - arcsec R.dY) by ring]
    exact (abs_add_le _ _).trans ((add_le_add h1 h2).trans (by norm_num))
  have lip := RoundedGcrs.c2i_lip G.exact F.pole (G.aX.1.trans (by norm_num)) (G.aY.1.trans (by norm_num)) F.bX F.bY (eraIers (ck.ut1 tt e.dut).daysSinceJ2000)
    (locator tt.jcenturies) (tioLocator tt.jcenturies) (arcsec e.xp) (arcsec e.yp)
  -- the other angles
  have era := ut1_close hck tt hu1 (by norm_num)
  have ang := c2i_angles (eraIers (ck.ut1 tt e.dut).daysSinceJ2000) (eraIers (ut1Days dat tt R.dut)) (locator tt.jcenturies) (tioLocator tt.jcenturies) δ ε
    (arcsec e.xp) (arcsec R.xp) (arcsec e.yp) (arcsec R.yp)
  have n1 := n.of_norm (lip.trans (add_le_add dX dY)) (EarthRot.unit_c2i ..)
  have n2 := (n1.of_norm (ang.trans (add_le_add (add_le_add (arcsec_lip hy) (arcsec_lip hx)) era)) (EarthRot.unit_c2i ..)).mono (e' := 8.9e-13) (by norm_num)
  have hc := n2.mat (by norm_num)
  rw [RoundedGcrs.c2i_spec] at hc
  refine ⟨_, δ, ε, ?_, k1, k2, k4, k5, RoundedGcrs.close_mono hc (by norm_num)⟩
  unfold rotation
  rw [he]
  simp only [Res.bind]
  rw [if_neg (by simp)]
  unfold RoundedGcrs.c2i06a
  rw [F.cip]
  rfl

/-- C121: whenever the series has a record at or before the epoch and one after it, both interpolations of exact arithmetic succeed, so does the program, and
its rotation is that of the Conventions to 3.6e-12. -/
theorem orientation_inside (hf : Faithful fl) (hT : Trig fsin fcos) (hI : InverseTrig fatan fatan2) (hs : SecToRad s2r) (hq : QuatMul qmul)
    (hdd : DayDifference dd) (dat : ℝ → ℝ) (hck : ck.Accurate dat) {s : Series ℝ}
    {t0 : ℝ} (ho : Observed s t0) (tt : Epoch) (hr : |tt.jcenturies| ≤ 0.999) (hdat : |dat ((tt.mjd : ℝ) + tt.f)| ≤ 100) (old : Rec ℝ) (hb : Between s tt) :
    ∃ s2 q, rotation fl fsin fcos fatan s2r fatan2 qmul dd ck dat s tt old = .ok (s2, some q) ∧ s2 = { s with last := s2.last } ∧ Observed s2 t0 ∧
      Answer 3.6e-12 dat s tt old q := by
  obtain ⟨hb, ha⟩ := hb
  have hne : s.vec ≠ [] := by
    rintro hv
    obtain ⟨r, hr, -⟩ := hb
    rw [hv] at hr
    cases hr
  obtain ⟨st, r, s1, g1, g2, g3⟩ := eop_status_outside dat ho.sorted ho.cache hne ((tt.mjd : ℝ) + tt.f) old 5 (by norm_num) (by norm_num)
  have hin : st ≠ .prior ∧ st ≠ .later := by
    refine ⟨fun k => ?_, fun k => ?_⟩
    · obtain ⟨a, ha1, ha2⟩ := hb
      exact absurd (g2.mp k a ha1) (not_lt.mpr ha2)
    · obtain ⟨a, ha1, ha2⟩ := ha
      exact absurd (g3.mp k a ha1) (not_le.mpr ha2)
  have hv : s1.vec = s.vec := by obtain ⟨it, -, rfl⟩ := interpolate_series dat s _ old 5 g1; rfl
  have ho1 := ho.next g1
  obtain ⟨d, e, s2, s3, k1, -, -⟩ := approx_dut1_agrees dat ho1.sorted ho1.cache ((tt.mjd : ℝ) + tt.f) (by rw [hv]; exact hb) (by rw [hv]; exact ha) old
  obtain ⟨q, δ, ε, m1, m2, m3, m4, m5, m6⟩ := orientation_rounded hf hT hI hs hq hdd dat hck ho tt hr hdat old g1 hin k1
  obtain ⟨r1, hr1, -⟩ := approx_exact dat s1 ho1.sorted ho1.cache ((tt.mjd : ℝ) + tt.f) old k1
  have hv2 : s2 = { s with last := s2.last } := by
    obtain ⟨it, -, rfl⟩ := interpolate_series dat s1 _ old 1 hr1
    obtain ⟨it', -, rfl⟩ := interpolate_series dat s _ old 5 g1
    rfl
  exact ⟨s2, q, m1, hv2, ho1.next hr1, st, r, s1, d, s2, δ, ε, g1, k1, m2, m3, m4, m5, m6⟩

/-- C121: outside the series there is no rotation, and the series is as exact arithmetic leaves it. -/
theorem orientation_outside (hf : Faithful fl) (hdd : DayDifference dd) (dat : ℝ → ℝ) {s : Series ℝ} {t0 : ℝ} (ho : Observed s t0) (tt : Epoch)
    (hdat : |dat ((tt.mjd : ℝ) + tt.f)| ≤ 100) (old : Rec ℝ) {st : Status} {r : Rec ℝ} {s1 : Series ℝ}
    (h : s.interpolate dat ((tt.mjd : ℝ) + tt.f) old 5 = .ok (st, r, s1)) (hin : st = .prior ∨ st = .later) :
    rotation fl fsin fcos fatan s2r fatan2 qmul dd ck dat s tt old = .ok (s1, none) := by
  obtain ⟨r', h1, -⟩ := RoundedEop.daily_rounded hf hdd dat s ho.cache ho.daily _ old 5 h (B := 1) (by norm_num) ho.pole ho.ut1 hdat
  unfold rotation oriented
  rw [h1]
  simp only [Res.bind]
  rw [if_pos hin]
  rfl

/-- The answer of an interpolation does not depend on the position of the last query. -/
theorem interpolate_cache (dat : ℝ → ℝ) {s s' : Series ℝ} {t0 : ℝ} (ho : Observed s t0) (ho' : Observed s' t0) (hv : s' = { s with last := s'.last }) (t : ℝ)
    (old : Rec ℝ) (degree : Int) : s'.interpolate dat t old degree = s.interpolate dat t old degree := by
  obtain ⟨l, hl, hle⟩ := ho.cache
  obtain ⟨l', hl', hle'⟩ := ho'.cache
  have hvec : s'.vec = s.vec := by rw [hv]
  have hcap : s'.cap = s.cap := by rw [hv]
  unfold Series.interpolate
  rw [hunt_sorted ho.sorted hl hle, hunt_sorted ho'.sorted hl' hle', hvec, hcap]

theorem Answer.cache {ε : ℝ} {dat : ℝ → ℝ} {s s' : Series ℝ} {t0 : ℝ} (ho : Observed s t0) (ho' : Observed s' t0) (hv : s' = { s with last := s'.last })
    {tt : Epoch} {old : Rec ℝ} {q : Quat} (h : Answer ε dat s' tt old q) : Answer ε dat s tt old q := by
  obtain ⟨st, r, s1, d, s2, δ, α, h1, h2⟩ := h
  rw [interpolate_cache dat ho ho' hv] at h1
  exact ⟨st, r, s1, d, s2, δ, α, h1, h2⟩

open Classical in
/-- C121: the loop over any list of epochs, in any order, with one series for all of them: it gives a rotation for every epoch before the first that is out of
bounds, each of them that of the Conventions to 3.6e-12 for the series as it was at the start, whatever was asked before. -/
theorem orientation_history (hf : Faithful fl) (hT : Trig fsin fcos) (hI : InverseTrig fatan fatan2) (hs : SecToRad s2r) (hq : QuatMul qmul)
    (hdd : DayDifference dd) (dat : ℝ → ℝ) (hdat : ∀ t, |dat t| ≤ 100) (hck : ck.Accurate dat) {s : Series ℝ} {t0 : ℝ} (ho : Observed s t0) (hne : s.vec ≠ [])
    (queries : List (Epoch × Rec ℝ)) (hr : ∀ x ∈ queries, |x.1.jcenturies| ≤ 0.999) :
    ∃ s' qs b, rotations fl fsin fcos fatan s2r fatan2 qmul dd ck dat s queries = .ok (s', qs, b) ∧ s' = { s with last := s'.last } ∧
      List.Forall₂ (fun x q => Answer 3.6e-12 dat s x.1 x.2 q) (queries.takeWhile fun x => Between s x.1) qs ∧
      (b = true ↔ ∀ x ∈ queries, Between s x.1) := by
  have key : ∀ (queries : List (Epoch × Rec ℝ)) (s1 : Series ℝ), (∀ x ∈ queries, |x.1.jcenturies| ≤ 0.999) → Observed s1 t0 → s1 = { s with last := s1.last } →
      ∃ s' qs b, rotations fl fsin fcos fatan s2r fatan2 qmul dd ck dat s1 queries = .ok (s', qs, b) ∧ s' = { s with last := s'.last } ∧
      List.Forall₂ (fun x q => Answer 3.6e-12 dat s x.1 x.2 q) (queries.takeWhile fun x => Between s x.1) qs ∧
      (b = true ↔ ∀ x ∈ queries, Between s x.1) := by
    intro queries
    induction queries with
    | nil => intro s1 _ _ hv; exact ⟨s1, [], true, rfl, hv, .nil, by simp⟩
    | cons x rest ih =>
      intro s1 hr ho1 hv
      obtain ⟨tt, old⟩ := x
      have hvec : s1.vec = s.vec := by rw [hv]
      by_cases hb : Between s tt
      · have hb1 : Between s1 tt := by unfold Between; rw [hvec]; exact hb
        obtain ⟨s2, q, h1, h2, h3, h4⟩ := orientation_inside hf hT hI hs hq hdd dat hck ho1 tt (hr _ List.mem_cons_self) (hdat _) old hb1
        obtain ⟨s', qs, b, g1, g2, g3, g4⟩ := ih s2 (fun y hy => hr y (List.mem_cons_of_mem _ hy)) h3 (by rw [h2, hv])
        refine ⟨s', q :: qs, b, ?_, g2, ?_, ?_⟩
        · unfold rotations
          rw [h1]
          simp only [Res.bind]
          rw [g1]
        · rw [List.takeWhile_cons_of_pos (by simpa using hb)]
          exact .cons (h4.cache ho ho1 hv) g3
        · simp [g4, hb]
      · have hn : s1.vec ≠ [] := by rw [hvec]; exact hne
        obtain ⟨st, e, s2, g1, g2, g3⟩ := eop_status_outside dat ho1.sorted ho1.cache hn ((tt.mjd : ℝ) + tt.f) old 5 (by norm_num) (by norm_num)
        have hout : st = .prior ∨ st = .later := by
          by_contra hc
          push Not at hc
          have := ho1.between (by norm_num) (by norm_num) g1 hc
          rw [hvec] at this
          exact hb this
        have h1 := orientation_outside (fsin := fsin) (fcos := fcos) (fatan := fatan) (s2r := s2r) (fatan2 := fatan2) (qmul := qmul) (ck := ck) hf hdd dat ho1 tt
          (hdat _) old g1 hout
        refine ⟨s2, [], false, ?_, ?_, ?_, ?_⟩
        · unfold rotations
          rw [h1]
          rfl
        · obtain ⟨it, -, rfl⟩ := interpolate_series dat s1 _ old 5 g1; rw [hv]
        · rw [List.takeWhile_cons_of_neg (by simpa using hb)]
          exact .nil
        · simp [hb]
  exact key queries s hr ho rfl

end

/-- Exact epochs. -/
noncomputable def exactClock (dat : ℝ → ℝ) : Clock := ⟨fun e => e.f, Epoch.daysSinceJ2000, Epoch.jcenturies, Orient.tt2ut1 dat⟩

theorem exactClock_ok (dat : ℝ → ℝ) : (exactClock dat).Accurate dat := by
  have hu := u_pos
  refine ⟨fun e => ⟨?_, ?_, ?_⟩, fun tt x => ?_⟩
  · simp [exactClock, hu.le]
  · simp only [exactClock, sub_self, abs_zero]; positivity
  · simp [exactClock, hu.le]
  · have : (Orient.tt2ut1 dat tt x).daysSinceJ2000 = ut1Days dat tt x := by
      unfold Orient.tt2ut1 Epoch.daysSinceJ2000 ut1Days
      simp only
      rw [Int.floor_add_fract]
      unfold Epoch.daysSinceJ2000
      ring
    show |(Orient.tt2ut1 dat tt x).daysSinceJ2000 - _| ≤ _
    rw [this, sub_self, abs_zero]
    positivity

/-- Two daily records. -/
noncomputable def twoDays : Series ℝ := ⟨[RoundedEop.sample 56084, RoundedEop.sample 56085], 2, some 2⟩

theorem twoDays_ok : Observed twoDays 56084 := by
  refine ⟨⟨2, rfl, by simp [twoDays]⟩, ?_, ?_, ?_⟩
  · intro i hi
    have hi' : i < 2 := hi
    have : i = 0 ∨ i = 1 := by omega
    rcases this with rfl | rfl <;> norm_num [twoDays, RoundedEop.sample]
  · intro r hr
    simp only [twoDays, List.mem_cons, List.not_mem_nil, or_false] at hr
    rcases hr with rfl | rfl <;> norm_num [RoundedEop.sample, abs_le]
  · intro r hr
    simp only [twoDays, List.mem_cons, List.not_mem_nil, or_false] at hr
    rcases hr with rfl | rfl <;> norm_num [RoundedEop.sample, abs_le]

noncomputable def noon : Epoch := ⟨56084, 0.5, by norm_num, by norm_num⟩

noncomputable def midnight : Epoch := ⟨56085, 0, by norm_num, by norm_num⟩

open Classical in
/-- The hypotheses can be met: rounding to nearest, whichever products are fused; a query at noon between two daily records, one at the last of them, which is out
of bounds, and one more. -/
example (b : ℕ → Bool) : ∃ s' q, rotations (rnArith b) Real.sin Real.cos Real.arctan (fun x => x * (2 * Real.pi / 1296000)) (fun y x => Complex.arg ⟨x, y⟩)
      (RoundedGcrs.product (rnArith b)) (fun x y => rnArith b (x - y)) (exactClock fun _ => 37) (fun _ => 37) twoDays
      [(noon, RoundedEop.sample 0), (midnight, RoundedEop.sample 0), (noon, RoundedEop.sample 0)] = .ok (s', [q], false) ∧
    Answer 3.6e-12 (fun _ => 37) twoDays noon (RoundedEop.sample 0) q := by
  have hu := u_pos
  have hj : noon.jcenturies = 4540 / 36525 := by
    show (((56084 : ℤ) : ℝ) + 0.5 - 51544.5) / 36525 = _; norm_num
  have hj' : midnight.jcenturies = 4540.5 / 36525 := by
    show (((56085 : ℤ) : ℝ) + 0 - 51544.5) / 36525 = _; norm_num
  have ht : ((noon.mjd : ℤ) : ℝ) + noon.f = 56084.5 := by show ((56084 : ℤ) : ℝ) + 0.5 = _; norm_num
  have ht' : ((midnight.mjd : ℤ) : ℝ) + midnight.f = 56085 := by show ((56085 : ℤ) : ℝ) + 0 = _; norm_num
  have b1 : Between twoDays noon := by
    unfold Between
    rw [ht]
    exact ⟨⟨RoundedEop.sample 56084, by simp [twoDays], by norm_num [RoundedEop.sample]⟩, ⟨RoundedEop.sample 56085, by simp [twoDays], by norm_num [RoundedEop.sample]⟩⟩
  have b2 : ¬ Between twoDays midnight := by
    rintro ⟨-, r, hr, h⟩
    rw [ht'] at h
    simp only [twoDays, List.mem_cons, List.not_mem_nil, or_false] at hr
    rcases hr with rfl | rfl <;> norm_num [RoundedEop.sample] at h
  obtain ⟨s', qs, c, h1, -, h2, h3⟩ := orientation_history (rn_faithful b)
    (show Trig Real.sin Real.cos from ⟨fun x => by simp [hu.le], fun x => by simp [hu.le]⟩) (show InverseTrig Real.arctan _ from RoundedGcrs.inverse_exact)
    s2r_exact (RoundedGcrs.product_ok (rn_faithful b)) (RoundedEop.rounded_difference (rn_faithful b)) (fun _ => 37) (fun _ => by norm_num) (exactClock_ok _)
    twoDays_ok (by simp [twoDays]) [(noon, RoundedEop.sample 0), (midnight, RoundedEop.sample 0), (noon, RoundedEop.sample 0)] (by
      intro x hx
      simp only [List.mem_cons, List.not_mem_nil, or_false] at hx
      rcases hx with rfl | rfl | rfl <;> simp only [hj, hj'] <;> norm_num [abs_of_pos])
  have e : ([(noon, RoundedEop.sample 0), (midnight, RoundedEop.sample 0), (noon, RoundedEop.sample 0)] : List (Epoch × Rec ℝ)).takeWhile
      (fun x => decide (Between twoDays x.1)) = [(noon, RoundedEop.sample 0)] := by
    simp [b1, b2]
  rw [e] at h2
  have hc : c = false := by
    cases c with
    | false => rfl
    | true => exact absurd (h3.mp rfl (midnight, RoundedEop.sample 0) (by simp)) b2
  subst hc
  cases h2 with
  | cons ha hb =>
    cases hb
    exact ⟨s', _, h1, ha⟩

end Verif.RoundedOrient
