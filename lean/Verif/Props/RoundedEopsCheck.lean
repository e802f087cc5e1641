import Verif.Props.RoundedCheck
import Verif.Spec.RoundedEopsCheck
/-
C125: Earth orientation at the epochs of a table, and the check of that table, in double precision.
-/
namespace Verif.RoundedEops
open Verif Verif.Eop Verif.EopTides Verif.Rounding Verif.Rounded Verif.Fundarg Verif.Iau
open Verif.RoundedOrient (Clock Observed Modest Between reference ut1Days oriented delaunay noon midnight twoDays exactClock)
open Verif.RoundedEop (DayDifference)
open Verif.RoundedOptions (Read smooth mapped plain record_raw between_mapped regularize_mapped takeWhile_all)
open Verif.EarthRot (poleX poleY locator tioLocator arcsec EopRec earthRate)

/-- The record that is written to leaves only its ΔAT behind. -/
theorem interpolate_old (dat : ℝ → ℝ) (s : Series ℝ) (t : ℝ) (old old' : Rec ℝ) (degree : Int) {st : Status} {r : Rec ℝ} {s1 : Series ℝ}
    (h : s.interpolate dat t old degree = .ok (st, r, s1)) (hin : st ≠ .prior ∧ st ≠ .later) :
    s.interpolate dat t old' degree = .ok (st, { r with dat := old'.dat }, s1) := by
  unfold Series.interpolate at h ⊢
  by_cases hd : degree > 9
  · rw [if_pos hd] at h; cases h
  rw [if_neg hd] at h ⊢
  cases hh : s.hunt t with
  | ub => rw [hh] at h; cases h
  | abort => rw [hh] at h; cases h
  | throw => rw [hh] at h; cases h
  | ok it =>
    rw [hh] at h
    simp only [Res.bind] at h ⊢
    by_cases c0 : it = 0
    · rw [if_pos c0] at h
      cases k : s.vec[0]? with
      | none => rw [k] at h; cases h
      | some a =>
        rw [k] at h
        simp only [Res.ok.injEq, Prod.mk.injEq] at h
        exact absurd h.1.symm hin.1
    rw [if_neg c0] at h ⊢
    by_cases c1 : it = s.vec.length
    · rw [if_pos c1] at h
      cases k : s.vec[it - 1]? with
      | none => rw [k] at h; cases h
      | some a =>
        rw [k] at h
        simp only [Res.ok.injEq, Prod.mk.injEq] at h
        exact absurd h.1.symm hin.2
    rw [if_neg c1] at h ⊢
    by_cases c2 : degree < 0
    · rw [if_pos c2] at h; cases h
    rw [if_neg c2] at h ⊢
    by_cases c3 : dataPoints it s.vec.length degree.toNat = 1
    · rw [if_pos c3] at h ⊢
      cases k0 : s.vec[it - 1]? with
      | none => rw [k0] at h; cases h
      | some x0 =>
        cases k1 : s.vec[it]? with
        | none => rw [k0, k1] at h; cases h
        | some x1 =>
          rw [k0, k1] at h
          simp only [Res.ok.injEq, Prod.mk.injEq] at h
          obtain ⟨rfl, rfl, rfl⟩ := h
          rfl
    rw [if_neg c3] at h ⊢
    by_cases c4 : it < dataPoints it s.vec.length degree.toNat ∨ it + dataPoints it s.vec.length degree.toNat > s.vec.length
    · rw [if_pos c4] at h; cases h
    rw [if_neg c4] at h ⊢
    simp only [Res.ok.injEq, Prod.mk.injEq] at h
    obtain ⟨rfl, rfl, rfl⟩ := h
    rfl

/-- C125: there is one Earth orientation at an epoch. -/
theorem orientation_unique {dat : ℝ → ℝ} {s : Series ℝ} {old : Rec ℝ} {tt : Epoch} {L L' : Line} (h : Orientation dat s old tt L)
    (h' : Orientation dat s old tt L') : L = L' := by
  obtain ⟨st, r, s1, d, s2, h1, h2, rfl⟩ := h
  obtain ⟨st', r', s1', d', s2', h1', h2', rfl⟩ := h'
  have q := h1.symm.trans h1'
  simp only [Res.ok.injEq, Prod.mk.injEq] at q
  obtain ⟨rfl, rfl, rfl⟩ := q
  have q := h2.symm.trans h2'
  simp only [Res.ok.injEq, Prod.mk.injEq] at q
  obtain ⟨-, rfl, rfl⟩ := q
  rfl

section
variable {fl : Arith} {fsin fcos s2r r2s cents : ℝ → ℝ} {dd : ℝ → ℝ → ℝ} {ck : Clock}

/-- C125: a line at an epoch inside the series. -/
theorem line_inside (hf : Faithful fl) (hT : Trig fsin fcos) (hs : SecToRad s2r) (hdd : DayDifference dd) (dat : ℝ → ℝ) (hck : ck.Accurate dat) {s : Series ℝ}
    {t0 : ℝ} (h : Read cents s t0) (tt : Epoch) (old old0 : Rec ℝ) (hr : |tt.jcenturies| ≤ 0.999) (hdat : |dat ((tt.mjd : ℝ) + tt.f)| ≤ 100) (hb : Between s tt) :
    ∃ l e o L, lineAt fl fsin fcos s2r dd ck dat (RoundedEopTides.regularize fl fsin fcos s2r cents s) tt old =
        .ok ({ RoundedEopTides.regularize fl fsin fcos s2r cents s with last := l }, e, some o) ∧ Read cents { s with last := l } t0 ∧
      Orientation dat (smooth s) old0 tt L ∧ CloseTo o L := by
  obtain ⟨l, e, st, r, s1, d, s2, he, ho, g1, hin, k1, hx, hy, hX, hY, hu1, hl⟩ := record_raw hf hT hs hdd dat hck h tt old hr hdat hb
  obtain ⟨hw, -⟩ := h.smooth
  have hm := hw.modest hdat g1 hin
  obtain ⟨sx, sy, su⟩ := RoundedOrient.reference_size dat tt d hm
  have big : ∀ {a b E M : ℝ}, |a - b| ≤ E → |b| ≤ M → |a| ≤ M + E := by
    intro a b E M h1 h2
    have := abs_sub_abs_le_abs_sub a b
    linarith
  have hr1 : |tt.jcenturies| ≤ 1 := hr.trans (by norm_num)
  obtain ⟨x, y, c1, c2, c3, c4, -⟩ := RoundedGcrs.cio_rounded hf hT hs (hck.sees tt).cents hr1
  obtain ⟨bx, bY⟩ := Cip.XY_bound (Cip.Spec.args tt.jcenturies) (t := tt.jcenturies) (by linarith)
  have tri : ∀ {a b c E F : ℝ}, |a - b| ≤ E → |b - c| ≤ F → |a - c| ≤ E + F := fun h1 h2 => (abs_sub_le _ _ _).trans (add_le_add h1 h2)
  have ang : ∀ {p q : ℝ}, |p - q| ≤ 7e-12 → |q| ≤ 3000 → |s2r p - arcsec q| ≤ 5e-17 := by
    intro p q h1 h2
    have a := (RoundedGcrs.arcsec_near hs ((big h1 h2).trans (by norm_num) : |p| ≤ 3600)).2
    exact (tri a (RoundedOrient.arcsec_lip h1)).trans (by norm_num)
  have cip : ∀ {p q x X : ℝ}, |p - q| ≤ 7e-12 → |q| ≤ 3000 → |x - X| ≤ 2e-15 → |X| ≤ 0.11 → |fl (x + s2r p) - (X + arcsec q)| ≤ 2.2e-15 := by
    intro p q x X h1 h2 h3 h4
    have a := RoundedGcrs.arcsec_near hs ((big h1 h2).trans (by norm_num) : |p| ≤ 3600)
    have b := (((show App 0.11 2e-15 x X from ⟨h4, h3⟩).add a).fl hf).2
    have c := RoundedOrient.arcsec_lip h1
    have e : |(X + arcsec p) - (X + arcsec q)| ≤ 4.85e-6 * 7e-12 := by rw [add_sub_add_left_eq_sub]; exact c
    refine (tri b e).trans ?_
    have := u_lt
    norm_num
    linarith
  have dX0 : (reference dat tt d r).dX = r.dX := rfl
  have dY0 : (reference dat tt d r).dY = r.dY := rfl
  rw [dX0] at hX
  rw [dY0] at hY
  refine ⟨l, e, ⟨s2r e.xp, s2r e.yp, RoundedGcrs.sp00 fl s2r (ck.cents tt), e.dut, e.lod, fl (x + s2r e.dX), fl (y + s2r e.dY),
    RoundedGcrs.s06 fl fsin fcos s2r (fun i => (RoundedCip.fargs14 fl s2r (ck.cents tt)).getD i 0) (ck.cents tt) x y⟩, _, ?_, h.moved ho.cache,
    ⟨st, _, s1, d, s2, interpolate_old dat _ _ old old0 5 g1 hin, k1, rfl⟩, ?_⟩
  · unfold lineAt
    rw [regularize_mapped, he]
    simp only [Res.bind]
    rw [if_neg (by simp), c1]
  · exact ⟨ang hx (sx.trans (by norm_num)), ang hy (sy.trans (by norm_num)), RoundedGcrs.tio_rounded hf hs (hck.sees tt).cents hr1, hu1, hl,
      cip hX (hm.dX.trans (by norm_num)) c2 bx, cip hY (hm.dY.trans (by norm_num)) c3 bY, c4⟩

/-- C125: out of bounds nothing is printed. -/
theorem line_outside (hf : Faithful fl) (hdd : DayDifference dd) (dat : ℝ → ℝ) {s : Series ℝ} {t0 : ℝ} (ho : Observed s t0) (tt : Epoch)
    (hdat : |dat ((tt.mjd : ℝ) + tt.f)| ≤ 100) (old : Rec ℝ) {st : Status} {r : Rec ℝ} {s1 : Series ℝ}
    (h : s.interpolate dat ((tt.mjd : ℝ) + tt.f) old 5 = .ok (st, r, s1)) (hin : st = .prior ∨ st = .later) :
    ∃ e, lineAt fl fsin fcos s2r dd ck dat s tt old = .ok (s1, e, none) := by
  obtain ⟨r', h1, -⟩ := RoundedEop.daily_rounded hf hdd dat s ho.cache ho.daily _ old 5 h (B := 1) (by norm_num) ho.pole ho.ut1 hdat
  refine ⟨r', ?_⟩
  unfold lineAt oriented
  rw [h1]
  simp only [Res.bind]
  rw [if_pos hin]
  rfl

end

section
variable {fl : Arith} {r2s : ℝ → ℝ} (hf : Faithful fl)
include hf

theorem lit_near {c : ℝ} (hc : 0 < c) : |lit fl c - c| ≤ u * c := by
  unfold lit
  rw [if_neg (not_lt.mpr hc.le)]
  have := hf.rel c
  rwa [abs_of_pos hc] at this

theorem time_margin {c o L : ℝ} (h : |o - L| ≤ 1.3e-9) :
    (|c - L| < 10 + (-1) * 1e-8 → |fl (c - o)| < lit fl 1e1) ∧ (|fl (c - o)| < lit fl 1e1 → |c - L| < 10 + 1 * 1e-8) := by
  have hu := u_pos
  have hul := u_lt
  have l := abs_le.mp (lit_near hf (c := 1e1) (by norm_num))
  have r := hf.rel (c - o)
  have t1 := abs_sub_le c o L
  have t2 := abs_sub_le c L o
  rw [abs_sub_comm L o] at t2
  have r1 := abs_sub_abs_le_abs_sub (fl (c - o)) (c - o)
  have r2 := abs_sub_abs_le_abs_sub (c - o) (fl (c - o))
  rw [abs_sub_comm (c - o)] at r2
  constructor
  · intro k
    have : u * |c - o| ≤ 1.2e-16 * 11 := mul_le_mul hul.le (by linarith) (abs_nonneg _) (by norm_num)
    linarith
  · intro k
    by_contra hc
    push Not at hc
    have k2 : 10 + 8e-9 ≤ |c - o| := by linarith
    have := mul_le_mul_of_nonneg_right hul.le (abs_nonneg (c - o))
    linarith

theorem angle_margin (hr2s : RadToSec r2s) {c o L : ℝ} (h : |o - L| ≤ 2.2e-15) :
    (|c - L| * (648000 / Real.pi) < 0.1 + (-1) * 1e-9 → r2s |fl (c - o)| < lit fl 1e-1) ∧
      (r2s |fl (c - o)| < lit fl 1e-1 → |c - L| * (648000 / Real.pi) < 0.1 + 1 * 1e-9) := by
  have hu := u_pos
  have hul := u_lt
  have hp := Real.pi_pos
  have hp1 := Real.pi_gt_d2
  have K0 : 0 < 648000 / Real.pi := by positivity
  have K1 : 648000 / Real.pi ≤ 2.07e5 := by rw [div_le_iff₀ hp]; linarith
  unfold RadToSec at hr2s
  generalize 648000 / Real.pi = K at K0 K1 hr2s ⊢
  have l := abs_le.mp (lit_near hf (c := 1e-1) (by norm_num))
  have r := hf.rel (c - o)
  have t1 := mul_le_mul_of_nonneg_right (abs_sub_le c o L) K0.le
  have t2 := mul_le_mul_of_nonneg_right (abs_sub_le c L o) K0.le
  rw [abs_sub_comm L o, add_mul] at t2
  rw [add_mul] at t1
  have d1 : |o - L| * K ≤ 2.2e-15 * 2.07e5 := mul_le_mul h K1 K0.le (by norm_num)
  have r1 := abs_sub_abs_le_abs_sub (fl (c - o)) (c - o)
  have r2 := abs_sub_abs_le_abs_sub (c - o) (fl (c - o))
  rw [abs_sub_comm (c - o)] at r2
  have z : |r2s |fl (c - o)| - |fl (c - o)| * K| ≤ 4 * u * (|fl (c - o)| * K) := by
    have := hr2s |fl (c - o)|
    rwa [abs_of_nonneg (mul_nonneg (abs_nonneg _) K0.le : 0 ≤ |fl (c - o)| * K)] at this
  have z' := abs_le.mp z
  have y1 : |fl (c - o)| * K ≤ |c - o| * K + u * (|c - o| * K) := by
    have := mul_le_mul_of_nonneg_right (by linarith : |fl (c - o)| ≤ |c - o| + u * |c - o|) K0.le
    linarith
  have y2 : |c - o| * K - u * (|c - o| * K) ≤ |fl (c - o)| * K := by
    have := mul_le_mul_of_nonneg_right (by linarith : |c - o| - u * |c - o| ≤ |fl (c - o)|) K0.le
    linarith
  have a0 : 0 ≤ |c - o| * K := mul_nonneg (abs_nonneg _) K0.le
  generalize |c - o| * K = A at t1 t2 y1 y2 a0
  have b0 : 0 ≤ |fl (c - o)| * K := mul_nonneg (abs_nonneg _) K0.le
  generalize hB : |fl (c - o)| * K = B at z' y1 y2 b0
  generalize |c - L| * K = C at t1 t2 ⊢
  clear z r1 r2 r hB h
  constructor
  · intro k
    have : u * A ≤ 1.2e-16 * 1 := mul_le_mul hul.le (by linarith) a0 (by norm_num)
    have : u * B ≤ 1.2e-16 * 1 := mul_le_mul hul.le (by linarith) b0 (by norm_num)
    linarith
  · intro k
    by_contra hc
    push Not at hc
    have k2 : 0.1 + 5e-10 ≤ A := by linarith
    have e1 := mul_le_mul_of_nonneg_right hul.le a0
    have e2 := mul_le_mul_of_nonneg_right hul.le b0
    linarith

/-- The assertions of a line, between the two margins. -/
theorem accepts_margin (hr2s : RadToSec r2s) {c o L : Line} (h : CloseTo o L) : (Agrees (-1) c L → accepts fl r2s c o) ∧ (accepts fl r2s c o → Agrees 1 c L) := by
  have a1 := angle_margin hf hr2s (c := c.xp) (h.xp.trans (by norm_num))
  have a2 := angle_margin hf hr2s (c := c.yp) (h.yp.trans (by norm_num))
  have a3 := angle_margin hf hr2s (c := c.sp) (h.sp.trans (by norm_num))
  have a4 := time_margin hf (c := c.dut) h.dut
  have a5 := time_margin hf (c := c.lod) (h.lod.trans (by norm_num))
  have a6 := angle_margin hf hr2s (c := c.X) h.X
  have a7 := angle_margin hf hr2s (c := c.Y) h.Y
  have a8 := angle_margin hf hr2s (c := c.s) (h.s.trans (by norm_num))
  exact ⟨fun k => ⟨a1.1 k.xp, a2.1 k.yp, a3.1 k.sp, a4.1 k.dut, a5.1 k.lod, a6.1 k.X, a7.1 k.Y, a8.1 k.s⟩,
    fun ⟨k1, k2, k3, k4, k5, k6, k7, k8⟩ => ⟨a1.2 k1, a2.2 k2, a3.2 k3, a4.2 k4, a5.2 k5, a6.2 k6, a7.2 k7, a8.2 k8⟩⟩

end

section
variable {fl : Arith} {fsin fcos s2r r2s cents : ℝ → ℝ} {dd : ℝ → ℝ → ℝ} {ck : Clock}

theorem Orientation.cache {dat : ℝ → ℝ} {s s' : Series ℝ} {t0 : ℝ} (ho : Observed s t0) (ho' : Observed s' t0) (hv : s' = { s with last := s'.last })
    {old : Rec ℝ} {tt : Epoch} {L : Line} (h : Orientation dat s' old tt L) : Orientation dat s old tt L := by
  obtain ⟨st, r, s1, d, s2, h1, h2⟩ := h
  rw [RoundedOrient.interpolate_cache dat ho ho' hv] at h1
  exact ⟨st, r, s1, d, s2, h1, h2⟩

open Classical in
/-- C125: the check of a table of Earth orientation in double precision. The epochs before the first that is out of bounds have orientations `Ls`. The lines printed
are close to the first of these. If the lines of the table agree with them to the narrowed tolerances, the program returns 0, or 1 if an epoch is out of bounds; if it
returns anything, they agree to the widened tolerances, all of them have been printed and the returned value says whether all epochs are inside; otherwise an assertion
has failed. -/
theorem eops_rows (hf : Faithful fl) (hT : Trig fsin fcos) (hs : SecToRad s2r) (hr2s : RadToSec r2s) (hdd : DayDifference dd) (dat : ℝ → ℝ)
    (hdat : ∀ t, |dat t| ≤ 100) (hck : ck.Accurate dat) {s : Series ℝ} {t0 : ℝ} (h : Read cents s t0) (hne : s.vec ≠ []) (old : Rec ℝ)
    (rows : List (Epoch × Line)) (hr : ∀ x ∈ rows, |x.1.jcenturies| ≤ 0.999) :
    ∃ Ls, List.Forall₂ (fun x L => Orientation dat (smooth s) old x.1 L) (rows.takeWhile fun x => Between s x.1) Ls ∧
      let run := program fl fsin fcos s2r r2s dd ck cents dat s old rows
      List.Forall₂ CloseTo run.1 (Ls.take run.1.length) ∧
      (List.Forall₂ (fun x L => Agrees (-1) x.2 L) (rows.takeWhile fun x => Between s x.1) Ls → run.2 = .ok (if ∀ x ∈ rows, Between s x.1 then 0 else 1)) ∧
      ((run.2 = .ok (if ∀ x ∈ rows, Between s x.1 then 0 else 1) ∧ run.1.length = Ls.length ∧
          List.Forall₂ (fun x L => Agrees 1 x.2 L) (rows.takeWhile fun x => Between s x.1) Ls) ∨ run.2 = .abort) := by
  have key : ∀ (rows : List (Epoch × Line)) (l : Option ℕ) (old' : Rec ℝ), (∀ x ∈ rows, |x.1.jcenturies| ≤ 0.999) → Read cents { s with last := l } t0 →
      ∃ Ls, List.Forall₂ (fun x L => Orientation dat (smooth s) old x.1 L) (rows.takeWhile fun x => Between s x.1) Ls ∧
      let run := program fl fsin fcos s2r r2s dd ck cents dat { s with last := l } old' rows
      List.Forall₂ CloseTo run.1 (Ls.take run.1.length) ∧
      (List.Forall₂ (fun x L => Agrees (-1) x.2 L) (rows.takeWhile fun x => Between s x.1) Ls → run.2 = .ok (if ∀ x ∈ rows, Between s x.1 then 0 else 1)) ∧
      ((run.2 = .ok (if ∀ x ∈ rows, Between s x.1 then 0 else 1) ∧ run.1.length = Ls.length ∧
          List.Forall₂ (fun x L => Agrees 1 x.2 L) (rows.takeWhile fun x => Between s x.1) Ls) ∨ run.2 = .abort) := by
    intro rows
    induction rows with
    | nil =>
      intro l old' _ _
      refine ⟨[], .nil, ?_⟩
      have : program fl fsin fcos s2r r2s dd ck cents dat { s with last := l } old' [] = ([], .ok 0) := rfl
      simp only [this]
      exact ⟨.nil, fun _ => by simp, Or.inl ⟨by simp, trivial, .nil⟩⟩
    | cons x rest ih =>
      intro l old' hr h1
      obtain ⟨tt, c⟩ := x
      have hr0 := hr _ List.mem_cons_self
      simp only at hr0
      by_cases hb : Between s tt
      · obtain ⟨m, e, o, L, k1, k2, k3, k4⟩ := line_inside (ck := ck) hf hT hs hdd dat hck h1 tt old' old hr0 (hdat _) hb
        have k3 := k3.cache h.smooth.1 h1.smooth.1 rfl
        obtain ⟨t2, t3⟩ := accepts_margin (fl := fl) (c := c) hf hr2s k4
        obtain ⟨Ls, g0, g1, g2, g3⟩ := ih m e (fun y hy => hr y (List.mem_cons_of_mem _ hy)) k2
        have step : program fl fsin fcos s2r r2s dd ck cents dat { s with last := l } old' ((tt, c) :: rest) =
            if accepts fl r2s c o then
              (o :: (program fl fsin fcos s2r r2s dd ck cents dat { s with last := m } e rest).1, (program fl fsin fcos s2r r2s dd ck cents dat { s with last := m } e rest).2)
            else ([o], .abort) := by
          unfold program
          rw [loop, k1]
          rfl
        have hall : (∀ y ∈ (tt, c) :: rest, Between s y.1) ↔ ∀ y ∈ rest, Between s y.1 := by simp [hb]
        refine ⟨L :: Ls, ?_, ?_⟩
        · rw [List.takeWhile_cons_of_pos (by simpa using hb)]
          exact .cons k3 g0
        rw [List.takeWhile_cons_of_pos (by simpa using hb)]
        simp only [hall, step]
        by_cases ha : accepts fl r2s c o
        · simp only [if_pos ha, List.length_cons, List.take_succ_cons]
          refine ⟨.cons k4 g1, fun hh => ?_, ?_⟩
          · cases hh with
            | cons _ hh => exact g2 hh
          · rcases g3 with ⟨g3, g4, g5⟩ | g3
            · exact Or.inl ⟨g3, by rw [g4], .cons (t3 ha) g5⟩
            · exact Or.inr g3
        · simp only [if_neg ha, List.length_cons, List.length_nil, List.take_succ_cons, List.take_zero]
          refine ⟨.cons k4 .nil, fun hh => ?_, Or.inr trivial⟩
          cases hh with
          | cons hh _ => exact absurd (t2 hh) ha
      · have hp := h1.plain (fl := fl) hf hT hs
        have hn : (mapped (plain fl fsin fcos s2r cents) { s with last := l }).vec ≠ [] := by simpa [mapped] using hne
        obtain ⟨st, e, s2, g1, g2, g3⟩ := eop_status_outside dat hp.sorted hp.cache hn ((tt.mjd : ℝ) + tt.f) old' 5 (by norm_num) (by norm_num)
        have hout : st = .prior ∨ st = .later := by
          by_contra hc
          push Not at hc
          exact hb ((between_mapped (g := plain fl fsin fcos s2r cents) (fun _ => rfl) { s with last := l } tt).mp
            (hp.between (by norm_num) (by norm_num) g1 hc))
        obtain ⟨e', k1⟩ := line_outside (fsin := fsin) (fcos := fcos) (s2r := s2r) (ck := ck) hf hdd dat hp tt (hdat _) old' g1 hout
        have step : program fl fsin fcos s2r r2s dd ck cents dat { s with last := l } old' ((tt, c) :: rest) = ([], .ok 1) := by
          unfold program
          rw [loop, regularize_mapped, k1]
        have hall : ¬ ∀ y ∈ (tt, c) :: rest, Between s y.1 := fun h => hb (h (tt, c) List.mem_cons_self)
        rw [List.takeWhile_cons_of_neg (by simpa using hb)]
        refine ⟨[], .nil, ?_⟩
        simp only [step, if_neg hall]
        exact ⟨.nil, fun _ => trivial, Or.inl ⟨trivial, trivial, .nil⟩⟩
  exact key rows s.last old hr h

/-- C125: a table whose every line agrees with the Earth orientation to the narrowed tolerances is accepted, and a line is printed for every epoch. -/
theorem eops_accepts (hf : Faithful fl) (hT : Trig fsin fcos) (hs : SecToRad s2r) (hr2s : RadToSec r2s) (hdd : DayDifference dd) (dat : ℝ → ℝ)
    (hdat : ∀ t, |dat t| ≤ 100) (hck : ck.Accurate dat) {s : Series ℝ} {t0 : ℝ} (h : Read cents s t0) (hne : s.vec ≠ []) (old : Rec ℝ)
    (rows : List (Epoch × Line)) (hr : ∀ x ∈ rows, |x.1.jcenturies| ≤ 0.999) (hb : ∀ x ∈ rows, Between s x.1)
    (ha : ∀ x ∈ rows, ∀ L, Orientation dat (smooth s) old x.1 L → Agrees (-1) x.2 L) :
    ∃ os, program fl fsin fcos s2r r2s dd ck cents dat s old rows = (os, .ok 0) ∧
      List.Forall₂ (fun x o => ∃ L, Orientation dat (smooth s) old x.1 L ∧ CloseTo o L) rows os := by
  classical
  obtain ⟨Ls, g0, g1, g2, g3⟩ := eops_rows (ck := ck) hf hT hs hr2s hdd dat hdat hck h hne old rows hr
  rw [takeWhile_all fun x hx => by simpa using hb x hx] at g0 g2 g3
  have all : ∀ {rows : List (Epoch × Line)} {Ls : List Line}, List.Forall₂ (fun x L => Orientation dat (smooth s) old x.1 L) rows Ls →
      (∀ x ∈ rows, ∀ L, Orientation dat (smooth s) old x.1 L → Agrees (-1) x.2 L) → List.Forall₂ (fun x L => Agrees (-1) x.2 L) rows Ls := by
    intro rows Ls k
    induction k with
    | nil => intro _; exact .nil
    | cons k _ ih => intro q; exact .cons (q _ List.mem_cons_self _ k) (ih fun x hx => q x (List.mem_cons_of_mem _ hx))
  have k := g2 (all g0 ha)
  rw [if_pos hb] at k
  have len : (program fl fsin fcos s2r r2s dd ck cents dat s old rows).1.length = Ls.length := by
    rcases g3 with g3 | g3
    · exact g3.2.1
    · rw [g3] at k; cases k
  rw [len, List.take_length] at g1
  have join : ∀ {rows : List (Epoch × Line)} {Ls : List Line}, List.Forall₂ (fun x L => Orientation dat (smooth s) old x.1 L) rows Ls → ∀ {os : List Line},
      List.Forall₂ CloseTo os Ls → List.Forall₂ (fun x o => ∃ L, Orientation dat (smooth s) old x.1 L ∧ CloseTo o L) rows os := by
    intro rows Ls k
    induction k with
    | nil => intro os q; cases q; exact .nil
    | cons k _ ih =>
      intro os q
      cases q with
      | cons q qs => exact .cons ⟨_, k, q⟩ (ih qs)
  exact ⟨_, Prod.ext rfl k, join g0 g1⟩

/-- C125: a table with a line that is further from the Earth orientation than the widened tolerances is rejected. -/
theorem eops_rejects (hf : Faithful fl) (hT : Trig fsin fcos) (hs : SecToRad s2r) (hr2s : RadToSec r2s) (hdd : DayDifference dd) (dat : ℝ → ℝ)
    (hdat : ∀ t, |dat t| ≤ 100) (hck : ck.Accurate dat) {s : Series ℝ} {t0 : ℝ} (h : Read cents s t0) (hne : s.vec ≠ []) (old : Rec ℝ)
    (rows : List (Epoch × Line)) (hr : ∀ x ∈ rows, |x.1.jcenturies| ≤ 0.999) (hb : ∀ x ∈ rows, Between s x.1) {x : Epoch × Line} (hx : x ∈ rows) {L : Line}
    (hL : Orientation dat (smooth s) old x.1 L) (ha : ¬ Agrees 1 x.2 L) : (program fl fsin fcos s2r r2s dd ck cents dat s old rows).2 = .abort := by
  classical
  obtain ⟨Ls, g0, -, -, g3⟩ := eops_rows (ck := ck) hf hT hs hr2s hdd dat hdat hck h hne old rows hr
  rw [takeWhile_all fun x hx => by simpa using hb x hx] at g0 g3
  rcases g3 with ⟨-, -, g3⟩ | g3
  · exfalso
    have all : ∀ {rows : List (Epoch × Line)} {Ls : List Line}, List.Forall₂ (fun x L => Orientation dat (smooth s) old x.1 L) rows Ls →
        List.Forall₂ (fun x L => Agrees 1 x.2 L) rows Ls → ∀ x ∈ rows, ∃ L, Orientation dat (smooth s) old x.1 L ∧ Agrees 1 x.2 L := by
      intro rows Ls k
      induction k with
      | nil => intro _ x hx; cases hx
      | cons k _ ih =>
        intro q x hx
        cases q with
        | cons q qs =>
          rcases List.mem_cons.mp hx with rfl | hx
          · exact ⟨_, k, q⟩
          · exact ih qs x hx
    obtain ⟨L', k1, k2⟩ := all g0 g3 x hx
    rw [orientation_unique k1 hL] at k2
    exact ha k2
  · exact g3

end

/-- Noon of 6 June 2012 in a series of two days, with rounding to nearest: a table with the right values twice is accepted; with a pole off by a fifth of an arcsecond
in the second line, or with a UT1 off by 11 s, it is rejected. -/
example (b : ℕ → Bool) (old : Rec ℝ) :
    let fl := rnArith b
    let run := program fl Real.sin Real.cos (fun x => x * (2 * Real.pi / 1296000)) (fun x => x * (648000 / Real.pi)) (fun x y => fl (x - y)) (exactClock fun _ => 37)
      (fun t => (t - 51544.5) / 36525) (fun _ => 37) twoDays old
    ∃ L : Line, (run [(noon, L), (noon, L)]).2 = .ok 0 ∧ (run [(noon, L), (noon, { L with xp := L.xp + 1e-6 })]).2 = .abort ∧
      (run [(noon, { L with dut := L.dut + 11 }), (noon, L)]).2 = .abort := by
  intro fl run
  have hu := u_pos
  have hj : noon.jcenturies = 4540 / 36525 := by
    show (((56084 : ℤ) : ℝ) + 0.5 - 51544.5) / 36525 = _; norm_num
  have ht : ((noon.mjd : ℤ) : ℝ) + noon.f = 56084.5 := by show ((56084 : ℤ) : ℝ) + 0.5 = _; norm_num
  have b1 : Between twoDays noon := by
    unfold Between
    rw [ht]
    exact ⟨⟨RoundedEop.sample 56084, by simp [twoDays], by norm_num [RoundedEop.sample]⟩, ⟨RoundedEop.sample 56085, by simp [twoDays], by norm_num [RoundedEop.sample]⟩⟩
  have ho := RoundedOrient.twoDays_ok
  have mem : ∀ {P : Rec ℝ → Prop}, P (RoundedEop.sample 56084) → P (RoundedEop.sample 56085) → ∀ r ∈ twoDays.vec, P r := by
    intro P p q r hr
    simp only [twoDays, List.mem_cons, List.not_mem_nil, or_false] at hr
    rcases hr with rfl | rfl
    · exact p
    · exact q
  have hread : Read (fun t => (t - 51544.5) / 36525) twoDays _ :=
    ⟨ho.cache, ho.daily, fun r hr => ⟨(ho.pole r hr).1, (ho.pole r hr).2.1, (ho.pole r hr).2.2.2.1, (ho.pole r hr).2.2.2.2⟩,
      mem (by norm_num [RoundedEop.sample, abs_le]) (by norm_num [RoundedEop.sample, abs_le]),
      mem ⟨by simp [hu.le], by norm_num [RoundedEop.sample, abs_le]⟩ ⟨by simp [hu.le], by norm_num [RoundedEop.sample, abs_le]⟩⟩
  have hT : Trig Real.sin Real.cos := ⟨fun x => by simp [hu.le], fun x => by simp [hu.le]⟩
  have hr2s : RadToSec fun x => x * (648000 / Real.pi) := fun x => by
    simp only [sub_self, abs_zero]
    positivity
  have hdd := RoundedEop.rounded_difference (rn_faithful b)
  have hr : |noon.jcenturies| ≤ 0.999 := by rw [hj]; norm_num [abs_of_pos]
  obtain ⟨l, e, o, L, -, -, hL, -⟩ := line_inside (rn_faithful b) hT s2r_exact hdd (fun _ => 37) (RoundedOrient.exactClock_ok _) hread noon old old hr
    (by norm_num) b1
  have two : ∀ {a c : Line}, ∀ x ∈ [(noon, a), (noon, c)], x.1 = noon := by
    intro a c x hx
    simp only [List.mem_cons, List.not_mem_nil, or_false] at hx
    rcases hx with rfl | rfl <;> rfl
  have rej := fun (a c : Line) (x : Epoch × Line) => eops_rejects (x := x) (ck := exactClock fun _ => 37) (rn_faithful b) hT s2r_exact hr2s hdd (fun _ => 37) (fun _ => by norm_num)
    (RoundedOrient.exactClock_ok _) hread (by simp [twoDays]) old [(noon, a), (noon, c)] (fun x hx => by rw [two x hx]; exact hr) (fun x hx => by rw [two x hx]; exact b1)
  have hp := Real.pi_pos
  have hp2 := Real.pi_lt_d2
  refine ⟨L, ?_, rej L _ (noon, { L with xp := L.xp + 1e-6 }) (by simp) hL ?_, rej _ L (noon, { L with dut := L.dut + 11 }) (by simp) hL ?_⟩
  · obtain ⟨os, k, -⟩ := eops_accepts (ck := exactClock fun _ => 37) (rn_faithful b) hT s2r_exact hr2s hdd (fun _ => 37) (fun _ => by norm_num)
      (RoundedOrient.exactClock_ok _) hread (by simp [twoDays]) old [(noon, L), (noon, L)] (fun x hx => by rw [two x hx]; exact hr)
      (fun x hx => by rw [two x hx]; exact b1) (fun x hx L' hL' => by
        have e : x = (noon, L) := by simpa using hx
        subst e
        rw [← orientation_unique hL hL']
        constructor <;> norm_num)
    exact congrArg Prod.snd k
  · intro h
    have := h.xp
    simp only [add_sub_cancel_left] at this
    have q : 2e5 < 648000 / Real.pi := by rw [lt_div_iff₀ hp]; linarith
    rw [abs_of_pos (by norm_num)] at this
    linarith
  · intro h
    have := h.dut
    simp only [add_sub_cancel_left] at this
    norm_num at this

end Verif.RoundedEops
