import Verif.Proof.RoundedOptions
/-
C123: the four ways of taking a position and velocity from ITRS to GCRS, from a series of Earth orientation parameters on, in double precision.
-/
namespace Verif.RoundedOptions
open Verif Verif.Eop Verif.EopTides Verif.Rounding Verif.Rounded Verif.Fundarg Verif.Iau Verif.RoundedState
open Verif.RoundedOrient (Clock Observed Modest Between reference ut1Days oriented delaunay noon midnight twoDays exactClock)
open Verif.Angle (sec2rad)
open Verif.RoundedEop (DayDifference)
open Verif.EarthRot (poleX poleY locator tioLocator arcsec EopRec earthRate)

section
variable {fl : Arith} {fsin fcos fatan s2r : ℝ → ℝ} {fatan2 : ℝ → ℝ → ℝ} {qmul : Quat → Quat → Quat} {mmul : M3 → M3 → M3} {rot : Quat → V3 → V3}
  {mv : M3 → V3 → V3} {dd : ℝ → ℝ → ℝ} {ck : Clock}

/-- The interpolated length of day is at most 292 times the tabulated one. -/
theorem lod_size {dat : ℝ → ℝ} {s : Series ℝ} {t0 : ℝ} (ho : Observed s t0) {t : ℝ} {old : Rec ℝ} {degree : Int} {st : Status} {r : Rec ℝ} {s' : Series ℝ}
    (h : s.interpolate dat t old degree = .ok (st, r, s')) (hin : st ≠ .prior ∧ st ≠ .later) {B : ℝ} (hB0 : 0 ≤ B) (hB : ∀ r ∈ s.vec, |r.lod| ≤ B) :
    |r.lod| ≤ 292 * B := by
  have hup := u_pos
  obtain ⟨r', -, -, h3⟩ := RoundedEop.daily_window (rn_faithful fun _ => true) (dd := fun a b => a - b) (fun a b => by simp; positivity) dat s ho.cache ho.daily t
    old degree h
  rcases h3 with ⟨-, h5 | h5⟩ | ⟨w, -, ⟨-, -, a3, -, -, -⟩, h4⟩
  · exact absurd h5 hin.1
  · exact absurd h5 hin.2
  exact a3.trans (h4 _ B hB0 hB)

/-- The variations of the length of day are small. -/
theorem reference_lod (dat : ℝ → ℝ) (tt : Epoch) (d : ℝ) {r : Rec ℝ} (h : |r.lod| ≤ 58.4) : |(reference dat tt d r).lod| ≤ 58.5 := by
  have l := (RoundedOrient.libration_bounded (delaunay tt.jcenturies) (eraIers (ut1Days dat tt d) + sec2rad (gmstPoly tt.jcenturies))
    (eraIers (ut1Days dat tt d) + sec2rad (gmstPoly tt.jcenturies))).lod
  have o := (RoundedOrient.ocean_bounded (delaunay tt.jcenturies) (eraIers (ut1Days dat tt d) + sec2rad (gmstPoly tt.jcenturies))
    (eraIers (ut1Days dat tt d) + sec2rad (gmstPoly tt.jcenturies))).lod
  obtain ⟨-, w⟩ := RoundedEopTides.zonal_size (delaunay tt.jcenturies)
  have a := abs_le.mp l
  have b := abs_le.mp o
  have c := abs_le.mp w
  have e := abs_le.mp h
  simp only [reference]
  exact abs_le.mpr ⟨by linarith, by linarith⟩

/-- What is computed from a record is good for every record that is close to it. -/
theorem four_good (hf : Faithful fl) (hT : Trig fsin fcos) (hI : InverseTrig fatan fatan2) (hs : SecToRad s2r) (hq : QuatMul qmul) (hmm : MatMul mmul)
    (hrot : Turns rot) (hmv : MatVec mv) (tt ut1 : Epoch) {t f tu t1 D : ℝ} (ht : |t - tt.jcenturies| ≤ 4 * u) (hsees : Sees ut1 f tu t1)
    (hr : |tt.jcenturies| ≤ 1) (hrange : |ut1.daysSinceJ2000| ≤ 36525) {e R : EopRec}
    (bX : |R.dX| ≤ 3000) (bY : |R.dY| ≤ 3000) (bx : |R.xp| ≤ 3000) (by' : |R.yp| ≤ 3000) (bl : |R.lod| ≤ 59)
    (hX : |e.dX - R.dX| ≤ 1e-11) (hY : |e.dY - R.dY| ≤ 1e-11) (hx : |e.xp - R.xp| ≤ 1e-11) (hy : |e.yp - R.yp| ≤ 1e-11) (hl : |e.lod - R.lod| ≤ 1e-10)
    (hD : |eraIers ut1.daysSinceJ2000 - eraIers D| ≤ 1e-13) (ri vi : V3) :
    ∃ o, four fl fsin fcos fatan s2r fatan2 qmul mmul rot mv t f tu e ri vi = .ok o ∧
      (∃ S M, FrameOf tt D R M ∧ Celestial M ri vi S ∧
        Close3 (3.8e-12 * size ri) o.p1 S.1 ∧ Close3 (4e-12 * size ri) o.p2 S.1 ∧ Close3 (4.3e-12 * size ri) o.p3 S.1 ∧ Close3 (3.8e-12 * size ri) o.p4 S.1 ∧
        Close3 (4.3e-12 * size vi + 1.3e-15 * size ri) o.v3 S.2 ∧ Close3 (3.8e-12 * size vi + 1.2e-15 * size ri) o.v4 S.2) ∧
      o.p4 = o.p1 ∧ Close3 (2e-13 * size ri) o.p1 o.p2 ∧ Close3 (5e-13 * size ri) o.p4 o.p3 ∧ Close3 (5e-13 * size vi + 1e-16 * size ri) o.v4 o.v3 := by
  have big : ∀ {a b E M : ℝ}, |a - b| ≤ E → |b| ≤ M → |a| ≤ M + E := by
    intro a b E M h1 h2
    have := abs_sub_abs_le_abs_sub a b
    linarith
  have cx : |e.xp| ≤ 3600 := (big hx bx).trans (by norm_num)
  have cy : |e.yp| ≤ 3600 := (big hy by').trans (by norm_num)
  have cX : |e.dX| ≤ 3600 := (big hX bX).trans (by norm_num)
  have cY : |e.dY| ≤ 3600 := (big hY bY).trans (by norm_num)
  have cl : |e.lod| ≤ 60 := (big hl bl).trans (by norm_num)
  obtain ⟨x1, y1, δ', ε', δ0, ε0, F⟩ := RoundedGcrs.front hf hT hI hs ht hr e cX cY cx cy
  obtain ⟨x2, y2, δ, ε, δ2, ε2, G⟩ := RoundedGcrs.front hf hT hI hs ht hr R (bX.trans (by norm_num)) (bY.trans (by norm_num)) (bx.trans (by norm_num))
    (by'.trans (by norm_num))
  obtain ⟨q, dM, M', c1, fr, acc⟩ := state_rounded hf hT hI hs hq hmm hrot hmv tt ut1 ht hsees hr hrange e cX cY cx cy cl
  obtain ⟨qa, dMa, qc, qt, om, f1, f2, agree⟩ := states_agree_tight hf hT hI hs hq hmm hrot hmv f tu ht hr e cX cY cx cy cl
  obtain ⟨qb, b, qd, qe, om', dMb, n1, n2, -, n4, -, -, forms⟩ := RoundedGcrs.forms_agree_tight (mmul := mmul) hf hT hI hs hq hrot f tu ht hr e cX cY cx cy
  have same1 := c1.symm.trans f1
  simp only [Res.ok.injEq, Prod.mk.injEq] at same1
  obtain ⟨rfl, rfl⟩ := same1
  have same2 := c1.symm.trans n4
  simp only [Res.ok.injEq, Prod.mk.injEq] at same2
  obtain ⟨rfl, rfl⟩ := same2
  obtain ⟨M, hM, near⟩ := frames_close (D' := ut1.daysSinceJ2000) (D := D)
    F.exact G.exact (F.aX.1.trans (by norm_num)) (F.aY.1.trans (by norm_num)) (G.aX.1.trans (by norm_num)) (G.aY.1.trans (by norm_num))
    hX hY hx hy hl cl hD fr
  obtain ⟨-, S', hS', a1, a2⟩ := acc ri vi
  obtain ⟨S, hS, b1, b2⟩ := near ri vi S' hS'
  obtain ⟨-, j1, j2⟩ := agree ri vi
  obtain ⟨-, -, j3⟩ := forms ri
  have R0 := size_nonneg ri
  have V0 := size_nonneg vi
  have tri : ∀ {a b c : V3} {ε δ : ℝ}, Close3 ε a b → Close3 δ b c → Close3 (ε + δ) a c := by
    intro a b c ε δ h k
    have key : ∀ {x y z : ℝ}, |x - y| ≤ ε → |y - z| ≤ δ → |x - z| ≤ ε + δ := fun h1 h2 => (abs_sub_le _ _ _).trans (add_le_add h1 h2)
    exact ⟨key h.1 k.1, key h.2.1 k.2.1, key h.2.2 k.2.2⟩
  have flip : ∀ {a b : V3} {ε : ℝ}, Close3 ε a b → Close3 ε b a := by
    intro a b ε h
    exact ⟨by rw [abs_sub_comm]; exact h.1, by rw [abs_sub_comm]; exact h.2.1, by rw [abs_sub_comm]; exact h.2.2⟩
  have p4 := tri a1 b1
  have v4 := tri a2 b2
  refine ⟨⟨rot q.conj ri, rot b.conj ri, (toCelestial2 fl rot qc qt om ri vi).1, (toCelestial2 fl rot qc qt om ri vi).2,
    (toCelestial fl rot mv q dM ri vi).1, (toCelestial fl rot mv q dM ri vi).2⟩, ?_, ⟨S, M, hM, hS,
    Close3.mono p4 (by linarith), Close3.mono (tri (flip j3) p4) (by linarith), Close3.mono (tri (flip j1) p4) (by linarith),
    Close3.mono p4 (by linarith), Close3.mono (tri (flip j2) v4) (by linarith), Close3.mono v4 (by linarith)⟩, rfl, j3, j1, j2⟩
  unfold four
  rw [n1, n2, f2, c1]
  rfl

/-- C123: at an epoch inside a daily series of Earth orientation parameters (lengths of day within 0.2 s) the program takes every terrestrial position to the
celestial one of the Conventions by all four options, and its velocity by the two that give one; the options differ by much less than that. -/
theorem options_inside (hf : Faithful fl) (hT : Trig fsin fcos) (hI : InverseTrig fatan fatan2) (hs : SecToRad s2r) (hq : QuatMul qmul) (hmm : MatMul mmul)
    (hrot : Turns rot) (hmv : MatVec mv)
    (hdd : DayDifference dd) (dat : ℝ → ℝ) (hck : ck.Accurate dat) {s : Series ℝ}
    {t0 : ℝ} (ho : Observed s t0) (hlod : ∀ r ∈ s.vec, |r.lod| ≤ 0.2) (x : Row) (hr : |x.tt.jcenturies| ≤ 0.999) (hdat : |dat ((x.tt.mjd : ℝ) + x.tt.f)| ≤ 100)
    (hb : Between s x.tt) :
    ∃ s2 o, turnOf fl fsin fcos fatan s2r fatan2 qmul mmul rot mv dd ck dat s x.tt x.old x.ri x.vi = .ok (s2, some o) ∧ s2 = { s with last := s2.last } ∧
      Observed s2 t0 ∧ Good dat s x o := by
  obtain ⟨tt, ri, vi, old⟩ := x
  simp only at hr hdat hb ⊢
  obtain ⟨hb, ha⟩ := hb
  have hne : s.vec ≠ [] := by
    rintro hv
    obtain ⟨r, hr, -⟩ := hb
    rw [hv] at hr
    cases hr
  obtain ⟨st, r, s1, g1, g2, g3⟩ := eop_status_outside dat ho.sorted ho.cache hne ((tt.mjd : ℝ) + tt.f) old 5 (by norm_num) (by norm_num)
  have hin : st ≠ .prior ∧ st ≠ .later := by
    refine ⟨fun k => ?_, fun k => ?_⟩
    · obtain ⟨a, ha1, ha2⟩ := hb
      exact absurd (g2.mp k a ha1) (not_lt.mpr ha2)
    · obtain ⟨a, ha1, ha2⟩ := ha
      exact absurd (g3.mp k a ha1) (not_le.mpr ha2)
  have hv : s1.vec = s.vec := by obtain ⟨it, -, rfl⟩ := RoundedOrient.interpolate_series dat s _ old 5 g1; rfl
  have ho1 := ho.next g1
  obtain ⟨d, e0, s2, s3, k1, -, -⟩ := approx_dut1_agrees dat ho1.sorted ho1.cache ((tt.mjd : ℝ) + tt.f) (by rw [hv]; exact hb) (by rw [hv]; exact ha) old
  obtain ⟨r1, hr1, -⟩ := RoundedOrient.approx_exact dat s1 ho1.sorted ho1.cache ((tt.mjd : ℝ) + tt.f) old k1
  have hv2 : s2 = { s with last := s2.last } := by
    obtain ⟨it, -, rfl⟩ := RoundedOrient.interpolate_series dat s1 _ old 1 hr1
    obtain ⟨it', -, rfl⟩ := RoundedOrient.interpolate_series dat s _ old 5 g1
    rfl
  obtain ⟨e, he, hx, hy, hX, hY, hu1, hl⟩ := RoundedOrient.record_rounded hf hT hs hdd dat hck ho tt hr hdat old g1 hin k1
  have hm := ho.modest hdat g1 hin
  have bl := reference_lod dat tt d ((lod_size ho g1 hin (by norm_num) hlod).trans (by norm_num))
  obtain ⟨sx, sy, su⟩ := RoundedOrient.reference_size dat tt d hm
  have hr1' : |tt.jcenturies| ≤ 1 := hr.trans (by norm_num)
  have bu : |e.dut| ≤ 30000 := by
    have := abs_sub_abs_le_abs_sub e.dut (reference dat tt d r).dut
    linarith
  obtain ⟨o, f1, ⟨S, M, hM, hS, f2⟩, f3⟩ := four_good (fl := fl) (fsin := fsin) (fcos := fcos) (e := Orient.eopRec e)
    (R := Orient.eopRec (reference dat tt d r)) hf hT hI hs hq hmm hrot hmv tt (ck.ut1 tt e.dut) (hck.sees tt).cents (hck.sees (ck.ut1 tt e.dut)) hr1'
    (RoundedOrient.ut1_range hck tt hr hdat bu) (hm.dX.trans (by norm_num)) (hm.dY.trans (by norm_num)) (sx.trans (by norm_num)) (sy.trans (by norm_num))
    (bl.trans (by norm_num)) (hX.trans (by norm_num)) (hY.trans (by norm_num)) (hx.trans (by norm_num)) (hy.trans (by norm_num)) (hl.trans (by norm_num))
    (RoundedOrient.ut1_close hck tt hu1 (by norm_num)) ri vi
  refine ⟨s2, o, ?_, hv2, ho1.next hr1, ⟨S, ⟨st, r, s1, d, s2, M, g1, k1, hM, hS⟩, f2⟩, f3⟩
  unfold turnOf
  rw [he]
  simp only [Res.bind]
  rw [if_neg (by simp), f1]

/-- C123: outside the series nothing is computed, and the series is as exact arithmetic leaves it. -/
theorem options_outside (hf : Faithful fl) (hdd : DayDifference dd) (dat : ℝ → ℝ) {s : Series ℝ} {t0 : ℝ} (ho : Observed s t0) (tt : Epoch)
    (hdat : |dat ((tt.mjd : ℝ) + tt.f)| ≤ 100) (old : Rec ℝ) (ri vi : V3) {st : Status} {r : Rec ℝ} {s1 : Series ℝ}
    (h : s.interpolate dat ((tt.mjd : ℝ) + tt.f) old 5 = .ok (st, r, s1)) (hin : st = .prior ∨ st = .later) :
    turnOf fl fsin fcos fatan s2r fatan2 qmul mmul rot mv dd ck dat s tt old ri vi = .ok (s1, none) := by
  obtain ⟨r', h1, -⟩ := RoundedEop.daily_rounded hf hdd dat s ho.cache ho.daily _ old 5 h (B := 1) (by norm_num) ho.pole ho.ut1 hdat
  unfold turnOf oriented
  rw [h1]
  simp only [Res.bind]
  rw [if_pos hin]
  rfl

theorem Good.cache {dat : ℝ → ℝ} {s s' : Series ℝ} {t0 : ℝ} (ho : Observed s t0) (ho' : Observed s' t0) (hv : s' = { s with last := s'.last })
    {x : Row} {o : Out} (h : Good dat s' x o) : Good dat s x o := by
  obtain ⟨⟨S, ⟨st, e, s1, d, s2, M, h1, h2⟩, h3⟩, h4⟩ := h
  rw [RoundedOrient.interpolate_cache dat ho ho' hv] at h1
  exact ⟨⟨S, ⟨st, e, s1, d, s2, M, h1, h2⟩, h3⟩, h4⟩

open Classical in
/-- C123: the loop over any list of rows, in any order of their epochs, with one series for all of them: results for every row before the first whose epoch is out
of bounds, all of them good for the series as it was at the start; the program returns 0 exactly if every epoch is inside. -/
theorem options_history (hf : Faithful fl) (hT : Trig fsin fcos) (hI : InverseTrig fatan fatan2) (hs : SecToRad s2r) (hq : QuatMul qmul) (hmm : MatMul mmul)
    (hrot : Turns rot) (hmv : MatVec mv)
    (hdd : DayDifference dd) (dat : ℝ → ℝ) (hdat : ∀ t, |dat t| ≤ 100) (hck : ck.Accurate dat) {s : Series ℝ} {t0 : ℝ} (ho : Observed s t0) (hne : s.vec ≠ [])
    (hlod : ∀ r ∈ s.vec, |r.lod| ≤ 0.2) (rows : List Row) (hr : ∀ x ∈ rows, |x.tt.jcenturies| ≤ 0.999) :
    ∃ s' os c, loop fl fsin fcos fatan s2r fatan2 qmul mmul rot mv dd ck dat s rows = .ok (s', os, c) ∧ s' = { s with last := s'.last } ∧
      List.Forall₂ (Good dat s) (rows.takeWhile fun x => Between s x.tt) os ∧ c = if ∀ x ∈ rows, Between s x.tt then 0 else 1 := by
  have key : ∀ (rows : List Row) (s1 : Series ℝ), (∀ x ∈ rows, |x.tt.jcenturies| ≤ 0.999) → Observed s1 t0 → s1 = { s with last := s1.last } →
      ∃ s' os c, loop fl fsin fcos fatan s2r fatan2 qmul mmul rot mv dd ck dat s1 rows = .ok (s', os, c) ∧ s' = { s with last := s'.last } ∧
      List.Forall₂ (Good dat s) (rows.takeWhile fun x => Between s x.tt) os ∧ c = if ∀ x ∈ rows, Between s x.tt then 0 else 1 := by
    intro rows
    induction rows with
    | nil => intro s1 _ _ hv; exact ⟨s1, [], 0, rfl, hv, .nil, by simp⟩
    | cons x rest ih =>
      intro s1 hr ho1 hv
      have hvec : s1.vec = s.vec := by rw [hv]
      by_cases hb : Between s x.tt
      · have hb1 : Between s1 x.tt := by unfold Between; rw [hvec]; exact hb
        obtain ⟨s2, o, h1, h2, h3, h4⟩ := options_inside hf hT hI hs hq hmm hrot hmv hdd dat hck ho1 (by rw [hvec]; exact hlod) x (hr _ List.mem_cons_self)
          (hdat _) hb1
        obtain ⟨s', os, c, g1, g2, g3, g4⟩ := ih s2 (fun y hy => hr y (List.mem_cons_of_mem _ hy)) h3 (by rw [h2, hv])
        refine ⟨s', o :: os, c, ?_, g2, ?_, ?_⟩
        · unfold loop
          rw [h1]
          simp only [Res.bind]
          rw [g1]
        · rw [List.takeWhile_cons_of_pos (by simpa using hb)]
          exact .cons (h4.cache ho ho1 hv) g3
        · simp [g4, hb]
      · have hn : s1.vec ≠ [] := by rw [hvec]; exact hne
        obtain ⟨st, e, s2, g1, g2, g3⟩ := eop_status_outside dat ho1.sorted ho1.cache hn ((x.tt.mjd : ℝ) + x.tt.f) x.old 5 (by norm_num) (by norm_num)
        have hout : st = .prior ∨ st = .later := by
          by_contra hc
          push Not at hc
          have := ho1.between (by norm_num) (by norm_num) g1 hc
          rw [hvec] at this
          exact hb this
        have h1 := options_outside (fsin := fsin) (fcos := fcos) (fatan := fatan) (s2r := s2r) (fatan2 := fatan2) (qmul := qmul) (mmul := mmul) (rot := rot)
          (mv := mv) (ck := ck) hf hdd dat ho1 x.tt (hdat _) x.old x.ri x.vi g1 hout
        refine ⟨s2, [], 1, ?_, ?_, ?_, ?_⟩
        · unfold loop
          rw [h1]
          rfl
        · obtain ⟨it, -, rfl⟩ := RoundedOrient.interpolate_series dat s1 _ x.old 5 g1; rw [hv]
        · rw [List.takeWhile_cons_of_neg (by simpa using hb)]
          exact .nil
        · rw [if_neg]
          intro h
          exact hb (h x List.mem_cons_self)
  exact key rows s hr ho rfl

end

open Classical in
/-- The hypotheses can be met: rounding to nearest, whichever products are fused, exact functions of the C library, Eigen's products without vector instructions; a
satellite 7000 km from the centre of the Earth, at noon between two daily records, at the last of them, which is out of bounds, and once more at noon: the program
returns 1 after the first, whose position is within 27 micrometres of the true one by option 1. -/
example (b : ℕ → Bool) : ∃ s' o S, let fl := rnArith b
    let row : Epoch → Row := fun t => ⟨t, ⟨7e6, 0, 0⟩, ⟨0, 7.5e3, 0⟩, RoundedEop.sample 0⟩
    loop fl Real.sin Real.cos Real.arctan (fun x => x * (2 * Real.pi / 1296000)) (fun y x => Complex.arg ⟨x, y⟩) (RoundedGcrs.product fl)
      (RoundedGcrs.matProduct fl) (transformVector fl) (mulVec fl) (fun x y => fl (x - y)) (exactClock fun _ => 37) (fun _ => 37) twoDays
      [row noon, row midnight, row noon] = .ok (s', [o], 1) ∧
    Truth (fun _ => 37) twoDays noon (RoundedEop.sample 0) ⟨7e6, 0, 0⟩ ⟨0, 7.5e3, 0⟩ S ∧ Close3 2.7e-5 o.p1 S.1 ∧ Close3 4e-8 o.v4 S.2 := by
  have hu := u_pos
  have hj : noon.jcenturies = 4540 / 36525 := by
    show (((56084 : ℤ) : ℝ) + 0.5 - 51544.5) / 36525 = _; norm_num
  have hj' : midnight.jcenturies = 4540.5 / 36525 := by
    show (((56085 : ℤ) : ℝ) + 0 - 51544.5) / 36525 = _; norm_num
  have ht : ((noon.mjd : ℤ) : ℝ) + noon.f = 56084.5 := by show ((56084 : ℤ) : ℝ) + 0.5 = _; norm_num
  have ht' : ((midnight.mjd : ℤ) : ℝ) + midnight.f = 56085 := by show ((56085 : ℤ) : ℝ) + 0 = _; norm_num
  have b1 : Between twoDays noon := by
    unfold Between
    rw [ht]
    exact ⟨⟨RoundedEop.sample 56084, by simp [twoDays], by norm_num [RoundedEop.sample]⟩, ⟨RoundedEop.sample 56085, by simp [twoDays], by norm_num [RoundedEop.sample]⟩⟩
  have b2 : ¬ Between twoDays midnight := by
    rintro ⟨-, r, hr, h⟩
    rw [ht'] at h
    simp only [twoDays, List.mem_cons, List.not_mem_nil, or_false] at hr
    rcases hr with rfl | rfl <;> norm_num [RoundedEop.sample] at h
  have s1 : size ⟨7e6, 0, 0⟩ = 7e6 := by unfold size; norm_num
  have s2 : size ⟨0, 7.5e3, 0⟩ = 7.5e3 := by unfold size; norm_num
  obtain ⟨s', os, c, h1, -, h2, h3⟩ := options_history (rn_faithful b)
    (show Trig Real.sin Real.cos from ⟨fun x => by simp [hu.le], fun x => by simp [hu.le]⟩) (show InverseTrig Real.arctan _ from RoundedGcrs.inverse_exact)
    s2r_exact (RoundedGcrs.product_ok (rn_faithful b)) (RoundedGcrs.matProduct_ok (rn_faithful b)) (transformVector_ok (rn_faithful b)) (mulVec_ok (rn_faithful b))
    (RoundedEop.rounded_difference (rn_faithful b)) (fun _ => 37) (fun _ => by norm_num) (RoundedOrient.exactClock_ok _) RoundedOrient.twoDays_ok (by simp [twoDays])
    (by
      intro r hr
      simp only [twoDays, List.mem_cons, List.not_mem_nil, or_false] at hr
      rcases hr with rfl | rfl <;> norm_num [RoundedEop.sample, abs_le])
    [⟨noon, ⟨7e6, 0, 0⟩, ⟨0, 7.5e3, 0⟩, RoundedEop.sample 0⟩, ⟨midnight, ⟨7e6, 0, 0⟩, ⟨0, 7.5e3, 0⟩, RoundedEop.sample 0⟩,
      ⟨noon, ⟨7e6, 0, 0⟩, ⟨0, 7.5e3, 0⟩, RoundedEop.sample 0⟩] (by
      intro x hx
      simp only [List.mem_cons, List.not_mem_nil, or_false] at hx
      rcases hx with rfl | rfl | rfl <;> simp only [hj, hj'] <;> norm_num [abs_of_pos])
  have e : ([⟨noon, ⟨7e6, 0, 0⟩, ⟨0, 7.5e3, 0⟩, RoundedEop.sample 0⟩, ⟨midnight, ⟨7e6, 0, 0⟩, ⟨0, 7.5e3, 0⟩, RoundedEop.sample 0⟩,
      ⟨noon, ⟨7e6, 0, 0⟩, ⟨0, 7.5e3, 0⟩, RoundedEop.sample 0⟩] : List Row).takeWhile
      (fun x => decide (Between twoDays x.tt)) = [⟨noon, ⟨7e6, 0, 0⟩, ⟨0, 7.5e3, 0⟩, RoundedEop.sample 0⟩] := by
    simp [b1, b2]
  rw [e] at h2
  rw [if_neg (by
    intro h
    exact b2 (h _ (List.mem_cons_of_mem _ List.mem_cons_self)))] at h3
  subst h3
  cases h2 with
  | cons ha hb =>
    cases hb
    obtain ⟨⟨S, t1, t2, -, -, -, -, t3⟩, -⟩ := ha
    simp only [s1, s2] at t2 t3
    exact ⟨s', _, S, h1, t1, Close3.mono t2 (by norm_num), Close3.mono t3 (by norm_num)⟩

end Verif.RoundedOptions
