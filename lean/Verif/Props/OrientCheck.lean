import Verif.Props.Orient
/-
C99: the programs that compute the Earth orientation from a file.
-/
namespace Verif.Orient
open Verif Verif.Eop Verif.EopTides Verif.Angle Polynomial
open Verif.Costg (Table Recorded epochAt eopsOf ttOf rb)

/-- The Modified Julian Date TT of a row in GPS time. -/
theorem mjd_ttOf (t : ℚ) : mjd (ttOf (epochAt t)) = ((Costg.mjdTT t : ℚ) : ℝ) := by
  have h := Costg.jd_ttOf (t := t)
  have e : Planets.jd (ttOf (epochAt t)) = mjd (ttOf (epochAt t)) + 2400000.5 := by
    unfold Planets.jd mjd; ring
  rw [e] at h
  unfold Costg.jdTT at h
  unfold Costg.mjdTT
  push_cast
  linarith

/-- What is computed of the CIP and the locators. -/
theorem cip_at (tt : Iau.Epoch) : ∃ r, Cip.xycip06a tt.jcenturies = .ok r ∧ r.x = EarthRot.poleX tt.jcenturies ∧ r.y = EarthRot.poleY tt.jcenturies ∧
    Cip.s06With tt.jcenturies r.x r.y r.outargs = EarthRot.locator tt.jcenturies ∧ Iau.sp00 tt = EarthRot.tioLocator tt.jcenturies := by
  obtain ⟨r, hr, hx, hy, -⟩ := Cip.cip_coordinates tt.jcenturies
  obtain ⟨r', hr', -, hs⟩ := Cip.cio_from_cip tt.jcenturies
  rw [hr] at hr'
  cases hr'
  refine ⟨r, hr, hx, hy, hs, ?_⟩
  have h := EarthRot.argsAt_ok (fun t _ => t) tt ⟨0, 0, 0, 0, 0, 0⟩
  unfold EarthRot.argsAt at h
  rw [hr] at h
  simp only [Res.bind, Res.ok.injEq, EarthRot.Args.mk.injEq] at h
  exact h.2.2.2.1

theorem rad2sec_near (x y : ℝ) : (rad2sec |x - y| < 1e-1) = (|x - y| * (648000 / Real.pi) < 0.1) := by
  unfold rad2sec
  norm_num

theorem accepts_iff (x : ℚ × List ℚ) (e : Rec ℝ) (dat : ℝ) (tt : Iau.Epoch) {r : Cip.XY} (hx : r.x = EarthRot.poleX tt.jcenturies)
    (hy : r.y = EarthRot.poleY tt.jcenturies) :
    accepts (eopsOf x) e (r.x + sec2rad e.dX) (r.y + sec2rad e.dY) (EarthRot.locator tt.jcenturies) (EarthRot.tioLocator tt.jcenturies) ↔
      Accepted (mjd tt) dat x.2 ⟨e.xp, e.yp, e.dut - dat, e.lod, e.dX, e.dY⟩ := by
  unfold accepts Accepted
  simp only [rad2sec_near, EarthRot.arcsec_eq, hx, hy, centuries_mjd, sub_add_cancel, eopsOf]
  norm_num

/-- One row inside the records: it is compared with the Earth orientation of the Conventions. -/
theorem eops_step (dat : ℝ → ℝ) {recs : List (Rec ℚ)} (hs : Sorted recs) (x : ℚ × List ℚ) (xs : List (ℚ × List ℚ)) {s : Series ℝ} (old : Rec ℝ)
    (hh : Holding recs s) (h1 : ∃ r ∈ recs, r.t ≤ Costg.mjdTT x.1) (h2 : ∃ r ∈ recs, Costg.mjdTT x.1 < r.t) :
    ∃ s' e E, OrientedAt recs (Costg.mjdTT x.1 : ℚ) E ∧ Holding recs s' ∧
      (Accepted (Costg.mjdTT x.1 : ℚ) (dat (Costg.mjdTT x.1 : ℚ)) x.2 E → eopsLoop dat s old ((x :: xs).map eopsOf) = eopsLoop dat s' e (xs.map eopsOf)) ∧
      (¬ Accepted (Costg.mjdTT x.1 : ℚ) (dat (Costg.mjdTT x.1 : ℚ)) x.2 E → eopsLoop dat s old ((x :: xs).map eopsOf) = .abort) := by
  obtain ⟨r1, m1, l1⟩ := h1
  obtain ⟨r2, m2, l2⟩ := h2
  set tt := ttOf (epochAt x.1) with htt
  have ht : mjd tt = ((Costg.mjdTT x.1 : ℚ) : ℝ) := mjd_ttOf x.1
  obtain ⟨s', e, q1, q2, q3⟩ := oriented_at dat hs hh tt old ⟨r1, m1, by rw [ht]; exact_mod_cast l1⟩ ⟨r2, m2, by rw [ht]; exact_mod_cast l2⟩
  obtain ⟨r, c1, c2, c3, c4, c5⟩ := cip_at tt
  have hstep : eopsLoop dat s old ((x :: xs).map eopsOf) =
      open Classical in if Accepted (mjd tt) (dat (mjd tt)) x.2 ⟨e.xp, e.yp, e.dut - dat (mjd tt), e.lod, e.dX, e.dY⟩ then
        eopsLoop dat s' e (xs.map eopsOf) else .abort := by
    rw [List.map_cons, eopsLoop]
    have hep : ttOf (eopsOf x).epoch = tt := rfl
    simp only [hep, q1, c1, Res.bind]
    rw [if_neg (by simp)]
    have ha : accepts (eopsOf x) e (r.x + sec2rad e.dX) (r.y + sec2rad e.dY) (Cip.s06With (ttOf (eopsOf x).epoch).jcenturies r.x r.y r.outargs)
        (Iau.sp00 (ttOf (eopsOf x).epoch)) ↔ Accepted (mjd tt) (dat (mjd tt)) x.2 ⟨e.xp, e.yp, e.dut - dat (mjd tt), e.lod, e.dX, e.dY⟩ := by
      rw [hep, c4, c5]
      exact accepts_iff x e (dat (mjd tt)) tt c2 c3
    by_cases hA : Accepted (mjd tt) (dat (mjd tt)) x.2 ⟨e.xp, e.yp, e.dut - dat (mjd tt), e.lod, e.dX, e.dY⟩
    · rw [if_pos (ha.mpr hA), if_pos hA]
    · rw [if_neg (mt ha.mp hA), if_neg hA]
  rw [ht] at hstep q3
  exact ⟨s', e, _, q3, q2, fun h => by rw [hstep, if_pos h], fun h => by rw [hstep, if_neg h]⟩

/-- The loop: exit status 0 if all rows agree, an assertion fails otherwise. -/
theorem eops_loop (dat : ℝ → ℝ) {recs : List (Rec ℚ)} (hs : Sorted recs) : ∀ (xs : List (ℚ × List ℚ)) {s : Series ℝ} (old : Rec ℝ), Holding recs s →
    (∀ x ∈ xs, (∃ r ∈ recs, r.t ≤ Costg.mjdTT x.1) ∧ ∃ r ∈ recs, Costg.mjdTT x.1 < r.t) →
    ∃ es, List.Forall₂ (fun x e => OrientedAt recs (Costg.mjdTT x.1 : ℚ) e) xs es ∧
      (List.Forall₂ (fun x e => Accepted (Costg.mjdTT x.1 : ℚ) (dat (Costg.mjdTT x.1 : ℚ)) x.2 e) xs es → eopsLoop dat s old (xs.map eopsOf) = .ok 0) ∧
      (¬ List.Forall₂ (fun x e => Accepted (Costg.mjdTT x.1 : ℚ) (dat (Costg.mjdTT x.1 : ℚ)) x.2 e) xs es → eopsLoop dat s old (xs.map eopsOf) = .abort)
  | [], _, _, _, _ => ⟨[], .nil, fun _ => rfl, fun h => absurd .nil h⟩
  | x :: xs, s, old, hh, hb => by
    obtain ⟨s', e, E, q3, q2, k1, k2⟩ := eops_step dat hs x xs old hh (hb x (by simp)).1 (hb x (by simp)).2
    obtain ⟨es, p1, p2, p3⟩ := eops_loop dat hs xs (s := s') e q2 fun y hy => hb y (by simp [hy])
    refine ⟨E :: es, .cons q3 p1, ?_, ?_⟩
    · intro h
      cases h with
      | cons h1 h2 => rw [k1 h1]; exact p2 h2
    · intro h
      by_cases h1 : Accepted (Costg.mjdTT x.1 : ℚ) (dat (Costg.mjdTT x.1 : ℚ)) x.2 E
      · rw [k1 h1]
        exact p3 fun h2 => h (.cons h1 h2)
      · exact k2 h1

/-- A row outside the records: the program does not succeed. -/
theorem eops_loop_outside (dat : ℝ → ℝ) {recs : List (Rec ℚ)} (hs : Sorted recs) (hne : recs ≠ []) : ∀ (xs : List (ℚ × List ℚ)) {s : Series ℝ} (old : Rec ℝ),
    Holding recs s → (∃ x ∈ xs, (∀ r ∈ recs, Costg.mjdTT x.1 < r.t) ∨ ∀ r ∈ recs, r.t ≤ Costg.mjdTT x.1) →
    eopsLoop dat s old (xs.map eopsOf) = .ok 1 ∨ eopsLoop dat s old (xs.map eopsOf) = .abort
  | [], _, _, _, ⟨_, h, _⟩ => absurd h (by simp)
  | x :: xs, s, old, hh, ⟨y, hy, ho⟩ => by
    by_cases hx : (∀ r ∈ recs, Costg.mjdTT x.1 < r.t) ∨ ∀ r ∈ recs, r.t ≤ Costg.mjdTT x.1
    · set tt := ttOf (epochAt x.1) with htt
      have ht : mjd tt = ((Costg.mjdTT x.1 : ℚ) : ℝ) := mjd_ttOf x.1
      obtain ⟨s', e, -, q, -⟩ := oriented_outside dat hs hne hh tt old (by
        rw [ht]
        exact hx.imp (fun h r m => (Rat.cast_lt (K := ℝ)).mpr (h r m)) fun h r m => (Rat.cast_le (K := ℝ)).mpr (h r m))
      left
      rw [List.map_cons, eopsLoop]
      have hep : ttOf (eopsOf x).epoch = tt := rfl
      simp only [hep, q, Res.bind]
      rfl
    · have hx' := not_or.mp hx
      obtain ⟨n1, n2⟩ := hx'
      push Not at n1 n2
      obtain ⟨s', e, E, -, q2, k1, k2⟩ := eops_step dat hs x xs old hh n1 n2
      by_cases h1 : Accepted (Costg.mjdTT x.1 : ℚ) (dat (Costg.mjdTT x.1 : ℚ)) x.2 E
      · rw [k1 h1]
        rcases List.mem_cons.mp hy with rfl | hy
        · exact absurd ho hx
        · exact eops_loop_outside dat hs hne xs e q2 ⟨y, hy, ho⟩
      · exact .inr (k2 h1)

/-- The records of a file with epochs from `a` up to `b`. -/
theorem series_of (tt dat : ℚ → ℚ) {junkE : List ℚ} (hj : 8 ≤ junkE.length) {eop : List (List Char)} {rs : List (Rec ℚ)} (he : Recorded tt dat eop rs)
    {a b : ℚ} (hab : a < b) : ∃ ser, series tt dat junkE (some eop) a b = .ok (some ser) ∧
      Holding (rs.filter fun r => a ≤ r.t ∧ r.t < b) ser ∧ Sorted (rs.filter fun r => a ≤ r.t ∧ r.t < b) := by
  obtain ⟨⟨c20, hh, hr⟩, hs⟩ := he
  obtain ⟨ser, e1, e2, e3, e4⟩ := parseC04_complete tt dat junkE hj a b hab c20 hh hr hs Series.new
  have hrange : inRange a b rs = rs.filter fun r => a ≤ r.t ∧ r.t < b := rfl
  obtain ⟨v1, v2⟩ := regularize_vec ser
  refine ⟨regularize (realSeries ser), ?_, ⟨?_, ?_⟩, ?_⟩
  · unfold series
    rw [e1]
    rfl
  · rw [v1, e2, hrange]
  · obtain ⟨l, hl, hle⟩ := e3
    exact ⟨l, by rw [v2, hl], by rw [v1, List.length_map]; exact hle⟩
  · rw [← hrange, ← e2]; exact e4

/-- The program runs the loop on the records within two days of the first epoch. -/
theorem check_eops_runs (tt dat : ℚ → ℚ) (datTT : ℝ → ℝ) (junk : Fin 9 → ℚ) {junkE : List ℚ} (hj : 8 ≤ junkE.length) (old : Rec ℝ) {ref : List Char}
    {eop : List (List Char)} {x1 : ℚ × List ℚ} {xs : List (ℚ × List ℚ)} {rs : List (Rec ℚ)} (hx : Table 1024 8 ref (x1 :: xs))
    (he : Recorded tt dat eop rs) : ∃ ser, checkEops tt dat datTT junk junkE old (some ref) (some eop) = eopsLoop datTT ser old ((x1 :: xs).map eopsOf) ∧
      Holding (rs.filter fun r => x1.1 - 2 ≤ r.t ∧ r.t < x1.1 + 2) ser ∧ Sorted (rs.filter fun r => x1.1 - 2 ≤ r.t ∧ r.t < x1.1 + 2) := by
  obtain ⟨ser, e1, e2, e3⟩ := series_of tt dat hj he (a := x1.1 - 2) (b := x1.1 + 2) (by linarith)
  refine ⟨ser, ?_, e2, e3⟩
  unfold checkEops
  rw [Costg.parseEops_rows hx]
  simp only [rb, List.map_cons]
  have hd : ((eopsOf x1).epoch.1 : ℚ) + (eopsOf x1).epoch.2 / 86400 = x1.1 := by
    show ((⌊x1.1⌋ : ℤ) : ℚ) + Int.fract x1.1 * 86400 / 86400 = x1.1
    have := Int.floor_add_fract x1.1
    linarith
  rw [hd, e1]
  rfl

/-- C99: from the files to the exit status of tcheck_eops. If the epochs of the benchmark lie between records of the file that are within two days
of the first epoch, the program compares the Earth orientation of the Conventions with the benchmark row by row: it succeeds if all rows agree
to the tolerances and stops at a failed assertion otherwise. -/
theorem check_eops_partial (tt dat : ℚ → ℚ) (datTT : ℝ → ℝ) (junk : Fin 9 → ℚ) {junkE : List ℚ} (hj : 8 ≤ junkE.length) (old : Rec ℝ) {ref : List Char}
    {eop : List (List Char)} {x1 : ℚ × List ℚ} {xs : List (ℚ × List ℚ)} {rs : List (Rec ℚ)} (hx : Table 1024 8 ref (x1 :: xs))
    (he : Recorded tt dat eop rs)
    (hc : ∀ x ∈ x1 :: xs, (∃ r ∈ rs, x1.1 - 2 ≤ r.t ∧ r.t ≤ Costg.mjdTT x.1) ∧ ∃ r ∈ rs, Costg.mjdTT x.1 < r.t ∧ r.t < x1.1 + 2) :
    ∃ es, List.Forall₂ (fun x e => OrientedAt (rs.filter fun r => x1.1 - 2 ≤ r.t ∧ r.t < x1.1 + 2) (Costg.mjdTT x.1 : ℚ) e) (x1 :: xs) es ∧
      (List.Forall₂ (fun x e => Accepted (Costg.mjdTT x.1 : ℚ) (datTT (Costg.mjdTT x.1 : ℚ)) x.2 e) (x1 :: xs) es →
        checkEops tt dat datTT junk junkE old (some ref) (some eop) = .ok 0) ∧
      (¬ List.Forall₂ (fun x e => Accepted (Costg.mjdTT x.1 : ℚ) (datTT (Costg.mjdTT x.1 : ℚ)) x.2 e) (x1 :: xs) es →
        checkEops tt dat datTT junk junkE old (some ref) (some eop) = .abort) := by
  obtain ⟨ser, hprog, hhold, hsort⟩ := check_eops_runs tt dat datTT junk hj old hx he
  rw [hprog]
  refine eops_loop datTT hsort (x1 :: xs) old hhold fun x hx' => ?_
  obtain ⟨⟨r, m, l1, l2⟩, r', m', l1', l2'⟩ := hc x hx'
  refine ⟨⟨r, ?_, l2⟩, r', ?_, l1'⟩
  · rw [List.mem_filter]
    exact ⟨m, by simp only [decide_eq_true_eq]; exact ⟨l1, by linarith⟩⟩
  · rw [List.mem_filter]
    exact ⟨m', by simp only [decide_eq_true_eq]; exact ⟨by linarith, l2'⟩⟩

/-- C99: tcheck_eops reads the records up to two days after the first epoch only. A benchmark with an epoch two days after the first or later is
never accepted, whatever the file of Earth orientation holds and however well the rows agree. -/
theorem check_eops_window_fails (tt dat : ℚ → ℚ) (datTT : ℝ → ℝ) (junk : Fin 9 → ℚ) {junkE : List ℚ} (hj : 8 ≤ junkE.length) (old : Rec ℝ) {ref : List Char}
    {eop : List (List Char)} {x1 : ℚ × List ℚ} {xs : List (ℚ × List ℚ)} {rs : List (Rec ℚ)} (hx : Table 1024 8 ref (x1 :: xs))
    (he : Recorded tt dat eop rs) (hr : ∃ r ∈ rs, x1.1 - 2 ≤ r.t ∧ r.t < x1.1 + 2) (hl : ∃ x ∈ xs, x1.1 + 2 ≤ x.1) :
    checkEops tt dat datTT junk junkE old (some ref) (some eop) ≠ .ok 0 := by
  obtain ⟨ser, hprog, hhold, hsort⟩ := check_eops_runs tt dat datTT junk hj old hx he
  obtain ⟨r, m, l⟩ := hr
  obtain ⟨x, mx, lx⟩ := hl
  have hne : (rs.filter fun r => x1.1 - 2 ≤ r.t ∧ r.t < x1.1 + 2) ≠ [] :=
    List.ne_nil_of_mem (List.mem_filter.mpr ⟨m, by simp only [decide_eq_true_eq]; exact l⟩)
  rw [hprog]
  have hout : ∀ r ∈ rs.filter fun r => x1.1 - 2 ≤ r.t ∧ r.t < x1.1 + 2, r.t ≤ Costg.mjdTT x.1 := by
    intro r hr
    have := (List.mem_filter.mp hr).2
    simp only [decide_eq_true_eq] at this
    have hle : x.1 ≤ Costg.mjdTT x.1 := by unfold Costg.mjdTT; norm_num
    linarith [this.2]
  rcases eops_loop_outside datTT hsort hne (x1 :: xs) old hhold ⟨x, List.mem_cons_of_mem _ mx, .inr hout⟩ with h | h
  · rw [h]; simp
  · rw [h]; simp

/-- C99: tcheck_eops takes the first row of the benchmark without a check: if there is none, this is undefined behaviour. -/
theorem check_eops_empty_fails (tt dat : ℚ → ℚ) (datTT : ℝ → ℝ) (junk : Fin 9 → ℚ) (junkE : List ℚ) (old : Rec ℝ) {ref : List Char}
    (hx : Table 1024 8 ref []) (eop : Option (List (List Char))) : checkEops tt dat datTT junk junkE old (some ref) eop = .ub := by
  unfold checkEops
  rw [Costg.parseEops_rows hx]
  rfl

/-- C99: the check is blind to the zonal tides and to everything else below ten seconds: a row that agrees with the Earth orientation to one
second in UT1 and in the length of day is accepted as well if UT1 and the length of day are off by anything less than nine seconds. -/
theorem check_eops_blind_fails {t dat : ℝ} {row : List ℚ} {e : Eops} (h : Accepted t dat row e) (h1 : |((row.getD 3 0 : ℚ) : ℝ) - (e.ut1Tai + dat)| ≤ 1)
    (h2 : |((row.getD 4 0 : ℚ) : ℝ) - e.lod| ≤ 1) {a b : ℝ} (ha : |a| < 9) (hb : |b| < 9) :
    Accepted t dat row { e with ut1Tai := e.ut1Tai + a, lod := e.lod + b } := by
  obtain ⟨k1, k2, k3, -, -, k6, k7, k8⟩ := h
  refine ⟨k1, k2, k3, ?_, ?_, k6, k7, k8⟩
  · rw [abs_lt] at ha ⊢
    rw [abs_le] at h1
    constructor <;> simp only <;> linarith [h1.1, h1.2, ha.1, ha.2]
  · rw [abs_lt] at hb ⊢
    rw [abs_le] at h2
    constructor <;> simp only <;> linarith [h2.1, h2.2, hb.1, hb.2]

/-- The hypotheses are met: two epochs of a day between the records of two days. -/
example (old : Rec ℝ) : ∃ es, List.Forall₂ (fun x e => OrientedAt Costg.exRecs (Costg.mjdTT x.1 : ℚ) e) [Costg.rowOf Costg.dEop1, Costg.rowOf Costg.dEop2] es ∧
    (¬ List.Forall₂ (fun x e => Accepted (Costg.mjdTT x.1 : ℚ) 37 x.2 e) [Costg.rowOf Costg.dEop1, Costg.rowOf Costg.dEop2] es →
      checkEops Costg.exTT (fun _ => 37) (fun _ => 37) (fun _ => 1) (List.replicate 8 2) old (some Costg.exEop) (some Costg.exC04) = .abort) := by
  obtain ⟨es, h1, -, h3⟩ := check_eops_partial Costg.exTT (fun _ => 37) (fun _ => 37) (fun _ => 1) (junkE := List.replicate 8 2) (by simp) old
    Costg.exEop_table Costg.exRecorded (by decide +kernel)
  have hf : (Costg.exRecs.filter fun r => (Costg.rowOf Costg.dEop1).1 - 2 ≤ r.t ∧ r.t < (Costg.rowOf Costg.dEop1).1 + 2) = Costg.exRecs := by
    refine List.filter_eq_self.mpr ?_
    decide +kernel
  rw [hf] at h1
  exact ⟨es, h1, h3⟩

end Verif.Orient
