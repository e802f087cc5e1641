import Verif.Proof.Frames
import Verif.Props.OrientCheck
/-
C99: the programs that transform orbits with the Earth orientation of a file.
-/
namespace Verif.Orient
open Verif Verif.Eop Verif.EarthRot Verif.Angle Verif.Harmonic
open Verif.Costg (Table Recorded epochAt orbitOf three ttOf rb)

/-! ### i2c_astropy -/

theorem mjd_ttOfTai (t : ℚ) : mjd (ttOfTai (epochAt t)) = ((ttTai t : ℚ) : ℝ) := by
  have h : ((⌊t⌋ : ℤ) : ℝ) + ((Int.fract t : ℚ) : ℝ) = (t : ℝ) := by exact_mod_cast Int.floor_add_fract t
  unfold mjd ttOfTai ttTai
  simp only
  rw [Int.floor_add_fract]
  show ((⌊t⌋ : ℤ) : ℝ) + (((Int.fract t * 86400 : ℚ) : ℝ) + 32.184) / 86400 = _
  rw [Rat.cast_mul, Rat.cast_add, ← h]
  push_cast [-Rat.cast_fract]
  ring

/-- The rows of the reference orbit. -/
theorem ref_rows {text : List Char} {rs : List (ℚ × List ℚ)} (h : Table 512 12 text rs) (junk : Fin 13 → ℚ) :
    parseRef junk (some text) = .ok (rs.map fun r => (epochAt r.1, r.2)) := by
  obtain ⟨ls, hl, hlen, hr⟩ := h.lines
  obtain ⟨f, hf, -⟩ := Costg.rows_lines (junk := List.ofFn junk) (by simp) (by decide) hr text hl hlen h.dates
  unfold parseRef In.start
  simp only [hf]
  rfl

/-- The assertions of an epoch hold if and only if the celestial position and velocity agree with the row. -/
theorem refOk_iff (row : List ℚ) {q q1 p : Quat} {dM : M3} {lod : ℝ} (h1 : q.mat = p.mat * q1.mat)
    (h2 : ∀ w : V3, dM.transpose * w = q1.mat.transpose * V3.cross (axis lod) (p.mat.transpose * w)) :
    refOk row q q (q1, p, axis lod) (q, dM) ↔
      Agrees row (q.mat.transpose * three row 0, q.mat.transpose * three row 3 + dM.transpose * three row 0) := by
  have e1 : q1.mat.transpose * (p.mat.transpose * three row 0) = q.mat.transpose * three row 0 := by
    rw [h1, M3.transpose_mul, M3.mulVec_mul]
  have e2 : q1.mat.transpose * (p.mat.transpose * three row 3 + V3.cross (axis lod) (p.mat.transpose * three row 0)) =
      q.mat.transpose * three row 3 + dM.transpose * three row 0 := by
    rw [mulVec_add, h2, h1, M3.transpose_mul, M3.mulVec_mul]
  have v : ∀ i, Costg.vec row i = three row i := fun _ => rfl
  unfold refOk Agrees
  simp only [v, conj_mat, e1, e2]
  constructor
  · rintro ⟨a, -, -, b, -, -⟩
    exact ⟨a, b⟩
  · rintro ⟨a, b⟩
    exact ⟨a, a, a, b, a, b⟩

/-- The corrections of the CIP are below a degree, as in every file of Earth orientation. -/
def Small (recs : List (Rec ℚ)) (t : ℝ) : Prop := |centuries t| ≤ 10 ∧ ∀ e, OrientedAt recs t e → |e.dX| ≤ 3600 ∧ |e.dY| ≤ 3600

/-- One row inside the records. -/
theorem ref_step (dat : ℝ → ℝ) {recs : List (Rec ℚ)} (hs : Sorted recs) (x : ℚ × List ℚ) (xs : List (ℚ × List ℚ)) {s : Series ℝ} (old : Rec ℝ)
    (hh : Holding recs s) (h1 : ∃ r ∈ recs, r.t ≤ ttTai x.1) (h2 : ∃ r ∈ recs, ttTai x.1 < r.t) (hsm : Small recs (ttTai x.1 : ℚ)) :
    ∃ s' S, (∃ e, OrientedAt recs (ttTai x.1 : ℚ) e ∧ ToCelestial (ttTai x.1 : ℚ) e (three x.2 0) (three x.2 3) S.1 S.2) ∧ Holding recs s' ∧
      (Agrees x.2 S → refLoop dat old s ((x :: xs).map fun r => (epochAt r.1, r.2)) = refLoop dat old s' (xs.map fun r => (epochAt r.1, r.2))) ∧
      (¬ Agrees x.2 S → refLoop dat old s ((x :: xs).map fun r => (epochAt r.1, r.2)) = .abort) := by
  obtain ⟨r1, m1, l1⟩ := h1
  obtain ⟨r2, m2, l2⟩ := h2
  set tt := ttOfTai (epochAt x.1) with htt
  have ht : mjd tt = ((ttTai x.1 : ℚ) : ℝ) := mjd_ttOfTai x.1
  obtain ⟨s', e, q1, q2, q3⟩ := oriented_at dat hs hh tt old ⟨r1, m1, by rw [ht]; exact_mod_cast l1⟩ ⟨r2, m2, by rw [ht]; exact_mod_cast l2⟩
  rw [← ht] at hsm ⊢
  obtain ⟨hX, hY⟩ := hsm.2 _ q3
  obtain ⟨q, qa, p, dM, N, c1, c2, c3, c4, c5, c6, c7, c8, c9, c10, -⟩ := transforms dat tt e hsm.1 hX hY
  have hstep : refLoop dat old s ((x :: xs).map fun r => (epochAt r.1, r.2)) =
      open Classical in if refOk x.2 q q (qa, p, axis e.lod) (q, dM) then refLoop dat old s' (xs.map fun r => (epochAt r.1, r.2)) else .abort := by
    rw [List.map_cons, refLoop]
    simp only [← htt, q1, Res.bind]
    rw [if_neg (by simp)]
    simp only [c1, c2, c3, c4]
  have hiff := refOk_iff x.2 (lod := e.lod) c9 c10
  refine ⟨s', (q.mat.transpose * three x.2 0, q.mat.transpose * three x.2 3 + dM.transpose * three x.2 0), ⟨_, q3, N, c5, ?_, ?_⟩, q2,
    fun h => ?_, fun h => ?_⟩
  · rw [c6]; rfl
  · rw [c6]
    exact (moves_frame c8 _ _).1
  · rw [hstep, if_pos (hiff.mpr h)]
  · rw [hstep, if_neg (mt hiff.mp h)]

theorem ref_loop (dat : ℝ → ℝ) {recs : List (Rec ℚ)} (hs : Sorted recs) (old : Rec ℝ) : ∀ (xs : List (ℚ × List ℚ)) {s : Series ℝ}, Holding recs s →
    (∀ x ∈ xs, (∃ r ∈ recs, r.t ≤ ttTai x.1) ∧ ∃ r ∈ recs, ttTai x.1 < r.t) → (∀ x ∈ xs, Small recs (ttTai x.1 : ℚ)) →
    ∃ Ss, List.Forall₂ (fun x S => ∃ e, OrientedAt recs (ttTai x.1 : ℚ) e ∧ ToCelestial (ttTai x.1 : ℚ) e (three x.2 0) (three x.2 3) S.1 S.2) xs Ss ∧
      (List.Forall₂ (fun x S => Agrees x.2 S) xs Ss → refLoop dat old s (xs.map fun r => (epochAt r.1, r.2)) = .ok 0) ∧
      (¬ List.Forall₂ (fun x S => Agrees x.2 S) xs Ss → refLoop dat old s (xs.map fun r => (epochAt r.1, r.2)) = .abort)
  | [], _, _, _, _ => ⟨[], .nil, fun _ => rfl, fun h => absurd .nil h⟩
  | x :: xs, s, hh, hb, hsm => by
    obtain ⟨s', S, q3, q2, k1, k2⟩ := ref_step dat hs x xs old hh (hb x (by simp)).1 (hb x (by simp)).2 (hsm x (by simp))
    obtain ⟨Ss, p1, p2, p3⟩ := ref_loop dat hs old xs (s := s') q2 (fun y hy => hb y (by simp [hy])) fun y hy => hsm y (by simp [hy])
    refine ⟨S :: Ss, .cons q3 p1, ?_, ?_⟩
    · intro h
      cases h with
      | cons h1 h2 => rw [k1 h1]; exact p2 h2
    · intro h
      by_cases h1 : Agrees x.2 S
      · rw [k1 h1]
        exact p3 fun h2 => h (.cons h1 h2)
      · exact k2 h1

theorem epochAt_days (t : ℚ) : ((epochAt t).1 : ℚ) + (epochAt t).2 / 86400 = t := by
  show ((⌊t⌋ : ℤ) : ℚ) + Int.fract t * 86400 / 86400 = t
  have := Int.floor_add_fract t
  linarith

/-- The program runs the loop on the records from two days before the first to two days after the last row. -/
theorem check_ref_runs (tt dat : ℚ → ℚ) (datTT : ℝ → ℝ) (junk : Fin 13 → ℚ) {junkE : List ℚ} (hj : 8 ≤ junkE.length) (old : Rec ℝ) {ref : List Char}
    {eop : List (List Char)} {xs : List (ℚ × List ℚ)} {x1 xn : ℚ × List ℚ} {rs : List (Rec ℚ)} (hx : Table 512 12 ref xs) (h1 : xs.head? = some x1)
    (hn : xs.getLast? = some xn) (hle : x1.1 ≤ xn.1) (he : Recorded tt dat eop rs) :
    ∃ ser, checkRef tt dat datTT junk junkE old (some ref) (some eop) = refLoop datTT old ser (xs.map fun r => (epochAt r.1, r.2)) ∧
      Holding (rs.filter fun r => x1.1 - 2 ≤ r.t ∧ r.t < xn.1 + 2) ser ∧ Sorted (rs.filter fun r => x1.1 - 2 ≤ r.t ∧ r.t < xn.1 + 2) := by
  obtain ⟨ser, e1, e2, e3⟩ := series_of tt dat hj he (a := x1.1 - 2) (b := xn.1 + 2) (by linarith)
  refine ⟨ser, ?_, e2, e3⟩
  obtain ⟨ys, rfl⟩ : ∃ ys, xs = x1 :: ys := by
    cases xs with
    | nil => simp at h1
    | cons y ys => simp only [List.head?_cons, Option.some.injEq] at h1; exact ⟨ys, by rw [h1]⟩
  have hl : ((x1 :: ys).map fun r => (epochAt r.1, r.2)).getLast? = some (epochAt xn.1, xn.2) := by
    rw [List.getLast?_map, hn]; rfl
  unfold checkRef
  rw [ref_rows hx]
  simp only [rb]
  rw [hl]
  simp only [List.map_cons, epochAt_days, e1]
  rfl

/-- C99: from the files to the exit status of i2c_astropy. If the epochs of the reference orbit lie between records of the file that are within two days
of the orbit, the program succeeds if every row agrees, to 9 cm and 0.09 mm/s, with the celestial position and velocity of the Conventions for the
Earth orientation of the file, and stops at a failed assertion otherwise. -/
theorem check_ref_partial (tt dat : ℚ → ℚ) (datTT : ℝ → ℝ) (junk : Fin 13 → ℚ) {junkE : List ℚ} (hj : 8 ≤ junkE.length) (old : Rec ℝ) {ref : List Char}
    {eop : List (List Char)} {xs : List (ℚ × List ℚ)} {x1 xn : ℚ × List ℚ} {rs : List (Rec ℚ)} (hx : Table 512 12 ref xs) (h1 : xs.head? = some x1)
    (hn : xs.getLast? = some xn) (hle : x1.1 ≤ xn.1) (he : Recorded tt dat eop rs)
    (hc : ∀ x ∈ xs, (∃ r ∈ rs, x1.1 - 2 ≤ r.t ∧ r.t < xn.1 + 2 ∧ r.t ≤ ttTai x.1) ∧ ∃ r ∈ rs, x1.1 - 2 ≤ r.t ∧ r.t < xn.1 + 2 ∧ ttTai x.1 < r.t)
    (hsm : ∀ x ∈ xs, Small (rs.filter fun r => x1.1 - 2 ≤ r.t ∧ r.t < xn.1 + 2) (ttTai x.1 : ℚ)) :
    ∃ Ss, List.Forall₂ (fun x S => ∃ e, OrientedAt (rs.filter fun r => x1.1 - 2 ≤ r.t ∧ r.t < xn.1 + 2) (ttTai x.1 : ℚ) e ∧
        ToCelestial (ttTai x.1 : ℚ) e (three x.2 0) (three x.2 3) S.1 S.2) xs Ss ∧
      (List.Forall₂ (fun x S => Agrees x.2 S) xs Ss → checkRef tt dat datTT junk junkE old (some ref) (some eop) = .ok 0) ∧
      (¬ List.Forall₂ (fun x S => Agrees x.2 S) xs Ss → checkRef tt dat datTT junk junkE old (some ref) (some eop) = .abort) := by
  obtain ⟨ser, hprog, hhold, hsort⟩ := check_ref_runs tt dat datTT junk hj old hx h1 hn hle he
  rw [hprog]
  refine ref_loop datTT hsort old xs hhold (fun x hx' => ?_) hsm
  obtain ⟨⟨r, m, l1, l2, l3⟩, r', m', l1', l2', l3'⟩ := hc x hx'
  refine ⟨⟨r, ?_, l3⟩, r', ?_, l3'⟩
  · rw [List.mem_filter]
    exact ⟨m, by simp only [decide_eq_true_eq]; exact ⟨l1, l2⟩⟩
  · rw [List.mem_filter]
    exact ⟨m', by simp only [decide_eq_true_eq]; exact ⟨l1', l2'⟩⟩

/-- Success of the loop, whatever the corrections of the CIP are. -/
theorem ref_loop_sound (dat : ℝ → ℝ) {recs : List (Rec ℚ)} (hs : Sorted recs) (hne : recs ≠ []) (old : Rec ℝ) : ∀ (xs : List (ℚ × List ℚ)) {s : Series ℝ},
    Holding recs s → refLoop dat old s (xs.map fun r => (epochAt r.1, r.2)) = .ok 0 →
    ∀ x ∈ xs, ((∃ r ∈ recs, r.t ≤ ttTai x.1) ∧ ∃ r ∈ recs, ttTai x.1 < r.t) ∧
      ∃ M : M3, IsRotation M ∧ near 9e-2 (M.transpose * three x.2 0) (three x.2 6)
  | [], _, _, _ => by simp
  | x :: xs, s, hh, h => by
    set tt := ttOfTai (epochAt x.1) with htt
    have ht : mjd tt = ((ttTai x.1 : ℚ) : ℝ) := mjd_ttOfTai x.1
    rw [List.map_cons, refLoop] at h
    by_cases hx : (∀ r ∈ recs, ttTai x.1 < r.t) ∨ ∀ r ∈ recs, r.t ≤ ttTai x.1
    · obtain ⟨s', e, -, q, -⟩ := oriented_outside dat hs hne hh tt old (by
        rw [ht]
        exact hx.imp (fun h r m => (Rat.cast_lt (K := ℝ)).mpr (h r m)) fun h r m => (Rat.cast_le (K := ℝ)).mpr (h r m))
      simp only [← htt, q, Res.bind] at h
      simp at h
    · obtain ⟨n1, n2⟩ := not_or.mp hx
      push Not at n1 n2
      obtain ⟨r1, m1, l1⟩ := n1
      obtain ⟨r2, m2, l2⟩ := n2
      obtain ⟨s', e, q1, q2, q3⟩ := oriented_at dat hs hh tt old ⟨r1, m1, by rw [ht]; exact_mod_cast l1⟩ ⟨r2, m2, by rw [ht]; exact_mod_cast l2⟩
      simp only [← htt, q1, Res.bind] at h
      rw [if_neg (by simp)] at h
      unfold c2i06aAt c2i06aBzAt c2i06aPQAt c2i06aDAt at h
      rw [argsAt_ok] at h
      simp only [Res.bind] at h
      split at h
      · rename_i p1 p2 p3 p4 w1 w2 w3 w4
        split at h
        · rename_i hok
          intro y hy
          rcases List.mem_cons.mp hy with rfl | hy
          · refine ⟨⟨⟨r1, m1, l1⟩, r2, m2, l2⟩, p1.mat, (rotations _).1 p1 w1, ?_⟩
            have := hok.1
            rwa [conj_mat] at this
          · exact ref_loop_sound dat hs hne old xs q2 h y hy
        · cases h
      · cases h

/-- C99: whatever the files hold, the program succeeds only if every row of the reference orbit lies between records of the file and its two positions
differ by a rotation, to 9 cm in every component. -/
theorem check_ref_success (tt dat : ℚ → ℚ) (datTT : ℝ → ℝ) (junk : Fin 13 → ℚ) {junkE : List ℚ} (hj : 8 ≤ junkE.length) (old : Rec ℝ) {ref : List Char}
    {eop : List (List Char)} {xs : List (ℚ × List ℚ)} {x1 xn : ℚ × List ℚ} {rs : List (Rec ℚ)} (hx : Table 512 12 ref xs) (h1 : xs.head? = some x1)
    (hn : xs.getLast? = some xn) (hle : x1.1 ≤ xn.1) (he : Recorded tt dat eop rs) (hne : ∃ r ∈ rs, x1.1 - 2 ≤ r.t ∧ r.t < xn.1 + 2)
    (h : checkRef tt dat datTT junk junkE old (some ref) (some eop) = .ok 0) :
    ∀ x ∈ xs, (∃ r ∈ rs, r.t ≤ ttTai x.1) ∧ (∃ r ∈ rs, ttTai x.1 < r.t) ∧
      ∃ M : M3, IsRotation M ∧ let p := M.transpose * three x.2 0
        |p.x - (three x.2 6).x| < 0.09 ∧ |p.y - (three x.2 6).y| < 0.09 ∧ |p.z - (three x.2 6).z| < 0.09 := by
  obtain ⟨ser, hprog, hhold, hsort⟩ := check_ref_runs tt dat datTT junk hj old hx h1 hn hle he
  rw [hprog] at h
  intro x hx'
  obtain ⟨r0, m0, l0⟩ := hne
  obtain ⟨⟨⟨r, m, l⟩, r', m', l'⟩, M, hM, hnear⟩ := ref_loop_sound datTT hsort (List.ne_nil_of_mem (a := r0) (List.mem_filter.mpr ⟨m0, by simpa using l0⟩))
    old xs hhold h x hx'
  have e : (9e-2 : ℝ) = 0.09 := by norm_num
  unfold near at hnear
  rw [e] at hnear
  exact ⟨⟨r, (List.mem_filter.mp m).1, l⟩, ⟨r', (List.mem_filter.mp m').1, l'⟩, M, hM, hnear⟩

/-- C99: a first row outside the records within two days of the orbit: exit status 1. -/
theorem check_ref_outside (tt dat : ℚ → ℚ) (datTT : ℝ → ℝ) (junk : Fin 13 → ℚ) {junkE : List ℚ} (hj : 8 ≤ junkE.length) (old : Rec ℝ) {ref : List Char}
    {eop : List (List Char)} {xs : List (ℚ × List ℚ)} {x1 xn : ℚ × List ℚ} {rs : List (Rec ℚ)} (hx : Table 512 12 ref xs) (h1 : xs.head? = some x1)
    (hn : xs.getLast? = some xn) (hle : x1.1 ≤ xn.1) (he : Recorded tt dat eop rs) (hne : ∃ r ∈ rs, x1.1 - 2 ≤ r.t ∧ r.t < xn.1 + 2)
    (ho : (∀ r ∈ rs, x1.1 - 2 ≤ r.t → ttTai x1.1 < r.t) ∨ ∀ r ∈ rs, r.t < xn.1 + 2 → r.t ≤ ttTai x1.1) :
    checkRef tt dat datTT junk junkE old (some ref) (some eop) = .ok 1 := by
  obtain ⟨ser, hprog, hhold, hsort⟩ := check_ref_runs tt dat datTT junk hj old hx h1 hn hle he
  rw [hprog]
  obtain ⟨ys, rfl⟩ : ∃ ys, xs = x1 :: ys := by
    cases xs with
    | nil => simp at h1
    | cons y ys => simp only [List.head?_cons, Option.some.injEq] at h1; exact ⟨ys, by rw [h1]⟩
  set t1 := ttOfTai (epochAt x1.1) with htt
  have ht : mjd t1 = ((ttTai x1.1 : ℚ) : ℝ) := mjd_ttOfTai x1.1
  obtain ⟨r0, m0, l0⟩ := hne
  have mem : ∀ r, r ∈ (rs.filter fun r => x1.1 - 2 ≤ r.t ∧ r.t < xn.1 + 2) → r ∈ rs ∧ x1.1 - 2 ≤ r.t ∧ r.t < xn.1 + 2 := fun r m => by
    have := List.mem_filter.mp m
    simpa using this
  obtain ⟨s', e, -, q, -⟩ := oriented_outside datTT hsort (List.ne_nil_of_mem (a := r0) (List.mem_filter.mpr ⟨m0, by simpa using l0⟩)) hhold t1 old (by
    rw [ht]
    exact ho.imp (fun h r m => (Rat.cast_lt (K := ℝ)).mpr (h r (mem r m).1 (mem r m).2.1)) fun h r m => (Rat.cast_le (K := ℝ)).mpr (h r (mem r m).1 (mem r m).2.2))
  rw [List.map_cons, refLoop]
  simp only [← htt, q, Res.bind]
  rfl

/-- C99: no rows, or a file that cannot be opened: exit status 9. -/
theorem check_ref_none (tt dat : ℚ → ℚ) (datTT : ℝ → ℝ) (junk : Fin 13 → ℚ) (junkE : List ℚ) (old : Rec ℝ) {ref : List Char}
    (eop : Option (List (List Char))) (hx : Table 512 12 ref []) :
    checkRef tt dat datTT junk junkE old none eop = .ok 9 ∧ checkRef tt dat datTT junk junkE old (some ref) eop = .ok 9 := by
  refine ⟨rfl, ?_⟩
  unfold checkRef
  rw [ref_rows hx]
  rfl

/-! ### check_c2i -/

/-- A line printed for an epoch: the positions and accelerations are those of the Conventions for UT1 and the length of day WITHOUT zonal tides. -/
def Shown (recs : List (Rec ℚ)) (c t : ℚ × List ℚ) (d : Diff) : Prop :=
  ∃ e M, OrientedAt recs (Costg.mjdTT c.1 : ℚ) e ∧
    let T := centuries (Costg.mjdTT c.1 : ℚ)
    Frame (Costg.mjdTT c.1 : ℚ) { e with ut1Tai := e.ut1Tai - zonalUT1 T, lod := e.lod - zonalLod T } M ∧
      d.dP = (M 0).transpose * three c.2 0 - three t.2 0 ∧ d.dA = (M 0).transpose * three c.2 6 - three t.2 6 ∧
      d.dV = (M 0).transpose * three c.2 3 + V3.cross ⟨0, 0, earthRate (e.lod - zonalLod T)⟩ ((M 0).transpose * three c.2 0) - three t.2 3

/-- One epoch. -/
theorem c2i_step (dat : ℝ → ℝ) {recs : List (Rec ℚ)} (hs : Sorted recs) (c : ℚ × List ℚ) (cs : List (ℚ × List ℚ)) {s : Series ℝ} (old : Rec ℝ)
    (hh : Holding recs s) (h1 : ∃ r ∈ recs, r.t ≤ Costg.mjdTT c.1) (h2 : ∃ r ∈ recs, Costg.mjdTT c.1 < r.t) (hsm : Small recs (Costg.mjdTT c.1 : ℚ)) :
    ∃ s', Holding recs s' ∧ c2iLoop dat old s ((c :: cs).map orbitOf) [] = .ub ∧
      ∀ t ts, (epochAt t.1 ≠ epochAt c.1 → c2iLoop dat old s ((c :: cs).map orbitOf) ((t :: ts).map orbitOf) = .ok (1, [])) ∧
      (epochAt t.1 = epochAt c.1 → ∃ d, Shown recs c t d ∧ c2iLoop dat old s ((c :: cs).map orbitOf) ((t :: ts).map orbitOf) =
        (c2iLoop dat old s' (cs.map orbitOf) (ts.map orbitOf)).bind fun (k, ls) => .ok (k, some d :: ls)) := by
  obtain ⟨r1, m1, l1⟩ := h1
  obtain ⟨r2, m2, l2⟩ := h2
  set tt := ttOf (epochAt c.1) with htt
  have ht : mjd tt = ((Costg.mjdTT c.1 : ℚ) : ℝ) := mjd_ttOf c.1
  obtain ⟨s', e, q1, q2, q3⟩ := interpolated_at dat hs hh tt old ⟨r1, m1, by rw [ht]; exact_mod_cast l1⟩ ⟨r2, m2, by rw [ht]; exact_mod_cast l2⟩
  rw [← ht] at hsm
  obtain ⟨hX, hY⟩ := hsm.2 _ q3
  obtain ⟨q, qa, p, dM, N, b1, b2, b3, b4, b5, b6, -⟩ := transforms dat tt e hsm.1 hX hY
  refine ⟨s', q2, ?_, fun t ts => ⟨fun h => ?_, fun h => ?_⟩⟩
  · rw [List.map_cons, c2iLoop]
    have hep : ttOf (orbitOf c).epoch = tt := rfl
    simp only [hep, q1, b1, Res.bind]
    rfl
  · rw [List.map_cons, List.map_cons, c2iLoop]
    have hep : ttOf (orbitOf c).epoch = tt := rfl
    simp only [hep, q1, b1, Res.bind]
    rw [if_neg (by simp), if_pos (show (orbitOf t).epoch ≠ (orbitOf c).epoch from h)]
  · refine ⟨diffOf q e.lod (orbitOf c) (orbitOf t), ?_, ?_⟩
    · refine ⟨_, N, by rw [← ht]; exact q3, ?_⟩
      simp only [← ht]
      refine ⟨?_, ?_, ?_, ?_⟩
      · simpa only [add_sub_cancel_right] using b5
      · rw [← b6]; rfl
      · rw [← b6]; rfl
      · rw [← b6, add_sub_cancel_right]; rfl
    · rw [List.map_cons, List.map_cons, c2iLoop]
      have hep : ttOf (orbitOf c).epoch = tt := rfl
      simp only [hep, q1, b1, Res.bind]
      rw [if_neg (by simp), if_neg (show ¬ (orbitOf t).epoch ≠ (orbitOf c).epoch from not_not.mpr h)]
      rfl

/-- The loop over epochs that the terrestrial orbit has as well. -/
theorem c2i_loop (dat : ℝ → ℝ) {recs : List (Rec ℚ)} (hs : Sorted recs) (old : Rec ℝ) : ∀ (cs ts : List (ℚ × List ℚ)) {s : Series ℝ}, Holding recs s →
    (∀ c ∈ cs, (∃ r ∈ recs, r.t ≤ Costg.mjdTT c.1) ∧ ∃ r ∈ recs, Costg.mjdTT c.1 < r.t) → (∀ c ∈ cs, Small recs (Costg.mjdTT c.1 : ℚ)) →
    cs.map (·.1) <+: ts.map (·.1) → ∃ ds : List Diff, c2iLoop dat old s (cs.map orbitOf) (ts.map orbitOf) = .ok (0, ds.map some) ∧ ds.length = cs.length ∧
      ∀ (i : Nat) c t d, cs[i]? = some c → ts[i]? = some t → ds[i]? = some d → Shown recs c t d
  | [], ts, s, _, _, _, _ => ⟨[], by rw [List.map_nil, c2iLoop]; rfl, rfl, by simp⟩
  | c :: cs, [], _, _, _, _, hp => by simp at hp
  | c :: cs, t :: ts, s, hh, hb, hsm, hp => by
    rw [List.map_cons, List.map_cons, List.cons_prefix_cons] at hp
    obtain ⟨s', q2, -, q4⟩ := c2i_step dat hs c cs old hh (hb c (by simp)).1 (hb c (by simp)).2 (hsm c (by simp))
    obtain ⟨d, hd, e1⟩ := (q4 t ts).2 (by rw [hp.1])
    obtain ⟨ds, p1, p2, p3⟩ := c2i_loop dat hs old cs ts (s := s') q2 (fun y hy => hb y (by simp [hy])) (fun y hy => hsm y (by simp [hy])) hp.2
    refine ⟨d :: ds, by rw [e1, p1]; rfl, by simp [p2], ?_⟩
    intro i c' t' d' h1 h2 h3
    cases i with
    | zero =>
      simp only [List.getElem?_cons_zero, Option.some.injEq] at h1 h2 h3
      subst h1 h2 h3
      exact hd
    | succ i =>
      simp only [List.getElem?_cons_succ] at h1 h2 h3
      exact p3 i c' t' d' h1 h2 h3

/-- The loop comes to an epoch that the terrestrial orbit does not have: undefined behaviour at its end, exit status 1 at another epoch. -/
theorem c2i_loop_stops (dat : ℝ → ℝ) {recs : List (Rec ℚ)} (hs : Sorted recs) (old : Rec ℝ) (c : ℚ × List ℚ) (cs' ts' : List (ℚ × List ℚ)) :
    ∀ (cs ts : List (ℚ × List ℚ)) {s : Series ℝ}, Holding recs s →
    (∀ x ∈ cs ++ [c], (∃ r ∈ recs, r.t ≤ Costg.mjdTT x.1) ∧ ∃ r ∈ recs, Costg.mjdTT x.1 < r.t) → (∀ x ∈ cs ++ [c], Small recs (Costg.mjdTT x.1 : ℚ)) →
    cs.map (·.1) = ts.map (·.1) →
    (ts' = [] → c2iLoop dat old s ((cs ++ c :: cs').map orbitOf) ((ts ++ ts').map orbitOf) = .ub) ∧
    ((∃ t, ts'.head? = some t ∧ epochAt t.1 ≠ epochAt c.1) →
      ∃ ls, c2iLoop dat old s ((cs ++ c :: cs').map orbitOf) ((ts ++ ts').map orbitOf) = .ok (1, ls))
  | [], ts, s, hh, hb, hsm, hp => by
    have hts : ts = [] := by simpa using hp.symm
    subst hts
    obtain ⟨s', -, q3, q4⟩ := c2i_step dat hs c cs' old hh (hb c (by simp)).1 (hb c (by simp)).2 (hsm c (by simp))
    refine ⟨fun h => by subst h; exact q3, ?_⟩
    rintro ⟨t, ht, hne⟩
    cases ts' with
    | nil => simp at ht
    | cons t' ts' =>
      simp only [List.head?_cons, Option.some.injEq] at ht
      subst ht
      exact ⟨[], (q4 t' ts').1 hne⟩
  | x :: cs, [], _, _, _, _, hp => by simp at hp
  | x :: cs, t :: ts, s, hh, hb, hsm, hp => by
    simp only [List.map_cons, List.cons.injEq] at hp
    obtain ⟨s', q2, -, q4⟩ := c2i_step dat hs x (cs ++ c :: cs') old hh (hb x (by simp)).1 (hb x (by simp)).2 (hsm x (by simp))
    obtain ⟨d, -, e1⟩ := (q4 t (ts ++ ts')).2 (by rw [hp.1])
    obtain ⟨p1, p2⟩ := c2i_loop_stops dat hs old c cs' ts' cs ts (s := s') q2 (fun y hy => hb y (by simp only [List.cons_append, List.mem_cons]; exact .inr hy))
      (fun y hy => hsm y (by simp only [List.cons_append, List.mem_cons]; exact .inr hy)) hp.2
    refine ⟨fun h => ?_, fun h => ?_⟩
    · rw [List.cons_append, List.cons_append, e1, p1 h]
      rfl
    · obtain ⟨ls, h2⟩ := p2 h
      exact ⟨some d :: ls, by rw [List.cons_append, List.cons_append, e1, h2]; rfl⟩

/-- The program runs the loop on the records within two days of the first epoch of the terrestrial orbit. -/
theorem check_c2i_runs (tt dat : ℚ → ℚ) (datTT : ℝ → ℝ) (junkT junkC : Fin 10 → ℚ) {junkE : List ℚ} (hj : 8 ≤ junkE.length) (old : Rec ℝ)
    {torb corb : List Char} {eop : List (List Char)} {t1 : ℚ × List ℚ} {ts cs : List (ℚ × List ℚ)} {rs : List (Rec ℚ)} (ht : Table 512 9 torb (t1 :: ts))
    (hc : Table 512 9 corb cs) (he : Recorded tt dat eop rs) :
    ∃ ser, checkC2i tt dat datTT junkT junkC junkE old (some torb) (some corb) (some eop) =
        c2iLoop datTT old ser (cs.map orbitOf) ((t1 :: ts).map orbitOf) ∧
      Holding (rs.filter fun r => t1.1 - 2 ≤ r.t ∧ r.t < t1.1 + 2) ser ∧ Sorted (rs.filter fun r => t1.1 - 2 ≤ r.t ∧ r.t < t1.1 + 2) := by
  obtain ⟨ser, e1, e2, e3⟩ := series_of tt dat hj he (a := t1.1 - 2) (b := t1.1 + 2) (by linarith)
  refine ⟨ser, ?_, e2, e3⟩
  unfold checkC2i
  rw [Costg.bench_orbit ht, Costg.bench_orbit hc]
  simp only [rb, List.map_cons, epochAt_days, e1]
  rfl

/-- C99: check_c2i prints a line for every epoch of the celestial orbit. The positions and accelerations are transformed with the rotation of the
Conventions, but for UT1 and a length of day from which the zonal tides were removed and not restored. -/
theorem check_c2i_partial (tt dat : ℚ → ℚ) (datTT : ℝ → ℝ) (junkT junkC : Fin 10 → ℚ) {junkE : List ℚ} (hj : 8 ≤ junkE.length) (old : Rec ℝ)
    {torb corb : List Char} {eop : List (List Char)} {t1 : ℚ × List ℚ} {ts cs : List (ℚ × List ℚ)} {rs : List (Rec ℚ)} (ht : Table 512 9 torb (t1 :: ts))
    (hc : Table 512 9 corb cs) (he : Recorded tt dat eop rs) (hp : cs.map (·.1) <+: (t1 :: ts).map (·.1))
    (hin : ∀ c ∈ cs, (∃ r ∈ rs.filter fun r => t1.1 - 2 ≤ r.t ∧ r.t < t1.1 + 2, r.t ≤ Costg.mjdTT c.1) ∧
      ∃ r ∈ rs.filter fun r => t1.1 - 2 ≤ r.t ∧ r.t < t1.1 + 2, Costg.mjdTT c.1 < r.t)
    (hsm : ∀ c ∈ cs, Small (rs.filter fun r => t1.1 - 2 ≤ r.t ∧ r.t < t1.1 + 2) (Costg.mjdTT c.1 : ℚ)) :
    ∃ ds : List Diff, checkC2i tt dat datTT junkT junkC junkE old (some torb) (some corb) (some eop) = .ok (0, ds.map some) ∧ ds.length = cs.length ∧
      ∀ (i : Nat) c t d, cs[i]? = some c → (t1 :: ts)[i]? = some t → ds[i]? = some d →
        Shown (rs.filter fun r => t1.1 - 2 ≤ r.t ∧ r.t < t1.1 + 2) c t d := by
  obtain ⟨ser, hprog, hhold, hsort⟩ := check_c2i_runs tt dat datTT junkT junkC hj old ht hc he
  rw [hprog]
  exact c2i_loop datTT hsort old cs (t1 :: ts) hhold hin hsm hp

/-- C99: check_c2i does not compare the iterator of the terrestrial orbit with its end: if the celestial orbit has more epochs, this is undefined
behaviour. -/
theorem check_c2i_short_fails (tt dat : ℚ → ℚ) (datTT : ℝ → ℝ) (junkT junkC : Fin 10 → ℚ) {junkE : List ℚ} (hj : 8 ≤ junkE.length) (old : Rec ℝ)
    {torb corb : List Char} {eop : List (List Char)} {t1 : ℚ × List ℚ} {ts cs cs' : List (ℚ × List ℚ)} {c : ℚ × List ℚ} {rs : List (Rec ℚ)}
    (ht : Table 512 9 torb (t1 :: ts)) (hc : Table 512 9 corb (cs ++ c :: cs')) (he : Recorded tt dat eop rs) (hp : cs.map (·.1) = (t1 :: ts).map (·.1))
    (hin : ∀ x ∈ cs ++ [c], (∃ r ∈ rs.filter fun r => t1.1 - 2 ≤ r.t ∧ r.t < t1.1 + 2, r.t ≤ Costg.mjdTT x.1) ∧
      ∃ r ∈ rs.filter fun r => t1.1 - 2 ≤ r.t ∧ r.t < t1.1 + 2, Costg.mjdTT x.1 < r.t)
    (hsm : ∀ x ∈ cs ++ [c], Small (rs.filter fun r => t1.1 - 2 ≤ r.t ∧ r.t < t1.1 + 2) (Costg.mjdTT x.1 : ℚ)) :
    checkC2i tt dat datTT junkT junkC junkE old (some torb) (some corb) (some eop) = .ub := by
  obtain ⟨ser, hprog, hhold, hsort⟩ := check_c2i_runs tt dat datTT junkT junkC hj old ht hc he
  rw [hprog]
  have := (c2i_loop_stops datTT hsort old c cs' [] cs (t1 :: ts) hhold hin hsm hp).1 rfl
  rwa [List.append_nil] at this

/-- C99: an epoch that differs is found: exit status 1. -/
theorem check_c2i_mismatch (tt dat : ℚ → ℚ) (datTT : ℝ → ℝ) (junkT junkC : Fin 10 → ℚ) {junkE : List ℚ} (hj : 8 ≤ junkE.length) (old : Rec ℝ)
    {torb corb : List Char} {eop : List (List Char)} {t1 t : ℚ × List ℚ} {ts ts' cs cs' : List (ℚ × List ℚ)} {c : ℚ × List ℚ} {rs : List (Rec ℚ)}
    (ht : Table 512 9 torb (ts ++ t :: ts')) (h1 : (ts ++ t :: ts').head? = some t1) (hc : Table 512 9 corb (cs ++ c :: cs')) (he : Recorded tt dat eop rs)
    (hp : cs.map (·.1) = ts.map (·.1)) (hne : t.1 ≠ c.1)
    (hin : ∀ x ∈ cs ++ [c], (∃ r ∈ rs.filter fun r => t1.1 - 2 ≤ r.t ∧ r.t < t1.1 + 2, r.t ≤ Costg.mjdTT x.1) ∧
      ∃ r ∈ rs.filter fun r => t1.1 - 2 ≤ r.t ∧ r.t < t1.1 + 2, Costg.mjdTT x.1 < r.t)
    (hsm : ∀ x ∈ cs ++ [c], Small (rs.filter fun r => t1.1 - 2 ≤ r.t ∧ r.t < t1.1 + 2) (Costg.mjdTT x.1 : ℚ)) :
    ∃ ls, checkC2i tt dat datTT junkT junkC junkE old (some torb) (some corb) (some eop) = .ok (1, ls) := by
  obtain ⟨us, hu⟩ : ∃ us, ts ++ t :: ts' = t1 :: us := by
    cases h : ts ++ t :: ts' with
    | nil => rw [h] at h1; simp at h1
    | cons a l => rw [h] at h1; simp only [List.head?_cons, Option.some.injEq] at h1; exact ⟨l, by rw [h1]⟩
  rw [hu] at ht
  obtain ⟨ser, hprog, hhold, hsort⟩ := check_c2i_runs tt dat datTT junkT junkC hj old ht hc he
  rw [hprog, ← hu]
  refine (c2i_loop_stops datTT hsort old c cs' (t :: ts') cs ts hhold hin hsm hp).2 ⟨t, rfl, fun h => hne ?_⟩
  have := epochAt_days t.1
  rw [h, epochAt_days] at this
  exact this.symm

/-- Success of the loop, whatever the corrections of the CIP are. -/
theorem c2i_loop_sound (dat : ℝ → ℝ) {recs : List (Rec ℚ)} (hs : Sorted recs) (hne : recs ≠ []) (old : Rec ℝ) : ∀ (cs ts : List (ℚ × List ℚ))
    {s : Series ℝ} {ls : List (Option Diff)}, Holding recs s → c2iLoop dat old s (cs.map orbitOf) (ts.map orbitOf) = .ok (0, ls) →
    (∀ x ∈ cs, (∃ r ∈ recs, r.t ≤ Costg.mjdTT x.1) ∧ ∃ r ∈ recs, Costg.mjdTT x.1 < r.t) ∧ cs.map (fun x => epochAt x.1) <+: ts.map (fun x => epochAt x.1) ∧
      ls.length = cs.length
  | [], ts, _, ls, _, h => by
    rw [List.map_nil, c2iLoop] at h
    cases h
    simp
  | x :: cs, ts, s, ls, hh, h => by
    set tt := ttOf (epochAt x.1) with htt
    have ht : mjd tt = ((Costg.mjdTT x.1 : ℚ) : ℝ) := mjd_ttOf x.1
    have hep : ttOf (orbitOf x).epoch = tt := rfl
    rw [List.map_cons, c2iLoop] at h
    by_cases hx : (∀ r ∈ recs, Costg.mjdTT x.1 < r.t) ∨ ∀ r ∈ recs, r.t ≤ Costg.mjdTT x.1
    · obtain ⟨s', e, q, -, -⟩ := oriented_outside dat hs hne hh tt old (by
        rw [ht]
        exact hx.imp (fun h r m => (Rat.cast_lt (K := ℝ)).mpr (h r m)) fun h r m => (Rat.cast_le (K := ℝ)).mpr (h r m))
      simp only [hep, q, Res.bind] at h
      simp at h
    · obtain ⟨n1, n2⟩ := not_or.mp hx
      push Not at n1 n2
      obtain ⟨r1, m1, l1⟩ := n1
      obtain ⟨r2, m2, l2⟩ := n2
      obtain ⟨s', e, q1, q2, q3⟩ := interpolated_at dat hs hh tt old ⟨r1, m1, by rw [ht]; exact_mod_cast l1⟩ ⟨r2, m2, by rw [ht]; exact_mod_cast l2⟩
      simp only [hep, q1, Res.bind] at h
      rw [if_neg (by simp)] at h
      unfold c2i06aAt at h
      rw [argsAt_ok] at h
      simp only [Res.bind] at h
      cases ts with
      | nil => simp at h
      | cons t ts =>
        simp only [List.map_cons] at h
        by_cases hte : (orbitOf t).epoch ≠ (orbitOf x).epoch
        · rw [if_pos hte] at h
          simp at h
        rw [if_neg hte] at h
        cases hr : c2iLoop dat old s' (cs.map orbitOf) (ts.map orbitOf) with
        | ok p =>
          obtain ⟨k, ls'⟩ := p
          rw [hr] at h
          simp only [Res.ok.injEq, Prod.mk.injEq] at h
          obtain ⟨rfl, rfl⟩ := h
          obtain ⟨p1, p2, p3⟩ := c2i_loop_sound dat hs hne old cs ts q2 hr
          refine ⟨?_, ?_, by simp [p3]⟩
          · intro y hy
            rcases List.mem_cons.mp hy with rfl | hy
            · exact ⟨⟨r1, m1, l1⟩, r2, m2, l2⟩
            · exact p1 y hy
          · rw [List.map_cons, List.map_cons, List.cons_prefix_cons]
            exact ⟨(not_not.mp hte).symm, p2⟩
        | ub => rw [hr] at h; cases h
        | abort => rw [hr] at h; cases h
        | throw => rw [hr] at h; cases h

/-- C99: check_c2i succeeds only if the epochs of the celestial orbit lie between the records read and are those of the terrestrial orbit, and then it has printed
one block for each of them. -/
theorem check_c2i_success (tt dat : ℚ → ℚ) (datTT : ℝ → ℝ) (junkT junkC : Fin 10 → ℚ) {junkE : List ℚ} (hj : 8 ≤ junkE.length) (old : Rec ℝ)
    {torb corb : List Char} {eop : List (List Char)} {t1 : ℚ × List ℚ} {ts cs : List (ℚ × List ℚ)} {rs : List (Rec ℚ)} (ht : Table 512 9 torb (t1 :: ts))
    (hc : Table 512 9 corb cs) (he : Recorded tt dat eop rs) (hne : ∃ r ∈ rs, t1.1 - 2 ≤ r.t ∧ r.t < t1.1 + 2) {ls : List (Option Diff)}
    (h : checkC2i tt dat datTT junkT junkC junkE old (some torb) (some corb) (some eop) = .ok (0, ls)) :
    (∀ x ∈ cs, (∃ r ∈ rs, t1.1 - 2 ≤ r.t ∧ r.t ≤ Costg.mjdTT x.1) ∧ ∃ r ∈ rs, Costg.mjdTT x.1 < r.t ∧ r.t < t1.1 + 2) ∧
      cs.map (·.1) <+: (t1 :: ts).map (·.1) ∧ ls.length = cs.length := by
  obtain ⟨ser, hprog, hhold, hsort⟩ := check_c2i_runs tt dat datTT junkT junkC hj old ht hc he
  rw [hprog] at h
  obtain ⟨r0, m0, l0⟩ := hne
  obtain ⟨p1, p2, p3⟩ := c2i_loop_sound datTT hsort (List.ne_nil_of_mem (a := r0) (List.mem_filter.mpr ⟨m0, by simpa using l0⟩)) old cs (t1 :: ts) hhold h
  have mem : ∀ r, r ∈ (rs.filter fun r => t1.1 - 2 ≤ r.t ∧ r.t < t1.1 + 2) → r ∈ rs ∧ t1.1 - 2 ≤ r.t ∧ r.t < t1.1 + 2 := fun r m => by
    have := List.mem_filter.mp m
    simpa using this
  refine ⟨fun x hx => ?_, ?_, p3⟩
  · obtain ⟨⟨r, m, l⟩, r', m', l'⟩ := p1 x hx
    exact ⟨⟨r, (mem r m).1, (mem r m).2.1, l⟩, r', (mem r' m').1, l', (mem r' m').2.2⟩
  · have := p2.map (fun e : Costg.Epoch => (e.1 : ℚ) + e.2 / 86400)
    simpa only [List.map_map, Function.comp_def, epochAt_days] using this

/-- C99: check_c2i takes the first epoch of the terrestrial orbit without a check: if there is none, this is undefined behaviour. -/
theorem check_c2i_empty_fails (tt dat : ℚ → ℚ) (datTT : ℝ → ℝ) (junkT junkC : Fin 10 → ℚ) (junkE : List ℚ) (old : Rec ℝ) {torb corb : List Char}
    {cs : List (ℚ × List ℚ)} (eop : Option (List (List Char))) (ht : Table 512 9 torb []) (hc : Table 512 9 corb cs) :
    checkC2i tt dat datTT junkT junkC junkE old (some torb) (some corb) eop = .ub := by
  unfold checkC2i
  rw [Costg.bench_orbit ht, Costg.bench_orbit hc]
  rfl

end Verif.Orient
