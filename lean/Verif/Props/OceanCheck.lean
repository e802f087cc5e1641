import Verif.Model.OceanCheck
import Verif.Spec.OceanCheck
import Verif.Props.LibrationCheck
/-
C129: the check of the ocean tides against a file of reference values.
-/
namespace Verif.OceanCheck
open Verif Verif.Chars Verif.Costg Verif.EopTides Verif.Angle
open Verif.Orient (centuries dailyPhase)
open Verif.LibrationCheck (AtLines at_next at_end at_long)

/-! ### What is computed at a date -/

theorem gmst82_gmst (e : Iau.Epoch) : Cong (Iau.gmst82 e) (gmst ((e.mjd : ℝ) + e.f)) := by
  refine (gmst82_correct e).2.trans ⟨-e.mjd, ?_⟩
  unfold Iau.gmst82Poly gmst Iau.Epoch.jcenturies Iau.Epoch.daysSinceJ2000 centuries
  push_cast
  ring

/-- The date of an epoch. -/
theorem epoch_ok (leap : Int → ℝ) {t : ℚ} (h0 : 0 ≤ t) (h1 : t < 2147483648) :
    ∃ e, epoch leap t = .ok e ∧ (e.mjd : ℝ) + e.f = tt (leap ⌊t⌋) t := by
  unfold epoch
  rw [epochOf_ok h0 h1]
  refine ⟨_, rfl, ?_⟩
  show ((⌊_⌋ : ℤ) : ℝ) + Int.fract _ = _
  rw [Int.floor_add_fract]
  have h : ((⌊t⌋ : ℤ) : ℝ) + ((Int.fract t : ℚ) : ℝ) = (t : ℝ) := by exact_mod_cast Int.floor_add_fract t
  have h' : ((Int.fract t * 86400 : ℚ) : ℝ) = ((Int.fract t : ℚ) : ℝ) * 86400 := by rw [Rat.cast_mul]; norm_num
  unfold epochAt tt
  simp only [h']
  linear_combination h

/-- C129: what the program computes for a date is the variation after the Conventions. -/
theorem ocean_variation {dat : ℝ → ℝ} {e : Iau.Epoch} {a t : ℝ} (he : (e.mjd : ℝ) + e.f = tt a t) (hd : dat (tt a t) = a) :
    (ocean dat e).dxp = variation DEntry.xps DEntry.xpc a t ∧ (ocean dat e).dyp = variation DEntry.yps DEntry.ypc a t ∧
      (ocean dat e).dut1 = variation DEntry.ut1s DEntry.ut1c a t := by
  have hT : e.jcenturies = centuries (tt a t) := by rw [← he]; rfl
  have hg : Cong (Iau.gmst82 (Orient.tt2ut1 dat e 0)) (gmst t) := by
    refine (gmst82_gmst _).trans (Cong.of_eq (congrArg gmst ?_))
    show ((⌊_⌋ : ℤ) : ℝ) + Int.fract _ = _
    rw [Int.floor_add_fract, he, hd]
    unfold tt
    ring
  obtain ⟨h1, h2, h3, -⟩ := diurnal_fold (Orient.fundarg e.jcenturies) (Iau.gmst82 (Orient.tt2ut1 dat e 0)) table8 ⟨0, 0, 0, 0⟩
  simp only [zero_add] at h1 h2 h3
  unfold ocean deopOceanTide
  refine ⟨h1.trans ?_, h2.trans ?_, h3.trans ?_⟩ <;>
  · refine congrArg List.sum (List.map_congr_left fun r _ => ?_)
    obtain ⟨hc, hs⟩ := Orient.dphase_trig r (T := e.jcenturies) hg
    rw [hc, hs, hT]

/-! ### The lines of the file -/

theorem loop_stop {leap : Int → ℝ} {dat : ℝ → ℝ} {junk : List ℚ} {s : In} (h : ∃ x s', s.getline 512 = (x, false, s')) :
    loop leap dat junk s = .ok 0 := by
  obtain ⟨x, s', hg⟩ := h
  rw [loop]
  split
  · rfl
  · rename_i h; rw [hg] at h; simp at h

theorem accepts_iff {leap : Int → ℝ} {dat : ℝ → ℝ} {e : Iau.Epoch} {r : Row} (hd : (e.mjd : ℝ) + e.f = tt (leap ⌊r.t⌋) r.t)
    (hc : Consistent leap dat r) : accepts [r.x, r.y, r.ut1] (ocean dat e) ↔ Agrees leap r := by
  obtain ⟨o1, o2, o3⟩ := ocean_variation hd hc
  unfold accepts
  rw [o1, o2, o3]
  exact ⟨fun ⟨a, b, c⟩ => ⟨a, b, c⟩, fun ⟨a, b, c⟩ => ⟨a, b, c⟩⟩

open Classical in
/-- What one row does. -/
theorem loop_row {leap : Int → ℝ} {dat : ℝ → ℝ} {junk : List ℚ} (hj : junk.length = 4) {l : List Char} {ls : List (List Char)} {s : In} {r : Row}
    (h : AtLines (l :: ls) s) (hr : Holds l r) (hc : Consistent leap dat r) :
    ∃ s', AtLines ls s' ∧ loop leap dat junk s = if Agrees leap r then loop leap dat junk s' else .ok 1 := by
  obtain ⟨hl, hlen, h0, h1⟩ := hr
  obtain ⟨s', hg, ha⟩ := at_next h hlen
  obtain ⟨e, he, hd⟩ := epoch_ok leap h0 h1
  refine ⟨s', ha, ?_⟩
  have hf := readFields_ok [r.t, r.x, r.y, r.ut1] junk l (by rw [hj]; rfl) hl
  have hacc : accepts [r.x, r.y, r.ut1] (ocean dat e) ↔ Agrees leap r := accepts_iff hd hc
  rw [loop]
  split
  · rename_i h; rw [hg] at h; simp at h
  · rename_i line s'' h
    rw [hg] at h
    simp only [Prod.mk.injEq, true_and] at h
    rw [← h.1, hf, ← h.2]
    simp only [he, Res.bind, hacc]

/-- Rows that agree are passed over; the first that does not ends the program. -/
theorem loop_pre {leap : Int → ℝ} {dat : ℝ → ℝ} {junk : List ℚ} (hj : junk.length = 4) {pre : List (List Char)} {rs : List Row}
    (h : List.Forall₂ Holds pre rs) : ∀ (post : List (List Char)) (s : In), AtLines (pre ++ post) s → (∀ r ∈ rs, Consistent leap dat r) →
      ((∀ r ∈ rs, Agrees leap r) → ∃ s', AtLines post s' ∧ loop leap dat junk s = loop leap dat junk s') ∧
      ((∃ r ∈ rs, ¬ Agrees leap r) → loop leap dat junk s = .ok 1) := by
  induction h with
  | nil => intro post s hs _; exact ⟨fun _ => ⟨s, hs, rfl⟩, by simp⟩
  | @cons l r ls rs hr _ ih =>
    intro post s hs hc
    obtain ⟨s1, h1, h2⟩ := loop_row (leap := leap) (dat := dat) hj hs hr (hc r (List.mem_cons_self ..))
    obtain ⟨i1, i2⟩ := ih post s1 h1 fun x hx => hc x (List.mem_cons_of_mem _ hx)
    refine ⟨fun ha => ?_, fun ⟨x, hx, hn⟩ => ?_⟩
    · rw [if_pos (ha r (List.mem_cons_self ..))] at h2
      obtain ⟨s2, h3, h4⟩ := i1 fun x hx => ha x (List.mem_cons_of_mem _ hx)
      exact ⟨s2, h3, h2.trans h4⟩
    · rw [h2]
      split
      · rename_i ha
        rcases List.mem_cons.mp hx with rfl | hx
        · exact absurd ha hn
        · exact i2 ⟨x, hx, hn⟩
      · rfl

/-! ### The program -/

open Classical in
/-- C129: a file of rows passes if and only if every row agrees with the tables; otherwise the exit status is 1. -/
theorem ocean_check {leap : Int → ℝ} {dat : ℝ → ℝ} {rs : List Row} {text : List Char} (hf : IsFile rs text)
    (hc : ∀ r ∈ rs, Consistent leap dat r) (junk : Fin 4 → ℚ) :
    program leap dat junk 2 (some text) = .ok (if ∀ r ∈ rs, Agrees leap r then 0 else 1) := by
  obtain ⟨ls, hl, h⟩ := hf
  obtain ⟨h1, h2⟩ := loop_pre (leap := leap) (dat := dat) (junk := List.ofFn junk) (by simp) h [] ⟨text, false, false⟩
    (Or.inl ⟨text, rfl, by simpa using hl⟩) hc
  unfold program In.start
  rw [if_neg (by simp)]
  show loop leap dat (List.ofFn junk) ⟨text, false, false⟩ = _
  by_cases ha : ∀ r ∈ rs, Agrees leap r
  · rw [if_pos ha]
    obtain ⟨s, h3, h4⟩ := h1 ha
    exact h4.trans (loop_stop (at_end h3))
  · rw [if_neg ha]
    push Not at ha
    exact h2 ha

/-- C129: a line that does not begin with four numbers, behind rows, prevents success: the program aborts unless a row before it does not agree. -/
theorem ocean_check_unreadable {leap : Int → ℝ} {dat : ℝ → ℝ} {pre post : List (List Char)} {l text : List Char} {rs : List Row}
    (hl : IsLines (pre ++ l :: post) text) (hp : List.Forall₂ Holds pre rs) (hc : ∀ r ∈ rs, Consistent leap dat r) (hlen : l.length < 512)
    (hn : ¬ ∃ vals, LineHas l vals ∧ vals.length = 4) (junk : Fin 4 → ℚ) :
    ((∀ r ∈ rs, Agrees leap r) → program leap dat junk 2 (some text) = .abort) ∧
    ((∃ r ∈ rs, ¬ Agrees leap r) → program leap dat junk 2 (some text) = .ok 1) := by
  obtain ⟨h1, h2⟩ := loop_pre (leap := leap) (dat := dat) (junk := List.ofFn junk) (by simp) hp (l :: post) ⟨text, false, false⟩
    (Or.inl ⟨text, rfl, hl⟩) hc
  unfold program In.start
  rw [if_neg (by simp)]
  refine ⟨fun ha => ?_, h2⟩
  obtain ⟨s, h3, h4⟩ := h1 ha
  obtain ⟨s', hg, -⟩ := at_next h3 hlen
  refine h4.trans ?_
  rw [loop]
  split
  · rename_i h; rw [hg] at h; simp at h
  · rename_i line s'' h
    rw [hg] at h
    simp only [Prod.mk.injEq, true_and] at h
    rw [← h.1]
    split
    · rename_i t v hf
      exact absurd ⟨_, (readFields_sound _ l _ hf).1, by rw [(readFields_sound _ l _ hf).2]; simp⟩ hn
    · rfl

/-- C129: a line of 512 characters or more ends the check of the ocean tides without a complaint: the program succeeds whatever this line and
the lines behind it are (test/iers/eop_oceantide.cpp:31, 77). -/
theorem ocean_check_fails {leap : Int → ℝ} {dat : ℝ → ℝ} {pre post : List (List Char)} {l text : List Char} {rs : List Row}
    (hl : IsLines (pre ++ l :: post) text) (hp : List.Forall₂ Holds pre rs) (hc : ∀ r ∈ rs, Consistent leap dat r)
    (ha : ∀ r ∈ rs, Agrees leap r) (hlen : 512 ≤ l.length) (junk : Fin 4 → ℚ) : program leap dat junk 2 (some text) = .ok 0 := by
  obtain ⟨s, h1, h2⟩ := (loop_pre (leap := leap) (dat := dat) (junk := List.ofFn junk) (by simp) hp (l :: post) ⟨text, false, false⟩
    (Or.inl ⟨text, rfl, hl⟩) hc).1 ha
  unfold program In.start
  rw [if_neg (by simp)]
  exact h2.trans (loop_stop (at_long h1 hlen))

/-- The date of whatever epoch is made from a date that is not negative. -/
theorem epoch_date {leap : Int → ℝ} {t : ℚ} {e : Iau.Epoch} (h0 : 0 ≤ t) (h : epoch leap t = .ok e) : (e.mjd : ℝ) + e.f = tt (leap ⌊t⌋) t := by
  by_cases h1 : t < 2147483648
  · obtain ⟨e', he, hd⟩ := epoch_ok leap h0 h1
    rw [h] at he
    cases he
    exact hd
  · exfalso
    have hf : (2147483648 : Int) ≤ ⌊t⌋ := Int.le_floor.mpr (by push_cast; exact not_lt.mp h1)
    unfold epoch epochOf at h
    simp only [if_neg (not_lt.mpr h0)] at h
    rw [if_neg (by omega)] at h
    simp [Res.bind] at h

open Classical in
theorem loop_line {leap : Int → ℝ} {dat : ℝ → ℝ} {junk : List ℚ} (hj : junk.length = 4) {l : List Char} {ls : List (List Char)} {s : In}
    (h : AtLines (l :: ls) s) (hlen : l.length < 512) (hz : loop leap dat junk s = .ok 0) :
    ∃ s' r, AtLines ls s' ∧ loop leap dat junk s' = .ok 0 ∧ LineHas l [r.t, r.x, r.y, r.ut1] ∧
      (0 ≤ r.t → Consistent leap dat r → Agrees leap r) := by
  obtain ⟨s', hg, ha⟩ := at_next h hlen
  rw [loop] at hz
  split at hz
  · rename_i h; rw [hg] at h; simp at h
  · rename_i line s'' h
    rw [hg] at h
    simp only [Prod.mk.injEq, true_and] at h
    rw [← h.1, ← h.2] at hz
    split at hz
    · rename_i t v hf
      obtain ⟨f1, f2⟩ := readFields_sound _ _ _ hf
      rw [hj] at f2
      obtain ⟨a, b, c, rfl⟩ : ∃ a b c, v = [a, b, c] := by
        match v, f2 with
        | [a, b, c], _ => exact ⟨a, b, c, rfl⟩
      cases he : epoch leap t with
      | ok e =>
        rw [he] at hz
        simp only [Res.bind] at hz
        split at hz
        · rename_i hacc
          exact ⟨s', ⟨t, a, b, c⟩, ha, hz, f1, fun h0 hc => (accepts_iff (r := ⟨t, a, b, c⟩) (epoch_date h0 he) hc).mp hacc⟩
        · simp at hz
      | ub => rw [he] at hz; simp [Res.bind] at hz
      | abort => rw [he] at hz; simp [Res.bind] at hz
      | throw => rw [he] at hz; simp [Res.bind] at hz
    · simp at hz

/-- C129 (partial): if any text of lines that fit passes, each of its lines begins with four numbers, and they agree with the tables if the
date is not negative and the tables of leap seconds agree there. Missing: lines that do not fit, see `ocean_check_fails`. -/
theorem ocean_check_lines_partial {leap : Int → ℝ} {dat : ℝ → ℝ} {ls : List (List Char)} {text : List Char} (hl : IsLines ls text)
    (hlen : ∀ l ∈ ls, l.length < 512) {junk : Fin 4 → ℚ} (h : program leap dat junk 2 (some text) = .ok 0) :
    ∀ l ∈ ls, ∃ r : Row, LineHas l [r.t, r.x, r.y, r.ut1] ∧ (0 ≤ r.t → Consistent leap dat r → Agrees leap r) := by
  have key : ∀ (ls : List (List Char)) (s : In), AtLines ls s → (∀ l ∈ ls, l.length < 512) → loop leap dat (List.ofFn junk) s = .ok 0 →
      ∀ l ∈ ls, ∃ r : Row, LineHas l [r.t, r.x, r.y, r.ut1] ∧ (0 ≤ r.t → Consistent leap dat r → Agrees leap r) := by
    intro ls
    induction ls with
    | nil => intro s _ _ _ l hl; simp at hl
    | cons l ls ih =>
      intro s hs hlen hz x hx
      obtain ⟨s', r, h1, h2, h3, h4⟩ := loop_line (by simp) hs (hlen l (List.mem_cons_self ..)) hz
      rcases List.mem_cons.mp hx with rfl | hx
      · exact ⟨r, h3, h4⟩
      · exact ih s' h1 (fun y hy => hlen y (List.mem_cons_of_mem _ hy)) h2 x hx
  unfold program In.start at h
  rw [if_neg (by simp)] at h
  exact key ls ⟨text, false, false⟩ (Or.inl ⟨text, rfl, hl⟩) hlen h

/-- C129: without the file, or with another number of arguments, the program fails. -/
theorem ocean_check_no_file (leap : Int → ℝ) (dat : ℝ → ℝ) (junk : Fin 4 → ℚ) :
    program leap dat junk 2 none = .ok 2 ∧ ∀ argc file, argc ≠ 2 → program leap dat junk argc file = .ok 1 :=
  ⟨rfl, fun _ _ h => if_pos h⟩

/-! ### Files that pass and files that do not -/

/-- The text of an integer. -/
def whole (k : Int) : Dec := { LibrationCheck.hundredths k with exp := some ('e', none, ['2']) }

theorem whole_ok {k : Int} (h : k.natAbs < 10000) :
    (whole k).Ok ∧ (whole k).value = k ∧ (whole k).text.length ≤ 9 ∧ '\n' ∉ (whole k).text := by
  obtain ⟨h1, h2, -, h4⟩ := LibrationCheck.hundredths_ok h
  refine ⟨⟨h1.int, h1.frac, h1.nonempty, ?_⟩, ?_, ?_, ?_⟩
  · intro l s e he
    simp only [whole, Option.some.injEq, Prod.mk.injEq] at he
    obtain ⟨rfl, rfl, rfl⟩ := he
    exact ⟨Or.inl rfl, by simp, by decide⟩
  · have e : (whole k).value = (LibrationCheck.hundredths k).value * 100 := by
      have e1 : expVal (some ('e', none, ['2'])) = 2 := by decide
      unfold Dec.value whole
      simp only [e1]
      simp only [LibrationCheck.hundredths, expVal, zpow_zero, mul_one]
      norm_num
    rw [e, h2]; ring
  · unfold Dec.text whole LibrationCheck.hundredths
    simp only [fracText, expText, expSignText]
    split <;> simp
  · intro hm
    apply h4
    unfold Dec.text at hm ⊢
    simp only [whole, List.mem_append] at hm
    simp only [List.mem_append]
    rcases hm with hm | hm | hm | hm
    · exact Or.inl hm
    · exact Or.inr (Or.inl hm)
    · exact Or.inr (Or.inr (Or.inl hm))
    · exact absurd hm (by decide)

theorem text_near {x : ℝ} (h : |x| ≤ 9000) : ∃ d : Dec, d.Ok ∧ |(d.value : ℝ) - x| < 1 ∧ d.text.length ≤ 9 ∧ '\n' ∉ d.text := by
  obtain ⟨h1, h2⟩ := abs_le.mp h
  by_cases hi : x = ⌊x⌋
  · have c1 : (-9001 : Int) ≤ ⌊x⌋ := Int.le_floor.mpr (by push_cast; linarith)
    have c2 : ⌊x⌋ < 9001 := Int.floor_lt.mpr (by push_cast; linarith)
    obtain ⟨d1, d2, d3, d4⟩ := whole_ok (k := ⌊x⌋) (by omega)
    refine ⟨_, d1, ?_, d3, d4⟩
    rw [d2]
    push_cast
    rw [← hi]; simp
  · have a := Int.floor_le x
    have b := Int.lt_floor_add_one x
    have c1 : (-9001 : Int) ≤ ⌊x⌋ := Int.le_floor.mpr (by push_cast; linarith)
    have c2 : ⌊x⌋ < 9001 := Int.floor_lt.mpr (by push_cast; linarith)
    obtain ⟨d1, d2, d3, d4⟩ := whole_ok (k := ⌊x⌋) (by omega)
    refine ⟨_, d1, ?_, d3, d4⟩
    rw [d2]
    push_cast
    rw [abs_lt]
    constructor <;> linarith

theorem sum_size (a b : DEntry → Int) (rows : List DEntry) (θ : DEntry → ℝ) :
    |(rows.map fun r => (a r : ℝ) / 100 * Real.sin (θ r) + (b r : ℝ) / 100 * Real.cos (θ r)).sum| ≤
      ((rows.map fun r => (|(a r : ℚ)| + |(b r : ℚ)|) / 100).sum : ℚ) := by
  induction rows with
  | nil => simp
  | cons r rows ih =>
    simp only [List.map_cons, List.sum_cons]
    push_cast at ih ⊢
    have s1 := Real.abs_sin_le_one (θ r)
    have s2 := Real.abs_cos_le_one (θ r)
    have e1 : |(a r : ℝ) / 100 * Real.sin (θ r)| ≤ |(a r : ℝ)| / 100 := by
      rw [abs_mul, abs_div, abs_of_pos (by norm_num : (0 : ℝ) < 100)]
      exact mul_le_of_le_one_right (by positivity) s1
    have e2 : |(b r : ℝ) / 100 * Real.cos (θ r)| ≤ |(b r : ℝ)| / 100 := by
      rw [abs_mul, abs_div, abs_of_pos (by norm_num : (0 : ℝ) < 100)]
      exact mul_le_of_le_one_right (by positivity) s2
    rw [abs_le] at e1 e2 ih ⊢
    constructor <;> linarith [e1.1, e1.2, e2.1, e2.2, ih.1, ih.2]

theorem sizes : (table8.map fun r => (|(r.xps : ℚ)| + |(r.xpc : ℚ)|) / 100).sum ≤ 5000 ∧
    (table8.map fun r => (|(r.yps : ℚ)| + |(r.ypc : ℚ)|) / 100).sum ≤ 5000 ∧
    (table8.map fun r => (|(r.ut1s : ℚ)| + |(r.ut1c : ℚ)|) / 100).sum ≤ 5000 := by
  refine ⟨?_, ?_, ?_⟩ <;> decide +kernel

theorem values_size (a t : ℝ) : |variation DEntry.xps DEntry.xpc a t| ≤ 5000 ∧ |variation DEntry.yps DEntry.ypc a t| ≤ 5000 ∧
    |variation DEntry.ut1s DEntry.ut1c a t| ≤ 5000 := by
  obtain ⟨z1, z2, z3⟩ := sizes
  have big : ∀ {q : ℚ} {x : ℝ}, |x| ≤ (q : ℝ) → q ≤ 5000 → |x| ≤ 5000 := fun h h' => h.trans (by exact_mod_cast h')
  unfold variation
  exact ⟨big (sum_size DEntry.xps DEntry.xpc table8 _) z1, big (sum_size DEntry.yps DEntry.ypc table8 _) z2,
    big (sum_size DEntry.ut1s DEntry.ut1c table8 _) z3⟩

/-- There is a line for every date. -/
theorem row_exists (leap : Int → ℝ) (dt : Dec) (hd : dt.okb = true) (h0 : 0 ≤ dt.value) (h1 : dt.value < 2147483648) (hlen : dt.text.length ≤ 100)
    (hnl : '\n' ∉ dt.text) : ∃ l r, r.t = dt.value ∧ Holds l r ∧ Agrees leap r ∧ '\n' ∉ l := by
  obtain ⟨z1, z2, z3⟩ := values_size (leap ⌊dt.value⌋) (dt.value : ℝ)
  obtain ⟨d1, o1, n1, l1, k1⟩ := text_near (z1.trans (by norm_num))
  obtain ⟨d2, o2, n2, l2, k2⟩ := text_near (z2.trans (by norm_num))
  obtain ⟨d3, o3, n3, l3, k3⟩ := text_near (z3.trans (by norm_num))
  refine ⟨joined [dt, d1, d2, d3], ⟨dt.value, d1.value, d2.value, d3.value⟩, rfl, ⟨joined_is [dt, d1, d2, d3] ?_, ?_, h0, h1⟩,
    ⟨lt_trans n1 (by norm_num), lt_trans n2 (by norm_num), n3⟩, ?_⟩
  · intro d h
    simp only [List.mem_cons, List.not_mem_nil, or_false] at h
    rcases h with rfl | rfl | rfl | rfl
    · exact Dec.ok_of hd
    all_goals assumption
  · simp [joined]; omega
  · simp [joined, hnl, k1, k2, k3]

/-- A row of which x is 9999 microarcseconds. -/
def wrong : List Dec := [num "60000" "25", num "9999" "", num "0" "", num "0" ""]

theorem wrong_holds : Holds (joined wrong) ⟨60000.25, 9999, 0, 0⟩ := by
  refine ⟨?_, by decide +kernel, by norm_num, by norm_num⟩
  have h := joined_is wrong (by
    intro d hd
    simp only [wrong, List.mem_cons, List.not_mem_nil, or_false] at hd
    rcases hd with rfl | rfl | rfl | rfl <;> exact Dec.ok_of (by decide))
  have e : wrong.map Dec.value = [60000.25, 9999, 0, 0] := by decide +kernel
  rw [e] at h
  exact h

theorem wrong_disagrees (leap : Int → ℝ) : ¬ Agrees leap ⟨60000.25, 9999, 0, 0⟩ := by
  intro h
  have a := h.x
  have b := (values_size (leap ⌊(60000.25 : ℚ)⌋) ((60000.25 : ℚ) : ℝ)).1
  rw [abs_lt] at a
  rw [abs_le] at b
  have c : ((9999 : ℚ) : ℝ) = 9999 := by norm_num
  simp only [c] at a
  linarith [a.1, a.2, b.1, b.2]

/-- A file of one row that passes; the same with the wrong row behind; with a line without numbers behind; and with a long line and the wrong
row behind, which passes. -/
example (junk : Fin 4 → ℚ) (w : List Char) (hw : w = List.replicate 600 '1') : ∃ l : List Char,
    program (fun _ => 37) (fun _ => 37) junk 2 (some (l ++ ['\n'])) = .ok 0 ∧
    program (fun _ => 37) (fun _ => 37) junk 2 (some (l ++ '\n' :: (joined wrong ++ ['\n']))) = .ok 1 ∧
    program (fun _ => 37) (fun _ => 37) junk 2 (some (l ++ '\n' :: "# end\n".toList)) = .abort ∧
    program (fun _ => 37) (fun _ => 37) junk 2 (some (l ++ '\n' :: (w ++ '\n' :: (joined wrong ++ ['\n'])))) = .ok 0 := by
  obtain ⟨l, r, t, h, n, m⟩ := row_exists (fun _ => 37) (num "60000" "25") (by decide) (by decide +kernel) (by decide +kernel) (by decide) (by decide)
  have hw' : '\n' ∉ joined wrong := by decide +kernel
  have hw2 : '\n' ∉ w := by rw [hw]; decide +kernel
  have h1 := ocean_check (leap := fun _ => 37) (dat := fun _ => 37) (rs := [r]) (text := l ++ ['\n']) ⟨[l], ⟨by simp [m], Or.inl (by simp)⟩, .cons h .nil⟩
    (fun _ _ => rfl) junk
  have h2 := ocean_check (leap := fun _ => 37) (dat := fun _ => 37) (rs := [r, ⟨60000.25, 9999, 0, 0⟩]) (text := l ++ '\n' :: (joined wrong ++ ['\n']))
    ⟨[l, joined wrong], ⟨by simp [m, hw'], Or.inl (by simp)⟩, .cons h (.cons wrong_holds .nil)⟩ (fun _ _ => rfl) junk
  rw [if_pos (by simp [n])] at h1
  rw [if_neg (by simp [wrong_disagrees])] at h2
  refine ⟨l, h1, h2, (ocean_check_unreadable (leap := fun _ => 37) (dat := fun _ => 37) (pre := [l]) (post := []) (l := "# end".toList) (rs := [r]) ⟨?_, Or.inl (by simp)⟩ (.cons h .nil)
    (fun _ _ => rfl) (by decide) (comment_skipped (k := 3) (c := '#') (l := " end".toList) (by decide)) junk).1 (by simp [n]),
    ocean_check_fails (leap := fun _ => 37) (dat := fun _ => 37) (pre := [l]) (post := [joined wrong]) (l := w) (rs := [r]) ⟨by simp [m, hw', hw2], Or.inl (by simp)⟩ (.cons h .nil)
      (fun _ _ => rfl) (by simp [n]) (by rw [hw, List.length_replicate]; decide) junk⟩
  intro x hx
  simp only [List.cons_append, List.nil_append, List.mem_cons, List.not_mem_nil, or_false] at hx
  rcases hx with rfl | rfl
  · exact m
  · decide

/-- A file that passes meets the hypotheses of the converse statement. -/
example (junk : Fin 4 → ℚ) : ∃ l : List Char, program (fun _ => 37) (fun _ => 37) junk 2 (some (l ++ ['\n'])) = .ok 0 ∧
    ∃ r : Row, LineHas l [r.t, r.x, r.y, r.ut1] ∧ (0 ≤ r.t → Agrees (fun _ => 37) r) := by
  obtain ⟨l, r, t, h, n, m⟩ := row_exists (fun _ => 37) (num "60000" "25") (by decide) (by decide +kernel) (by decide +kernel) (by decide) (by decide)
  have hl : IsLines [l] (l ++ ['\n']) := ⟨by simp [m], Or.inl (by simp)⟩
  have hp := ocean_check (leap := fun _ => 37) (dat := fun _ => 37) (rs := [r]) ⟨[l], hl, .cons h .nil⟩ (fun _ _ => rfl) junk
  rw [if_pos (by simp [n])] at hp
  obtain ⟨r', h1, h2⟩ := ocean_check_lines_partial hl (by simp [h.2.1]) hp l (by simp)
  exact ⟨l, hp, r', h1, fun h0 => h2 h0 rfl⟩

end Verif.OceanCheck
