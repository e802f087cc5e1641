import Verif.Model.ZonalCheck
import Verif.Spec.ZonalCheck
import Verif.Props.LibrationCheck
/-
C130: the check of the zonal tides against a file of reference values.
-/
namespace Verif.ZonalCheck
open Verif Verif.Chars Verif.Costg Verif.EopTides Verif.Angle
open Verif.Orient (centuries zonalPhase zonalUT1 zonalLod)
open Verif.LibrationCheck (AtLines at_next at_end at_long epoch_ok dig dig_ok)

/-! ### What is computed at a date -/

/-- C130: what the program computes for a date are the zonal tides of the Conventions. -/
theorem zonal_values {e : Iau.Epoch} {t : ℝ} (he : (e.mjd : ℝ) + e.f = t) :
    (zonal e).dut1 = zonalUT1 (centuries t) ∧ (zonal e).dlod = zonalLod (centuries t) ∧ (zonal e).domega = zonalRate (centuries t) := by
  have hT : e.jcenturies = centuries t := by rw [← he]; rfl
  unfold zonal
  rw [hT]
  refine ⟨Orient.zonal_ut1 _, Orient.zonal_lod _, ?_⟩
  show (deopZonalTide (Orient.fundarg (centuries t))).domega * 1e-14 = _
  rw [Orient.fundarg_eq, zonal_turns (fargsAt_cong _), (zonal_sums (dargs (centuries t))).2.2]
  refine Orient.sum_scale _ _ _ _ fun r _ => ?_
  rw [Orient.zphase_eq]
  ring

/-! ### The lines of the file -/

theorem loop_stop {junk : List ℚ} {s : In} (h : ∃ x s', s.getline 512 = (x, false, s')) : loop junk s = .ok 0 := by
  obtain ⟨x, s', hg⟩ := h
  rw [loop]
  split
  · rfl
  · rename_i h; rw [hg] at h; simp at h

theorem accepts_iff {e : Iau.Epoch} {r : Row} (hd : (e.mjd : ℝ) + e.f = r.t) : accepts [r.ut1, r.lod, r.rate] (zonal e) ↔ Agrees r := by
  obtain ⟨o1, o2, o3⟩ := zonal_values hd
  unfold accepts
  rw [o1, o2, o3]
  simp only [List.getD_cons_zero, List.getD_cons_succ]
  refine ⟨fun ⟨a, b, c⟩ => ⟨?_, ?_, c⟩, fun ⟨a, b, c⟩ => ⟨?_, ?_, c⟩⟩
  · norm_num at a ⊢; linarith
  · norm_num at b ⊢; linarith
  · norm_num at a ⊢; linarith
  · norm_num at b ⊢; linarith

open Classical in
/-- What one row does. -/
theorem loop_row {junk : List ℚ} (hj : junk.length = 4) {l : List Char} {ls : List (List Char)} {s : In} {r : Row}
    (h : AtLines (l :: ls) s) (hr : Holds l r) : ∃ s', AtLines ls s' ∧ loop junk s = if Agrees r then loop junk s' else .ok 1 := by
  obtain ⟨hl, hlen, h0, h1⟩ := hr
  obtain ⟨s', hg, ha⟩ := at_next h hlen
  obtain ⟨e, he, hd⟩ := epoch_ok h0 h1
  refine ⟨s', ha, ?_⟩
  have hf := readFields_ok [r.t, r.ut1, r.lod, r.rate] junk l (by rw [hj]; rfl) hl
  have hacc : accepts [r.ut1, r.lod, r.rate] (zonal e) ↔ Agrees r := accepts_iff hd
  rw [loop]
  split
  · rename_i h; rw [hg] at h; simp at h
  · rename_i line s'' h
    rw [hg] at h
    simp only [Prod.mk.injEq, true_and] at h
    rw [← h.1, hf, ← h.2]
    simp only [he, Res.bind, hacc]

/-- Rows that agree are passed over; the first that does not ends the program. -/
theorem loop_pre {junk : List ℚ} (hj : junk.length = 4) {pre : List (List Char)} {rs : List Row}
    (h : List.Forall₂ Holds pre rs) : ∀ (post : List (List Char)) (s : In), AtLines (pre ++ post) s →
      ((∀ r ∈ rs, Agrees r) → ∃ s', AtLines post s' ∧ loop junk s = loop junk s') ∧
      ((∃ r ∈ rs, ¬ Agrees r) → loop junk s = .ok 1) := by
  induction h with
  | nil => intro post s hs; exact ⟨fun _ => ⟨s, hs, rfl⟩, by simp⟩
  | @cons l r ls rs hr _ ih =>
    intro post s hs
    obtain ⟨s1, h1, h2⟩ := loop_row hj hs hr
    obtain ⟨i1, i2⟩ := ih post s1 h1
    refine ⟨fun ha => ?_, fun ⟨x, hx, hn⟩ => ?_⟩
    · rw [if_pos (ha r (List.mem_cons_self ..))] at h2
      obtain ⟨s2, h3, h4⟩ := i1 fun x hx => ha x (List.mem_cons_of_mem _ hx)
      exact ⟨s2, h3, h2.trans h4⟩
    · rw [h2]
      split
      · rename_i ha
        rcases List.mem_cons.mp hx with rfl | hx
        · exact absurd ha hn
        · exact i2 ⟨x, hx, hn⟩
      · rfl

/-! ### The program -/

open Classical in
/-- C130: a file of rows passes if and only if every row agrees with Table 8.1; otherwise the exit status is 1. -/
theorem zonal_check {rs : List Row} {text : List Char} (hf : IsFile rs text) (junk : Fin 4 → ℚ) :
    program junk 2 (some text) = .ok (if ∀ r ∈ rs, Agrees r then 0 else 1) := by
  obtain ⟨ls, hl, h⟩ := hf
  obtain ⟨h1, h2⟩ := loop_pre (junk := List.ofFn junk) (by simp) h [] ⟨text, false, false⟩ (Or.inl ⟨text, rfl, by simpa using hl⟩)
  unfold program In.start
  rw [if_neg (by simp)]
  show loop (List.ofFn junk) ⟨text, false, false⟩ = _
  by_cases ha : ∀ r ∈ rs, Agrees r
  · rw [if_pos ha]
    obtain ⟨s, h3, h4⟩ := h1 ha
    exact h4.trans (loop_stop (at_end h3))
  · rw [if_neg ha]
    push Not at ha
    exact h2 ha

/-- C130: a line that does not begin with four numbers, behind rows, prevents success: the program aborts unless a row before it does not agree. -/
theorem zonal_check_unreadable {pre post : List (List Char)} {l text : List Char} {rs : List Row} (hl : IsLines (pre ++ l :: post) text)
    (hp : List.Forall₂ Holds pre rs) (hlen : l.length < 512) (hn : ¬ ∃ vals, LineHas l vals ∧ vals.length = 4) (junk : Fin 4 → ℚ) :
    ((∀ r ∈ rs, Agrees r) → program junk 2 (some text) = .abort) ∧ ((∃ r ∈ rs, ¬ Agrees r) → program junk 2 (some text) = .ok 1) := by
  obtain ⟨h1, h2⟩ := loop_pre (junk := List.ofFn junk) (by simp) hp (l :: post) ⟨text, false, false⟩ (Or.inl ⟨text, rfl, hl⟩)
  unfold program In.start
  rw [if_neg (by simp)]
  refine ⟨fun ha => ?_, h2⟩
  obtain ⟨s, h3, h4⟩ := h1 ha
  obtain ⟨s', hg, -⟩ := at_next h3 hlen
  refine h4.trans ?_
  rw [loop]
  split
  · rename_i h; rw [hg] at h; simp at h
  · rename_i line s'' h
    rw [hg] at h
    simp only [Prod.mk.injEq, true_and] at h
    rw [← h.1]
    split
    · rename_i t v hf
      exact absurd ⟨_, (readFields_sound _ l _ hf).1, by rw [(readFields_sound _ l _ hf).2]; simp⟩ hn
    · rfl

/-- C130: a line of 512 characters or more ends the check of the zonal tides without a complaint: the program succeeds whatever this line and
the lines behind it are (test/iers/eop_rgzont2.cpp:33, 81). -/
theorem zonal_check_fails {pre post : List (List Char)} {l text : List Char} {rs : List Row} (hl : IsLines (pre ++ l :: post) text)
    (hp : List.Forall₂ Holds pre rs) (ha : ∀ r ∈ rs, Agrees r) (hlen : 512 ≤ l.length) (junk : Fin 4 → ℚ) :
    program junk 2 (some text) = .ok 0 := by
  obtain ⟨s, h1, h2⟩ := (loop_pre (junk := List.ofFn junk) (by simp) hp (l :: post) ⟨text, false, false⟩ (Or.inl ⟨text, rfl, hl⟩)).1 ha
  unfold program In.start
  rw [if_neg (by simp)]
  exact h2.trans (loop_stop (at_long h1 hlen))

/-- The date of whatever epoch is made. -/
theorem epoch_date {t : ℚ} {e : Iau.Epoch} (h : LibrationCheck.epoch t = .ok e) : (e.mjd : ℝ) + e.f = t := by
  unfold LibrationCheck.epoch epochOf at h
  simp only at h
  by_cases hn : -2147483648 ≤ (if t < 0 then ⌈t⌉ else ⌊t⌋) ∧ (if t < 0 then ⌈t⌉ else ⌊t⌋) ≤ 2147483647
  · rw [if_pos hn] at h
    simp only [Res.bind] at h
    injection h with h
    rw [← h]
    show ((⌊_⌋ : ℤ) : ℝ) + Int.fract _ = _
    rw [Int.floor_add_fract]
    generalize (if t < 0 then ⌈t⌉ else ⌊t⌋) = n
    push_cast
    ring
  · rw [if_neg hn] at h
    simp [Res.bind] at h

open Classical in
theorem loop_line {junk : List ℚ} (hj : junk.length = 4) {l : List Char} {ls : List (List Char)} {s : In}
    (h : AtLines (l :: ls) s) (hlen : l.length < 512) (hz : loop junk s = .ok 0) :
    ∃ s' r, AtLines ls s' ∧ loop junk s' = .ok 0 ∧ LineHas l [r.t, r.ut1, r.lod, r.rate] ∧ Agrees r := by
  obtain ⟨s', hg, ha⟩ := at_next h hlen
  rw [loop] at hz
  split at hz
  · rename_i h; rw [hg] at h; simp at h
  · rename_i line s'' h
    rw [hg] at h
    simp only [Prod.mk.injEq, true_and] at h
    rw [← h.1, ← h.2] at hz
    split at hz
    · rename_i t v hf
      obtain ⟨f1, f2⟩ := readFields_sound _ _ _ hf
      rw [hj] at f2
      obtain ⟨a, b, c, rfl⟩ : ∃ a b c, v = [a, b, c] := by
        match v, f2 with
        | [a, b, c], _ => exact ⟨a, b, c, rfl⟩
      cases he : LibrationCheck.epoch t with
      | ok e =>
        rw [he] at hz
        simp only [Res.bind] at hz
        split at hz
        · rename_i hacc
          exact ⟨s', ⟨t, a, b, c⟩, ha, hz, f1, (accepts_iff (r := ⟨t, a, b, c⟩) (epoch_date he)).mp hacc⟩
        · simp at hz
      | ub => rw [he] at hz; simp [Res.bind] at hz
      | abort => rw [he] at hz; simp [Res.bind] at hz
      | throw => rw [he] at hz; simp [Res.bind] at hz
    · simp at hz

/-- C130 (partial): if any text of lines that fit passes, each of its lines begins with four numbers that agree with Table 8.1. Missing:
lines that do not fit, see `zonal_check_fails`. -/
theorem zonal_check_lines_partial {ls : List (List Char)} {text : List Char} (hl : IsLines ls text)
    (hlen : ∀ l ∈ ls, l.length < 512) {junk : Fin 4 → ℚ} (h : program junk 2 (some text) = .ok 0) :
    ∀ l ∈ ls, ∃ r : Row, LineHas l [r.t, r.ut1, r.lod, r.rate] ∧ Agrees r := by
  have key : ∀ (ls : List (List Char)) (s : In), AtLines ls s → (∀ l ∈ ls, l.length < 512) → loop (List.ofFn junk) s = .ok 0 →
      ∀ l ∈ ls, ∃ r : Row, LineHas l [r.t, r.ut1, r.lod, r.rate] ∧ Agrees r := by
    intro ls
    induction ls with
    | nil => intro s _ _ _ l hl; simp at hl
    | cons l ls ih =>
      intro s hs hlen hz x hx
      obtain ⟨s', r, h1, h2, h3, h4⟩ := loop_line (by simp) hs (hlen l (List.mem_cons_self ..)) hz
      rcases List.mem_cons.mp hx with rfl | hx
      · exact ⟨r, h3, h4⟩
      · exact ih s' h1 (fun y hy => hlen y (List.mem_cons_of_mem _ hy)) h2 x hx
  unfold program In.start at h
  rw [if_neg (by simp)] at h
  exact key ls ⟨text, false, false⟩ (Or.inl ⟨text, rfl, hl⟩) hlen h

/-- C130: without the file, or with another number of arguments, the program fails. -/
theorem zonal_check_no_file (junk : Fin 4 → ℚ) : program junk 2 none = .ok 2 ∧ ∀ argc file, argc ≠ 2 → program junk argc file = .ok 1 :=
  ⟨rfl, fun _ _ h => if_pos h⟩

/-! ### Files that pass and files that do not -/

/-- The last `n` digits of a number. -/
def digs : Nat → Nat → List Char
  | 0, _ => []
  | n + 1, m => dig (m / 10 ^ n) :: digs n m

theorem digs_ok (n m : Nat) : (digs n m).length = n ∧ natOf (digs n m) = m % 10 ^ n ∧ ∀ c ∈ digs n m, isDig c = true ∧ c ≠ '\n' := by
  induction n with
  | zero => simp [digs, natOf, Nat.mod_one]
  | succ n ih =>
    obtain ⟨h1, h2, h3⟩ := ih
    obtain ⟨a, b, c⟩ := dig_ok (m / 10 ^ n)
    refine ⟨by simp [digs, h1], ?_, ?_⟩
    · simp only [digs, natOf, h1, h2, a]
      rw [Nat.mod_pow_succ]
      ring
    · intro x hx
      rcases List.mem_cons.mp hx with rfl | hx
      · exact ⟨b, c⟩
      · exact h3 x hx

/-- The text of `k` times 1e-15. -/
def tiny (k : Int) : Dec := ⟨decide (k < 0), digs 16 k.natAbs, none, some ('e', some true, ['1', '5'])⟩

theorem signed (k : Int) : (if decide (k < 0) = true then -(k.natAbs : ℚ) else (k.natAbs : ℚ)) = k := by
  simp only [decide_eq_true_eq]
  split
  · have : ((k.natAbs : Int) : ℚ) = ((-k : Int) : ℚ) := by congr 1; omega
    rw [Int.cast_natCast] at this
    rw [this]; push_cast; ring
  · have : ((k.natAbs : Int) : ℚ) = ((k : Int) : ℚ) := by congr 1; omega
    rw [Int.cast_natCast] at this
    rw [this]

theorem tiny_ok {k : Int} (h : k.natAbs < 10 ^ 16) :
    (tiny k).Ok ∧ (tiny k).value = (k : ℚ) / 10 ^ 15 ∧ (tiny k).text.length ≤ 30 ∧ '\n' ∉ (tiny k).text := by
  obtain ⟨h1, h2, h3⟩ := digs_ok 16 k.natAbs
  rw [Nat.mod_eq_of_lt h] at h2
  have hm := signed k
  refine ⟨⟨fun c hc => (h3 c hc).1, by simp [tiny], Or.inl ?_, ?_⟩, ?_, ?_, ?_⟩
  · intro he
    have he' : digs 16 k.natAbs = [] := he
    rw [he'] at h1
    exact absurd h1 (by decide)
  · intro l s e he
    simp only [tiny, Option.some.injEq, Prod.mk.injEq] at he
    obtain ⟨rfl, rfl, rfl⟩ := he
    exact ⟨Or.inl rfl, by simp, by decide⟩
  · have e1 : expVal (some ('e', some true, ['1', '5'])) = -15 := by decide
    unfold Dec.value tiny
    simp only [e1, h2, Option.getD_none, natOf, List.length_nil, Nat.cast_zero, zero_div, add_zero, hm]
    rw [zpow_neg, div_eq_mul_inv]
    norm_num
  · unfold Dec.text tiny
    simp only [fracText, expText, expSignText, List.length_append, h1]
    split <;> simp
  · unfold Dec.text tiny
    simp only [fracText, expText, expSignText, List.mem_append, not_or]
    refine ⟨by split <;> decide, fun hx => (h3 _ hx).2 rfl, by simp, by decide⟩

theorem text_near {x : ℝ} (h : |x| ≤ 9) : ∃ d : Dec, d.Ok ∧ |(d.value : ℝ) - x| ≤ 1e-15 ∧ d.text.length ≤ 30 ∧ '\n' ∉ d.text := by
  obtain ⟨h1, h2⟩ := abs_le.mp h
  have a := Int.floor_le (x * 10 ^ 15)
  have b := Int.lt_floor_add_one (x * 10 ^ 15)
  have c1 : (-9 * 10 ^ 15 : Int) ≤ ⌊x * 10 ^ 15⌋ := Int.le_floor.mpr (by push_cast; nlinarith)
  have c2 : ⌊x * 10 ^ 15⌋ < 9 * 10 ^ 15 + 1 := Int.floor_lt.mpr (by push_cast; nlinarith)
  obtain ⟨d1, d2, d3, d4⟩ := tiny_ok (k := ⌊x * 10 ^ 15⌋) (by omega)
  refine ⟨_, d1, ?_, d3, d4⟩
  rw [d2]
  push_cast
  generalize ((⌊x * 10 ^ 15⌋ : Int) : ℝ) = k at a b
  rw [show k / 10 ^ 15 - x = (k - x * 10 ^ 15) / 10 ^ 15 by field_simp, abs_div, abs_of_pos (by positivity : (0 : ℝ) < 10 ^ 15), div_le_iff₀ (by positivity)]
  rw [abs_le]
  norm_num at a b ⊢
  constructor <;> linarith

theorem sum_size (a b : ZEntry → Int) (c : ℝ) (hc : 100 ≤ c) (rows : List ZEntry) (θ φ : ZEntry → ℝ) (hθ : ∀ r, |θ r| ≤ 1) (hφ : ∀ r, |φ r| ≤ 1) :
    |(rows.map fun r => (a r : ℝ) / c * θ r + (b r : ℝ) / c * φ r).sum| ≤ ((rows.map fun r => (|(a r : ℚ)| + |(b r : ℚ)|)).sum : ℚ) / c := by
  have hc0 : 0 < c := by linarith
  induction rows with
  | nil => simp
  | cons r rows ih =>
    simp only [List.map_cons, List.sum_cons]
    push_cast at ih ⊢
    have e1 : |(a r : ℝ) / c * θ r| ≤ |(a r : ℝ)| / c := by
      rw [abs_mul, abs_div, abs_of_pos hc0]
      exact mul_le_of_le_one_right (by positivity) (hθ r)
    have e2 : |(b r : ℝ) / c * φ r| ≤ |(b r : ℝ)| / c := by
      rw [abs_mul, abs_div, abs_of_pos hc0]
      exact mul_le_of_le_one_right (by positivity) (hφ r)
    rw [add_div, add_div]
    rw [abs_le] at e1 e2 ih ⊢
    constructor <;> linarith [e1.1, e1.2, e2.1, e2.2, ih.1, ih.2]

theorem sizes : (table81.map fun r => (|(r.dut1B : ℚ)| + |(r.dut1C : ℚ)|)).sum ≤ 900000000 ∧
    (table81.map fun r => (|(r.dlodB : ℚ)| + |(r.dlodC : ℚ)|)).sum ≤ 9000000000 ∧
    (table81.map fun r => (|(r.domegaB : ℚ)| + |(r.domegaC : ℚ)|)).sum ≤ 9000000000 := by
  refine ⟨?_, ?_, ?_⟩ <;> decide +kernel

theorem values_size (T : ℝ) : |zonalUT1 T| ≤ 9 ∧ |zonalLod T| ≤ 9 ∧ |zonalRate T| ≤ 9 := by
  obtain ⟨z1, z2, z3⟩ := sizes
  have big : ∀ {q m : ℚ} {x c : ℝ}, |x| ≤ (q : ℝ) / c → q ≤ m → 0 < c → (m : ℝ) / c ≤ 9 → |x| ≤ 9 := fun h h' hc hm =>
    h.trans ((div_le_div_of_nonneg_right (by exact_mod_cast h') hc.le).trans hm)
  unfold zonalUT1 zonalLod zonalRate
  exact ⟨big (sum_size ZEntry.dut1B ZEntry.dut1C 1e8 (by norm_num) table81 _ _ (fun _ => Real.abs_sin_le_one _) (fun _ => Real.abs_cos_le_one _)) z1
      (by norm_num) (by norm_num),
    big (sum_size ZEntry.dlodB ZEntry.dlodC 1e9 (by norm_num) table81 _ _ (fun _ => Real.abs_cos_le_one _) (fun _ => Real.abs_sin_le_one _)) z2
      (by norm_num) (by norm_num),
    big (sum_size ZEntry.domegaB ZEntry.domegaC 1e18 (by norm_num) table81 _ _ (fun _ => Real.abs_cos_le_one _) (fun _ => Real.abs_sin_le_one _)) z3
      (by norm_num) (by norm_num)⟩

/-- There is a line for every date. -/
theorem row_exists (dt : Dec) (hd : dt.okb = true) (h0 : 0 ≤ dt.value) (h1 : dt.value < 2147483648) (hlen : dt.text.length ≤ 100)
    (hnl : '\n' ∉ dt.text) : ∃ l r, r.t = dt.value ∧ Holds l r ∧ Agrees r ∧ '\n' ∉ l := by
  obtain ⟨z1, z2, z3⟩ := values_size (centuries (dt.value : ℝ))
  obtain ⟨d1, o1, n1, l1, k1⟩ := text_near z1
  obtain ⟨d2, o2, n2, l2, k2⟩ := text_near z2
  obtain ⟨d3, o3, n3, l3, k3⟩ := text_near z3
  refine ⟨joined [dt, d1, d2, d3], ⟨dt.value, d1.value, d2.value, d3.value⟩, rfl, ⟨joined_is [dt, d1, d2, d3] ?_, ?_, h0, h1⟩,
    ⟨lt_of_le_of_lt n1 (by norm_num), lt_of_le_of_lt n2 (by norm_num), lt_of_le_of_lt n3 (by norm_num)⟩, ?_⟩
  · intro d h
    simp only [List.mem_cons, List.not_mem_nil, or_false] at h
    rcases h with rfl | rfl | rfl | rfl
    · exact Dec.ok_of hd
    all_goals assumption
  · simp [joined]; omega
  · simp [joined, hnl, k1, k2, k3]

/-- A row of which UT1 is 11 seconds. -/
def wrong : List Dec := [num "60000" "25", num "11" "", num "0" "", num "0" ""]

theorem wrong_holds : Holds (joined wrong) ⟨60000.25, 11, 0, 0⟩ := by
  refine ⟨?_, by decide +kernel, by norm_num, by norm_num⟩
  have h := joined_is wrong (by
    intro d hd
    simp only [wrong, List.mem_cons, List.not_mem_nil, or_false] at hd
    rcases hd with rfl | rfl | rfl | rfl <;> exact Dec.ok_of (by decide))
  have e : wrong.map Dec.value = [60000.25, 11, 0, 0] := by decide +kernel
  rw [e] at h
  exact h

theorem wrong_disagrees : ¬ Agrees ⟨60000.25, 11, 0, 0⟩ := by
  intro h
  have a := h.ut1
  have b := (values_size (centuries ((60000.25 : ℚ) : ℝ))).1
  rw [abs_lt] at a
  rw [abs_le] at b
  have c : ((11 : ℚ) : ℝ) = 11 := by norm_num
  simp only [c] at a
  norm_num at a
  linarith [a.1, a.2, b.1, b.2]

/-- A file of one row that passes; the same with the wrong row behind; with a line without numbers behind; and with a long line and the wrong
row behind, which passes. -/
example (junk : Fin 4 → ℚ) (w : List Char) (hw : w = List.replicate 600 '1') : ∃ l : List Char,
    program junk 2 (some (l ++ ['\n'])) = .ok 0 ∧
    program junk 2 (some (l ++ '\n' :: (joined wrong ++ ['\n']))) = .ok 1 ∧
    program junk 2 (some (l ++ '\n' :: "# end\n".toList)) = .abort ∧
    program junk 2 (some (l ++ '\n' :: (w ++ '\n' :: (joined wrong ++ ['\n'])))) = .ok 0 := by
  obtain ⟨l, r, t, h, n, m⟩ := row_exists (num "60000" "25") (by decide) (by decide +kernel) (by decide +kernel) (by decide) (by decide)
  have hw' : '\n' ∉ joined wrong := by decide +kernel
  have hw2 : '\n' ∉ w := by rw [hw]; decide +kernel
  have h1 := zonal_check (rs := [r]) (text := l ++ ['\n']) ⟨[l], ⟨by simp [m], Or.inl (by simp)⟩, .cons h .nil⟩ junk
  have h2 := zonal_check (rs := [r, ⟨60000.25, 11, 0, 0⟩]) (text := l ++ '\n' :: (joined wrong ++ ['\n']))
    ⟨[l, joined wrong], ⟨by simp [m, hw'], Or.inl (by simp)⟩, .cons h (.cons wrong_holds .nil)⟩ junk
  rw [if_pos (by simp [n])] at h1
  rw [if_neg (by simp [wrong_disagrees])] at h2
  refine ⟨l, h1, h2, (zonal_check_unreadable (pre := [l]) (post := []) (l := "# end".toList) (rs := [r]) ⟨?_, Or.inl (by simp)⟩ (.cons h .nil)
    (by decide) (comment_skipped (k := 3) (c := '#') (l := " end".toList) (by decide)) junk).1 (by simp [n]),
    zonal_check_fails (pre := [l]) (post := [joined wrong]) (l := w) (rs := [r]) ⟨by simp [m, hw', hw2], Or.inl (by simp)⟩ (.cons h .nil)
      (by simp [n]) (by rw [hw, List.length_replicate]; decide) junk⟩
  intro x hx
  simp only [List.cons_append, List.nil_append, List.mem_cons, List.not_mem_nil, or_false] at hx
  rcases hx with rfl | rfl
  · exact m
  · decide

/-- A file that passes meets the hypotheses of the converse statement. -/
example (junk : Fin 4 → ℚ) : ∃ l : List Char, program junk 2 (some (l ++ ['\n'])) = .ok 0 ∧
    ∃ r : Row, LineHas l [r.t, r.ut1, r.lod, r.rate] ∧ Agrees r := by
  obtain ⟨l, r, t, h, n, m⟩ := row_exists (num "60000" "25") (by decide) (by decide +kernel) (by decide +kernel) (by decide) (by decide)
  have hl : IsLines [l] (l ++ ['\n']) := ⟨by simp [m], Or.inl (by simp)⟩
  have hp := zonal_check (rs := [r]) ⟨[l], hl, .cons h .nil⟩ junk
  rw [if_pos (by simp [n])] at hp
  exact ⟨l, hp, zonal_check_lines_partial hl (by simp [h.2.1]) hp l (by simp)⟩

end Verif.ZonalCheck
