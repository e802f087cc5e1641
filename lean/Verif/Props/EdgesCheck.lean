import Verif.Model.EdgesCheck
import Verif.Spec.EdgesCheck
import Verif.Props.EopFile
import Mathlib.Tactic.IntervalCases
/-
C132: the check of the interpolation at the edges of a series.
-/
namespace Verif.EdgesCheck
open Verif Verif.Eop Verif.Chars

theorem daily_sorted {v : List (Rec ℚ)} {δ : ℕ → ℚ} (h : Daily v δ) : Sorted v := by
  unfold Sorted
  rw [List.pairwise_iff_getElem]
  intro i j hi hj hij
  obtain ⟨a, a1, a2⟩ := h.2 i hi
  obtain ⟨b, b1, b2⟩ := h.2 j hj
  rw [a, b]
  have : (i : ℚ) + 1 ≤ j := by exact_mod_cast hij
  linarith

/-- The status of an interpolation with degree 5 among nine records, `k` of which are not after the epoch. -/
def stat (k : ℕ) : Status := if k = 0 then .prior else if k = 9 then .later else if k = 1 ∨ k = 8 then .linear
  else if k = 2 ∨ k = 7 then .decreased else .requested

theorem inner {leap : ℚ → ℚ} {s : Series ℚ} (hs : Sorted s.vec) (hc : s.CacheOk) (hn : s.vec.length = 9) {t : ℚ} {k : ℕ} (h0 : 0 < k) (h9 : k < 9)
    (hk : upperBound t s.vec = k) (old : Rec ℚ) :
    ∃ r s', s.interpolate leap t old 5 = .ok (stat k, r, s') ∧ r.t = t ∧ s'.vec = s.vec ∧ s'.CacheOk := by
  obtain ⟨l, hl, hle⟩ := hc
  unfold Series.interpolate
  rw [if_neg (by omega), hunt_sorted hs hl hle, hk]
  simp only [Res.bind]
  rw [if_neg (by omega), if_neg (by omega), if_neg (by omega)]
  obtain ⟨a, ha⟩ : ∃ a, s.vec[k - 1]? = some a := ⟨_, List.getElem?_eq_getElem (by omega)⟩
  obtain ⟨b, hb⟩ : ∃ b, s.vec[k]? = some b := ⟨_, List.getElem?_eq_getElem (by omega)⟩
  simp only [ha, hb, hn]
  have hcache : ∀ v : List (Rec ℚ), v = s.vec → Series.CacheOk (⟨v, s.cap, some k⟩ : Series ℚ) := fun v hv => ⟨k, rfl, by rw [hv, hn]; omega⟩
  interval_cases k <;> exact ⟨_, _, rfl, rfl, rfl, hcache _ rfl⟩

theorem ask_inner {leap : ℚ → ℚ} {p : Rec ℚ × Series ℚ} (hs : Sorted p.2.vec) (hc : p.2.CacheOk) (hn : p.2.vec.length = 9) {t : ℚ} {k : ℕ} (h0 : 0 < k)
    (h9 : k < 9) (hk : upperBound t p.2.vec = k) : ∃ p', ask leap t (stat k) p = .ok p' ∧ p'.2.vec = p.2.vec ∧ p'.2.CacheOk := by
  obtain ⟨r, s', h1, h2, h3, h4⟩ := inner (leap := leap) hs hc hn h0 h9 hk p.1
  refine ⟨(r, s'), ?_, h3, h4⟩
  unfold ask
  rw [h1]
  simp [Res.bind, h2]

/-- Position of an epoch in a daily series. -/
theorem daily_bound {v : List (Rec ℚ)} {δ : ℕ → ℚ} (h : Daily v δ) {t : ℚ} {k : ℕ} (h9 : k < 9) (hb : t < 57750 + k + δ k)
    (ha : ∀ j < k, 57750 + j + δ j ≤ t) : upperBound t v = k := by
  unfold upperBound
  rw [List.findIdx_eq (by rw [h.1]; exact h9)]
  refine ⟨by rw [(h.2 k _).1]; simpa using hb, fun j hj => ?_⟩
  rw [(h.2 j (by rw [h.1]; omega)).1]
  simpa using ha j hj

theorem ask_wrong {leap : ℚ → ℚ} {p : Rec ℚ × Series ℚ} (hs : Sorted p.2.vec) (hc : p.2.CacheOk) (hn : p.2.vec.length = 9) {t : ℚ} {k : ℕ} (h0 : 0 < k)
    (h9 : k < 9) (hk : upperBound t p.2.vec = k) {want : Status} (hw : stat k ≠ want) : ask leap t want p = .abort := by
  obtain ⟨r, s', h1, h2, h3, h4⟩ := inner (leap := leap) hs hc hn h0 h9 hk p.1
  unfold ask
  rw [h1]
  simp [Res.bind, hw]

theorem ask_prior {leap : ℚ → ℚ} {p : Rec ℚ × Series ℚ} (hs : Sorted p.2.vec) (hc : p.2.CacheOk) {r0 : Rec ℚ} {rest : List (Rec ℚ)}
    (hv : p.2.vec = r0 :: rest) {t : ℚ} (ht : t < r0.t) : ∃ s', ask leap t .prior p = .ok ({ r0 with t := t }, s') ∧ s'.vec = p.2.vec ∧ s'.CacheOk := by
  obtain ⟨s', h1, h2, h3⟩ := eop_prior leap hs hc hv t ht p.1 5 (by norm_num)
  refine ⟨s', ?_, h2, h3⟩
  unfold ask
  rw [h1]
  simp [Res.bind]

theorem ask_prior_wrong {leap : ℚ → ℚ} {p : Rec ℚ × Series ℚ} (hs : Sorted p.2.vec) (hc : p.2.CacheOk) {r0 : Rec ℚ} {rest : List (Rec ℚ)}
    (hv : p.2.vec = r0 :: rest) {t : ℚ} (ht : t < r0.t) {want : Status} (hw : want ≠ .prior) : ask leap t want p = .abort := by
  obtain ⟨s', h1, h2, h3⟩ := eop_prior leap hs hc hv t ht p.1 5 (by norm_num)
  unfold ask
  rw [h1]
  simp [Res.bind, hw.symm]

theorem ask_later {leap : ℚ → ℚ} {p : Rec ℚ × Series ℚ} (hs : Sorted p.2.vec) (hc : p.2.CacheOk) {rn : Rec ℚ} {pre : List (Rec ℚ)}
    (hv : p.2.vec = pre ++ [rn]) {t : ℚ} (ht : rn.t ≤ t) : ∃ s', ask leap t .later p = .ok ({ rn with t := t }, s') ∧ s'.vec = p.2.vec ∧ s'.CacheOk := by
  obtain ⟨s', h1, h2, h3⟩ := eop_later leap hs hc hv t ht p.1 5 (by norm_num)
  refine ⟨s', ?_, h2, h3⟩
  unfold ask
  rw [h1]
  simp [Res.bind]

/-- C132: for nine daily records the program succeeds exactly if each of the first three is at most a minute after midnight (TT). -/
theorem edges_check {leap : ℚ → ℚ} {old : Rec ℚ} {s : Series ℚ} {δ : ℕ → ℚ} (h : Daily s.vec δ) (hc : s.CacheOk) :
    check leap old s = if δ 0 ≤ 60 / 86400 ∧ δ 1 ≤ 60 / 86400 ∧ δ 2 ≤ 60 / 86400 then .ok 0 else .abort := by
  have hs := daily_sorted h
  have hn := h.1
  have pos : ∀ i < 9, 0 < δ i ∧ δ i < 1 := fun i hi => (h.2 i (by omega)).2
  obtain ⟨r0, rest, hv0⟩ : ∃ r0 rest, s.vec = r0 :: rest := List.exists_cons_of_length_pos (by omega)
  obtain ⟨pre, rn, hvn⟩ : ∃ pre rn, s.vec = pre ++ [rn] := by
    rcases List.eq_nil_or_concat s.vec with e | ⟨a, b, e⟩
    · rw [e] at hn; simp at hn
    · exact ⟨a, b, by simpa using e⟩
  have t0 : r0.t = 57750 + δ 0 := by
    have := (h.2 0 (by omega)).1
    simp only [hv0, List.getElem_cons_zero] at this
    simpa using this
  have tn : rn.t = 57758 + δ 8 := by
    have hp : pre.length = 8 := by rw [hvn] at hn; simp at hn; omega
    have := (h.2 8 (by omega)).1
    simp only [hvn] at this
    rw [List.getElem_append_right (by omega)] at this
    simp only [hp, Nat.sub_self, List.getElem_cons_zero] at this
    rw [this]
    norm_num
  obtain ⟨p0, p0'⟩ := pos 0 (by omega)
  obtain ⟨p1, p1'⟩ := pos 1 (by omega)
  obtain ⟨p2, p2'⟩ := pos 2 (by omega)
  have before : ∀ {t : ℚ} {k : ℕ}, k < 9 → 57750 + (k : ℚ) ≤ t → ∀ j < k, 57750 + (j : ℚ) + δ j ≤ t := fun {t k} h9 ht j hj => by
    have := (pos j (by omega)).2
    have : (j : ℚ) + 1 ≤ k := by exact_mod_cast hj
    linarith
  -- positions in any series with these records
  have at_ : ∀ {v : List (Rec ℚ)}, v = s.vec → ∀ (k : ℕ), k < 9 → ∀ t : ℚ, 57750 + (k : ℚ) ≤ t → t < 57750 + (k : ℚ) + δ k → upperBound t v = k :=
    fun {v} e k h9 t h1 h2 => by rw [e]; exact daily_bound h h9 h2 (before h9 h1)
  have at' : ∀ {v : List (Rec ℚ)}, v = s.vec → ∀ (k : ℕ), k + 1 < 9 → ∀ t : ℚ, 57750 + (k : ℚ) + δ k ≤ t → t < 57750 + (k : ℚ) + 1 →
      upperBound t v = k + 1 :=
    fun {v} e k h9 t h1 h2 => by
      rw [e]
      refine daily_bound h h9 ?_ fun j hj => ?_
      · have := (pos (k + 1) h9).1
        push_cast
        linarith
      · rcases Nat.lt_succ_iff_lt_or_eq.mp hj with hj | rfl
        · have := (pos j (by omega)).2
          have h3 : (j : ℚ) + 1 ≤ k := by exact_mod_cast hj
          have := (pos k (by omega)).1
          linarith
        · exact h1
  unfold check
  rw [if_neg (by simp [hn])]
  obtain ⟨s1, a1, v1, c1⟩ := ask_prior (leap := leap) (p := (old, s)) hs hc hv0 (t := 57750) (by rw [t0]; linarith)
  rw [a1]
  simp only [Res.bind]
  have l1 : like { r0 with t := 57750 } s.vec.head? ({ r0 with t := 57750 }, s1) = .ok ({ r0 with t := 57750 }, s1) := by
    rw [hv0]; simp [like]
  rw [l1]
  simp only
  replace v1 : s1.vec = s.vec := v1
  obtain ⟨s2, a2, v2, c2⟩ := ask_later (leap := leap) (p := ({ r0 with t := 57750 }, s1)) (by rw [v1]; exact hs) c1 (v1.trans hvn) (t := 57759 + 60 / 86400)
    (by rw [tn]; have := (pos 8 (by omega)).2; linarith)
  rw [a2]
  simp only
  replace v2 : s2.vec = s.vec := Eq.trans v2 v1
  have l2 : ∀ q, like { rn with t := 57759 + 60 / 86400 } s.vec.getLast? q = .ok q := by
    intro q; rw [hvn]; simp [like]
  rw [l2]
  simp only
  generalize hq : (({ rn with t := 57759 + 60 / 86400 }, s2) : Rec ℚ × Series ℚ) = q
  have vq : q.2.vec = s.vec := by rw [← hq]; exact v2
  have cq : q.2.CacheOk := by rw [← hq]; exact c2
  clear hq v2 c2 a2 l2 a1 l1 v1 c1
  have step : ∀ (q : Rec ℚ × Series ℚ), q.2.vec = s.vec → q.2.CacheOk → ∀ (t : ℚ) (k : ℕ), 0 < k → k < 9 → upperBound t q.2.vec = k →
      ∃ q', ask leap t (stat k) q = .ok q' ∧ q'.2.vec = s.vec ∧ q'.2.CacheOk := fun q v c t k k0 k9 hk => by
    obtain ⟨q', h1, h2, h3⟩ := ask_inner (leap := leap) (by rw [v]; exact hs) c (by rw [v]; exact hn) k0 k9 hk
    exact ⟨q', h1, h2.trans v, h3⟩
  by_cases d0 : δ 0 ≤ 60 / 86400
  swap
  · rw [if_neg (fun x => d0 x.1), ask_prior_wrong (by rw [vq]; exact hs) cq (vq.trans hv0) (by rw [t0]; push Not at d0; linarith) (by decide)]
  obtain ⟨q1, b1, w1, e1⟩ := step q vq cq (57750 + 60 / 86400) 1 (by omega) (by omega) (at' vq 0 (by omega) _ (by push_cast; linarith) (by norm_num))
  rw [show ask leap (57750 + 60 / 86400) .linear q = .ok q1 from b1]
  simp only
  obtain ⟨q2, b2, w2, e2⟩ := step q1 w1 e1 57758 8 (by omega) (by omega) (at_ w1 8 (by omega) _ (by norm_num) (by
    have := (pos 8 (by omega)).1; push_cast; linarith))
  rw [show ask leap 57758 .linear q1 = .ok q2 from b2]
  simp only
  by_cases d1 : δ 1 ≤ 60 / 86400
  swap
  · rw [if_neg (fun x => d1 x.2.1), ask_wrong (k := 1) (by rw [w2]; exact hs) e2 (by rw [w2]; exact hn) (by omega) (by omega)
      (at_ w2 1 (by omega) _ (by norm_num) (by push Not at d1; push_cast; linarith)) (by decide)]
  obtain ⟨q3, b3, w3, e3⟩ := step q2 w2 e2 (57751 + 60 / 86400) 2 (by omega) (by omega) (at' w2 1 (by omega) _ (by push_cast; linarith) (by norm_num))
  rw [show ask leap (57751 + 60 / 86400) .decreased q2 = .ok q3 from b3]
  simp only
  obtain ⟨q4, b4, w4, e4⟩ := step q3 w3 e3 57757 7 (by omega) (by omega) (at_ w3 7 (by omega) _ (by norm_num) (by
    have := (pos 7 (by omega)).1; push_cast; linarith))
  rw [show ask leap 57757 .decreased q3 = .ok q4 from b4]
  simp only
  by_cases d2 : δ 2 ≤ 60 / 86400
  swap
  · rw [if_neg (fun x => d2 x.2.2), ask_wrong (k := 2) (by rw [w4]; exact hs) e4 (by rw [w4]; exact hn) (by omega) (by omega)
      (at_ w4 2 (by omega) _ (by norm_num) (by push Not at d2; push_cast; linarith)) (by decide)]
  obtain ⟨q5, b5, w5, e5⟩ := step q4 w4 e4 (57752 + 60 / 86400) 3 (by omega) (by omega) (at' w4 2 (by omega) _ (by push_cast; linarith) (by norm_num))
  rw [show ask leap (57752 + 60 / 86400) .requested q4 = .ok q5 from b5]
  simp only
  obtain ⟨q6, b6, w6, e6⟩ := step q5 w5 e5 57756 6 (by omega) (by omega) (at_ w5 6 (by omega) _ (by norm_num) (by
    have := (pos 6 (by omega)).1; push_cast; linarith))
  rw [show ask leap 57756 .requested q5 = .ok q6 from b6]
  simp only
  rw [if_pos ⟨d0, d1, d2⟩]

/-- C132: a series with any other number of records is not accepted. -/
theorem edges_check_count {leap : ℚ → ℚ} {old : Rec ℚ} {s : Series ℚ} (hn : s.vec.length ≠ 9) : check leap old s = .abort := by
  unfold check
  rw [if_pos hn]

/-- A series whose first record is more than a minute after midnight. -/
theorem check_late {leap : ℚ → ℚ} {old : Rec ℚ} {s : Series ℚ} (hs : Sorted s.vec) (hc : s.CacheOk) (hb : ∀ r ∈ s.vec, 57750 + 60 / 86400 < r.t)
    (ha : ∀ r ∈ s.vec, r.t < 57759) : check leap old s = .abort := by
  by_cases hn : s.vec.length ≠ 9
  · exact edges_check_count hn
  push Not at hn
  obtain ⟨r0, rest, hv0⟩ : ∃ r0 rest, s.vec = r0 :: rest := List.exists_cons_of_length_pos (by omega)
  obtain ⟨pre, rn, hvn⟩ : ∃ pre rn, s.vec = pre ++ [rn] := by
    rcases List.eq_nil_or_concat s.vec with e | ⟨a, b, e⟩
    · rw [e] at hn; simp at hn
    · exact ⟨a, b, by simpa using e⟩
  have t0 := hb r0 (by rw [hv0]; simp)
  have tn := ha rn (by rw [hvn]; simp)
  unfold check
  rw [if_neg (by simp [hn])]
  obtain ⟨s1, a1, v1, c1⟩ := ask_prior (leap := leap) (p := (old, s)) hs hc hv0 (t := 57750) (by linarith)
  rw [a1]
  simp only [Res.bind]
  have l1 : like { r0 with t := 57750 } s.vec.head? ({ r0 with t := 57750 }, s1) = .ok ({ r0 with t := 57750 }, s1) := by
    rw [hv0]; simp [like]
  rw [l1]
  simp only
  replace v1 : s1.vec = s.vec := v1
  obtain ⟨s2, a2, v2, c2⟩ := ask_later (leap := leap) (p := ({ r0 with t := 57750 }, s1)) (by rw [v1]; exact hs) c1 (v1.trans hvn) (t := 57759 + 60 / 86400)
    (by linarith)
  rw [a2]
  simp only
  replace v2 : s2.vec = s.vec := Eq.trans v2 v1
  have l2 : ∀ q, like { rn with t := 57759 + 60 / 86400 } s.vec.getLast? q = .ok q := by
    intro q; rw [hvn]; simp [like]
  rw [l2]
  simp only
  rw [ask_prior_wrong (p := ({ rn with t := 57759 + 60 / 86400 }, s2)) (by rw [v2]; exact hs) c2 (v2.trans hv0) t0 (by decide)]

/-- C132: the program asks for the first day at a minute after midnight TT, but the first record, at midnight UTC, is later: for every well
formed C04 file of either format, whatever its sampling, in time order, the program stops with a violated assertion. -/
theorem edges_check_fails {tt dat leap : ℚ → ℚ} (htt : Ahead tt) {junk : List ℚ} (hj : 8 ≤ junk.length) (old : Rec ℚ) {lines : List (List Char)}
    {rs : List (Rec ℚ)} (c20 : Bool) (hh : chooseSeries (some lines) = some c20) (h : Holds (if c20 then Is20 tt dat else Is14 tt dat) lines rs)
    (hs : Sorted rs) : program tt dat leap junk old 2 (some lines) = .abort := by
  obtain ⟨s, h1, h2, h3, h4⟩ := parseC04_complete tt dat junk hj 57750 57759 (by norm_num) c20 hh h hs Series.new
  unfold program
  rw [if_neg (by simp), h1]
  simp only [Res.bind]
  rw [if_neg (by simp)]
  have hour : ∀ r ∈ rs, ∃ n : ℤ, r.t = tt (n / 24) := by
    intro r hr
    have hm : ∀ {Is : List Char → Rec ℚ → Prop} {ls : List (List Char)} {rs : List (Rec ℚ)}, Eop.Holds Is ls rs → ∀ r ∈ rs, ∃ l, Is l r := by
      intro Is ls rs h
      induction h with
      | nil => simp
      | comment _ _ _ ih => exact ih
      | data _ hl _ ih =>
        intro r hr
        rcases List.mem_cons.mp hr with rfl | hr
        · exact ⟨_, hl⟩
        · exact ih r hr
    obtain ⟨l, hl⟩ := hm h r hr
    cases c20 with
    | true =>
      obtain ⟨day, hours, -, -, -, -, -, -, -, -, -, -, ht, -⟩ := hl
      refine ⟨24 * day + hours, ht.trans ?_⟩
      congr 1
      push_cast
      ring
    | false =>
      obtain ⟨mjd, -, -, -, -, -, ht, -⟩ := hl
      refine ⟨24 * mjd, ht.trans ?_⟩
      congr 1
      push_cast
      ring
  refine check_late h4 h3 (fun r hr => ?_) (fun r hr => ?_)
  · rw [h2] at hr
    obtain ⟨hr, hb⟩ := List.mem_filter.mp hr
    simp only [decide_eq_true_eq] at hb
    obtain ⟨n, hn⟩ := hour r hr
    rw [hn] at hb ⊢
    have g1 := htt.1 ((n : ℚ) / 24)
    have g2 : (57750 * 24 - 1 : ℤ) < n := by
      have : (57750 * 24 - 1 : ℚ) < n := by linarith [hb.1]
      exact_mod_cast this
    have g3 : (57750 * 24 : ℚ) ≤ n := by exact_mod_cast (show (57750 * 24 : ℤ) ≤ n by omega)
    have g4 := htt.2 ((n : ℚ) / 24) (by linarith)
    linarith
  · rw [h2] at hr
    obtain ⟨-, hb⟩ := List.mem_filter.mp hr
    simp only [decide_eq_true_eq] at hb
    exact hb.2

/-! ### Worked cases -/

/-- Nine daily records, 30 s or 90 s after midnight. -/
def nine (δ : ℚ) : Series ℚ := ⟨(List.range 9).map fun i : ℕ => ⟨57750 + (i : ℚ) + δ, 0.1, 0.2 + i, 0.3, 0.001, 0, 0, 37, 0, 0⟩, 9, some 9⟩

theorem nine_daily {δ : ℚ} (h0 : 0 < δ) (h1 : δ < 1) : Daily (nine δ).vec fun _ => δ := by
  refine ⟨by simp [nine], fun i hi => ⟨?_, h0, h1⟩⟩
  simp [nine]

example (leap : ℚ → ℚ) (old : Rec ℚ) : check leap old (nine (30 / 86400)) = .ok 0 ∧ check leap old (nine (90 / 86400)) = .abort := by
  refine ⟨?_, ?_⟩
  · rw [edges_check (nine_daily (by norm_num) (by norm_num)) ⟨9, rfl, by simp [nine]⟩, if_pos (by norm_num)]
  · rw [edges_check (nine_daily (by norm_num) (by norm_num)) ⟨9, rfl, by simp [nine]⟩, if_neg (by norm_num)]

/-- ΔAT before and after the end of 2016, and the step from UTC to TT. -/
def leaps (x : ℚ) : ℚ := if x < 57754 then 36 else 37
def toTT (x : ℚ) : ℚ := x + (32.184 + leaps x) / 86400

theorem toTT_ahead : Ahead toTT := by
  constructor
  · intro x
    unfold toTT leaps
    split <;> norm_num
  · intro x _
    unfold toTT leaps
    split <;> norm_num

def numbers : List Char := "   0.100000   0.200000   0.3000000   0.0010000   0.000000   0.000000".toList
def row (i : ℕ) : List Char := "2016  12  28".toList ++ ("  5775".toList ++ [Char.ofNat (48 + i)] ++ numbers)
def rec (i : ℕ) : Rec ℚ := ⟨toTT (57750 + i : ℕ), 0.1, 0.2, 0.3, 0.001, 0, 0, leaps (57750 + i : ℕ), 0, 0⟩
def file : List (List Char) := (' ' :: h1c0414) :: (' ' :: h2c0414) :: (' ' :: h3c0414) :: (List.range 9).map row

theorem numbers_ok : LineIs numbers [0.1, 0.2, 0.3, 0.001, 0, 0] := by
  have ok : ∀ (i f : List Char), i ≠ [] → (∀ c ∈ i, isDig c) → (∀ c ∈ f, isDig c) → Dec.Ok ⟨false, i, some f, none⟩ :=
    fun i f h1 h2 h3 => ⟨h2, fun g hg => by simp at hg; rw [← hg]; exact h3, .inl h1, fun _ _ _ h => by simp at h⟩
  refine ⟨3, ⟨false, "0".toList, some "100000".toList, none⟩, _, ok _ _ (by decide) (by decide) (by decide), by decide +kernel, rfl, by unfold Ends; decide, ?_⟩
  refine ⟨3, ⟨false, "0".toList, some "200000".toList, none⟩, _, ok _ _ (by decide) (by decide) (by decide), by decide +kernel, rfl, by unfold Ends; decide, ?_⟩
  refine ⟨3, ⟨false, "0".toList, some "3000000".toList, none⟩, _, ok _ _ (by decide) (by decide) (by decide), by decide +kernel, rfl, by unfold Ends; decide, ?_⟩
  refine ⟨3, ⟨false, "0".toList, some "0010000".toList, none⟩, _, ok _ _ (by decide) (by decide) (by decide), by decide +kernel, rfl, by unfold Ends; decide, ?_⟩
  refine ⟨3, ⟨false, "0".toList, some "000000".toList, none⟩, _, ok _ _ (by decide) (by decide) (by decide), by decide +kernel, rfl, by unfold Ends; decide, ?_⟩
  refine ⟨3, ⟨false, "0".toList, some "000000".toList, none⟩, _, ok _ _ (by decide) (by decide) (by decide), by decide +kernel, rfl, by unfold Ends; decide, ?_⟩
  show Ends _
  unfold Ends; decide

theorem day_ok (i : ℕ) (hi : i < 9) (m : ℤ) (hm : m = 57750 + i) : BeginsInt ("  5775".toList ++ [Char.ofNat (48 + i)] ++ numbers) m numbers := by
  refine ⟨2, ⟨false, "5775".toList ++ [Char.ofNat (48 + i)]⟩, ?_, ?_, ?_, by decide, by omega, by omega⟩
  · interval_cases i <;> exact ⟨by decide, by decide⟩
  · rw [hm]
    interval_cases i <;> decide +kernel
  · rfl

theorem row_ok (i : ℕ) (hi : i < 9) : (row i).length < 256 ∧ Is14 toTT leaps (row i) (rec i) := by
  obtain ⟨m, hm⟩ : ∃ m : ℤ, m = 57750 + i := ⟨_, rfl⟩
  have hq : ((57750 + i : ℕ) : ℚ) = m := by rw [hm]; push_cast; ring
  refine ⟨by interval_cases i <;> decide +kernel, m, _, numbers, ⟨"2016  12  28".toList, rfl, rfl, by rw [← isComment_iff]; decide⟩, day_ok i hi m hm, numbers_ok, ?_, ?_, rfl, rfl⟩
  · unfold rec
    simp only [hq]
  · unfold rec
    simp only [hq]

theorem rec_sorted : Sorted ((List.range 9).map rec) := by
  unfold Sorted
  rw [List.pairwise_map]
  refine List.pairwise_lt_range.imp fun {a b} h => ?_
  have : (a : ℚ) + 1 ≤ b := by exact_mod_cast h
  show toTT _ < toTT _
  unfold toTT leaps
  push_cast
  split <;> split <;> linarith

theorem file_holds : Holds (Is14 toTT leaps) file ((List.range 9).map rec) := by
  have key : ∀ l : List ℕ, (∀ i ∈ l, i < 9) → Eop.Holds (Is14 toTT leaps) (l.map row) (l.map rec) := by
    intro l
    induction l with
    | nil => exact fun _ => .nil
    | cons i l ih =>
      intro h
      obtain ⟨h1, h2⟩ := row_ok i (h i (by simp))
      exact .data h1 h2 (ih fun j hj => h j (by simp [hj]))
  have hk := key (List.range 9) fun i hi => List.mem_range.mp hi
  unfold file
  generalize (List.range 9).map row = R at hk ⊢
  generalize (List.range 9).map rec = S at hk ⊢
  exact .comment (by decide +kernel) (.inr ⟨h1c0414, .inl rfl⟩) (.comment (by decide +kernel) (.inr ⟨h2c0414, .inl rfl⟩)
    (.comment (by decide +kernel) (.inr ⟨h3c0414, .inl rfl⟩) hk))

/-- The records from 2016-12-28 to 2017-01-05 of a file in the format of 2014: there are nine, and the check fails. -/
example (leap : ℚ → ℚ) (old : Rec ℚ) : program toTT leaps leap (List.replicate 8 0) old 2 (some file) = .abort ∧
    ∃ s, parseC04 toTT leaps (List.replicate 8 0) (some file) 57750 57759 Series.new = .ok (0, s) ∧ s.vec = (List.range 9).map rec := by
  have hc : chooseSeries (some file) = some false := by decide +kernel
  refine ⟨edges_check_fails toTT_ahead (by simp) old false hc file_holds rec_sorted, ?_⟩
  obtain ⟨s, h1, h2, -⟩ := parseC04_complete toTT leaps (List.replicate 8 0) (by simp) 57750 57759 (by norm_num) false hc file_holds rec_sorted Series.new
  refine ⟨s, h1, h2.trans ?_⟩
  decide +kernel

end Verif.EdgesCheck
