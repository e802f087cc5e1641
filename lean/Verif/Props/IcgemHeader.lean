import Verif.Proof.IcgemHeader
import Verif.Props.Icgem
/-
C73: the header of an ICGEM file.
-/
namespace Verif.Icgem.Head
open Verif Verif.Chars

/-! ### Lemmas -/

theorem lastOf_cons {α : Type} (f : Setting → Option α) (d : α) (s : Setting) (ss : List Setting) :
    lastOf f d (s :: ss) = lastOf f ((f s).getD d) ss := by
  unfold lastOf
  cases h : f s with
  | none => simp [List.filterMap_cons, h]
  | some v => simp only [List.filterMap_cons, h, List.getLast?_cons, Option.getD_some]

theorem fold_put (ss : List Setting) : ∀ h : Data, ss.foldl put h =
    { v2 := lastOf Setting.format? h.v2 ss
      productType := lastOf Setting.productType? h.productType ss
      modelName := lastOf Setting.modelName? h.modelName ss
      tideSystem := lastOf Setting.tideSystem? h.tideSystem ss
      norm := lastOf Setting.norm? h.norm ss
      errors := lastOf Setting.errors? h.errors ss
      gm := lastOf Setting.gm? h.gm ss
      radius := lastOf Setting.radius? h.radius ss
      maxDegree := lastOf Setting.maxDegree? h.maxDegree ss } := by
  induction ss with
  | nil => intro h; rfl
  | cons s ss ih =>
    intro h
    rw [List.foldl_cons, ih]
    simp only [lastOf_cons]
    cases s <;> rfl

theorem loop_reads {lines : List (List Char)} {ss : List Setting} (hl : Holds lines ss) (tail data : List Char)
    (ht : '\n' ∉ tail) (hs : tail.length + 11 < 256) : ∀ (n : Nat) (h : Data), lines.length ≤ n →
    let r := (⟨unlines lines ++ ("end_of_head".toList ++ tail ++ '\n' :: data), false, false⟩ : In).getline 256
    loop n r.1 r.2.2 h = .ok (0, ss.foldl put h, ⟨data, false, false⟩) := by
  induction hl with
  | nil =>
    intro n h hn
    have e := getline_line ("end_of_head".toList ++ tail) data (by simp; omega) (by
      rw [List.mem_append]; rintro (h | h)
      · revert h; decide
      · exact ht h)
    simp only [unlines, List.flatMap_nil, List.nil_append]
    rw [e]
    unfold loop
    rw [if_pos (by simp)]
    rfl
  | gives hp hg hh ih =>
    rename_i line lines s ss
    intro n h hn
    obtain ⟨n, rfl⟩ : ∃ k, n = k + 1 := ⟨n - 1, by simp at hn; omega⟩
    have e := getline_line line (unlines lines ++ ("end_of_head".toList ++ tail ++ '\n' :: data)) hp.short hp.one
    have e2 : unlines (line :: lines) ++ ("end_of_head".toList ++ tail ++ '\n' :: data) =
        line ++ '\n' :: (unlines lines ++ ("end_of_head".toList ++ tail ++ '\n' :: data)) := by simp [unlines]
    rw [e2]
    simp only [e]
    have hne : ¬ "end_of_head".toList.isPrefixOf line = true := by
      intro hpre
      obtain ⟨r, hr⟩ := List.isPrefixOf_iff_prefix.mp hpre
      exact hp.notEnd r hr.symm
    rw [loop, if_neg hne, step_gives h hg]
    simp only [Res.bind, ne_eq, not_true_eq_false, if_false]
    exact ih n (put h s) (by simp at hn; omega)
  | other hp hg hh ih =>
    rename_i line lines ss
    intro n h hn
    obtain ⟨n, rfl⟩ : ∃ k, n = k + 1 := ⟨n - 1, by simp at hn; omega⟩
    have e := getline_line line (unlines lines ++ ("end_of_head".toList ++ tail ++ '\n' :: data)) hp.short hp.one
    have e2 : unlines (line :: lines) ++ ("end_of_head".toList ++ tail ++ '\n' :: data) =
        line ++ '\n' :: (unlines lines ++ ("end_of_head".toList ++ tail ++ '\n' :: data)) := by simp [unlines]
    rw [e2]
    simp only [e]
    have hne : ¬ "end_of_head".toList.isPrefixOf line = true := by
      intro hpre
      obtain ⟨r, hr⟩ := List.isPrefixOf_iff_prefix.mp hpre
      exact hp.notEnd r hr.symm
    rw [loop, if_neg hne, step_neutral h hg]
    simp only [Res.bind, ne_eq, not_true_eq_false, if_false]
    exact ih n h (by simp at hn; omega)

/-! ### C73 -/

/-- C73: a header of at most 1000 lines that ends with an `end_of_head` line is read: every member has the value
that stands last for its keyword, or its documented default; the data section is what follows. Not covered
(`_partial`): lines whose first word only begins with a keyword (`header_comment_fails`, `header_overflow_fails`) and
texts longer than the members (`header_overflow_fails`). -/
theorem header_read_partial {lines : List (List Char)} {ss : List Setting} (hl : Holds lines ss) (hn : lines.length ≤ 1000)
    (tail data : List Char) (ht : '\n' ∉ tail) (hs : tail.length + 11 < 256) :
    construct (some (unlines lines ++ ("end_of_head".toList ++ tail ++ '\n' :: data))) =
      .ok ({ v2 := lastOf Setting.format? false ss
             productType := lastOf Setting.productType? [] ss
             modelName := lastOf Setting.modelName? [] ss
             tideSystem := lastOf Setting.tideSystem? "unknown".toList ss
             norm := lastOf Setting.norm? "fully_normalized".toList ss
             errors := lastOf Setting.errors? none ss
             gm := lastOf Setting.gm? 0 ss
             radius := lastOf Setting.radius? 0 ss
             maxDegree := lastOf Setting.maxDegree? 0 ss }, some data) := by
  have h := loop_reads hl tail data ht hs 1000 {} hn
  unfold construct parse
  simp only [In.start]
  simp only at h
  rw [h]
  simp only [Res.bind, ne_eq, not_true_eq_false, if_false, fold_put, In.good]
  rfl

/-- Where a line of the text starts: `pre` is empty or ends with the end of a line. -/
def LineStart (pre : List Char) : Prop := pre = [] ∨ pre.getLast? = some '\n'

theorem LineStart.add {pre l : List Char} : LineStart (pre ++ (l ++ ['\n'])) := .inr (by simp)

theorem getline_cases (s : In) (hs : s.eof = false ∧ s.fail = false) :
    (∃ l r, s.rest = l ++ '\n' :: r ∧ '\n' ∉ l ∧ s.getline 256 = (l, true, ⟨r, false, false⟩)) ∨
    ∃ l r, s.rest = l ++ r ∧ '\n' ∉ l ∧ (s.getline 256).1 = l ∧
      ((s.getline 256).2.2.eof = true ∨ (s.getline 256).2.2.fail = true) := by
  obtain ⟨rest, eof, fail⟩ := s
  simp only at hs
  obtain ⟨rfl, rfl⟩ := hs
  have hsplit : rest = rest.takeWhile (fun c => decide (c ≠ '\n')) ++ rest.dropWhile (fun c => decide (c ≠ '\n')) :=
    (List.takeWhile_append_dropWhile).symm
  have hno : '\n' ∉ rest.takeWhile (fun c => decide (c ≠ '\n')) := by
    intro h
    have := takeWhile_all rest _ h
    simp at this
  have hhead : ∀ c r, rest.dropWhile (fun c => decide (c ≠ '\n')) = c :: r → c = '\n' := by
    intro c r h
    have := List.head?_dropWhile_not (fun c => decide (c ≠ '\n')) rest
    rw [h] at this
    simpa using this
  unfold In.getline
  simp only [Bool.or_self, Bool.false_eq_true, if_false]
  generalize hL : rest.takeWhile (fun c => decide (c ≠ '\n')) = L at *
  generalize hD : rest.dropWhile (fun c => decide (c ≠ '\n')) = D at *
  by_cases hlen : L.length < 256
  · rw [if_pos hlen]
    cases D with
    | nil =>
      right
      by_cases hl : L = []
      · rw [if_pos hl]; exact ⟨[], [], by rw [hsplit, hl], by simp, rfl, by simp⟩
      · rw [if_neg hl]; exact ⟨L, [], hsplit, hno, rfl, by simp⟩
    | cons c r =>
      left
      refine ⟨L, r, ?_, hno, rfl⟩
      rw [← hhead c r rfl]; exact hsplit
  · rw [if_neg hlen]
    right
    refine ⟨L.take 255, rest.drop 255, ?_, fun h => hno (List.mem_of_mem_take h), rfl, by simp⟩
    have : rest.take 255 = L.take 255 := by
      conv_lhs => rw [hsplit]
      rw [List.take_append_of_le_length (by omega)]
    rw [← this, List.take_append_drop]

theorem getline_bad (s : In) (hs : s.eof = true ∨ s.fail = true) : s.getline 256 = ([], false, { s with fail := true }) := by
  unfold In.getline
  rw [if_pos (by rcases hs with h | h <;> simp [h])]

/-- What is known in the loop: the line stands in the text at a line start, and so does what is unread. -/
structure Reading (text line : List Char) (fin : In) (k : Nat) : Prop where
  here : ∃ pre post, text = pre ++ (line ++ post) ∧ LineStart pre ∧ pre.count '\n' ≤ k ∧ '\n' ∉ line ∧
    (fin.eof = false → fin.fail = false → post = '\n' :: fin.rest)

theorem reading_next {text line : List Char} {fin : In} {k : Nat} (h : Reading text line fin k) :
    Reading text (fin.getline 256).1 (fin.getline 256).2.2 (k + 1) := by
  obtain ⟨pre, post, ht, hls, hc, hl, hp⟩ := h.here
  by_cases hb : fin.eof = true ∨ fin.fail = true
  · rw [getline_bad fin hb]
    refine ⟨⟨[], text, rfl, .inl rfl, by simp, by simp, ?_⟩⟩
    intro _ h2
    simp at h2
  · rw [not_or, Bool.not_eq_true, Bool.not_eq_true] at hb
    have hpost := hp hb.1 hb.2
    have hcount : (pre ++ (line ++ ['\n'])).count '\n' ≤ k + 1 := by
      have : line.count '\n' = 0 := List.count_eq_zero.mpr hl
      simp [List.count_append, this]; omega
    rcases getline_cases fin hb with ⟨l, r, h1, h2, h3⟩ | ⟨l, r, h1, h2, h3, h4⟩
    · rw [h3]
      refine ⟨⟨pre ++ (line ++ ['\n']), '\n' :: r, ?_, LineStart.add, hcount, h2, fun _ _ => rfl⟩⟩
      rw [ht, hpost, h1]; simp
    · refine ⟨⟨pre ++ (line ++ ['\n']), r, ?_, LineStart.add, hcount, by rw [h3]; exact h2, ?_⟩⟩
      · rw [ht, hpost, h1, h3]; simp
      · intro k1 k2
        rcases h4 with h4 | h4 <;> simp_all

theorem reading_first (text : List Char) :
    Reading text ((In.start text).getline 256).1 ((In.start text).getline 256).2.2 0 := by
  rcases getline_cases (In.start text) ⟨rfl, rfl⟩ with ⟨l, r, h1, h2, h3⟩ | ⟨l, r, h1, h2, h3, h4⟩
  · rw [h3]
    exact ⟨⟨[], '\n' :: r, by simpa [In.start] using h1, .inl rfl, by simp, h2, fun _ _ => rfl⟩⟩
  · refine ⟨⟨[], r, by rw [h3]; simpa [In.start] using h1, .inl rfl, by simp, by rw [h3]; exact h2, ?_⟩⟩
    intro k1 k2
    rcases h4 with h4 | h4 <;> simp_all

theorem loop_sound {text : List Char} : ∀ (n : Nat) {line : List Char} {fin fin' : In} {h h' : Data} {k : Nat}, Reading text line fin k →
    loop n line fin h = .ok (0, h', fin') → ∃ pre x post, text = pre ++ ("end_of_head".toList ++ (x ++ post)) ∧ LineStart pre ∧
      pre.count '\n' ≤ k + n ∧ '\n' ∉ x ∧ (fin'.good = true → post = '\n' :: fin'.rest) := by
  intro n
  induction n with
  | zero =>
    intro line fin fin' h h' k hr hl
    unfold loop at hl
    by_cases he : "end_of_head".toList.isPrefixOf line = true
    · rw [if_pos he] at hl
      simp only [Res.ok.injEq, Prod.mk.injEq, true_and] at hl
      obtain ⟨rfl, rfl⟩ := hl
      obtain ⟨pre, post, ht, hls, hc, hnl, hp⟩ := hr.here
      obtain ⟨x, rfl⟩ := List.isPrefixOf_iff_prefix.mp he
      refine ⟨pre, x, post, by rw [ht]; simp, hls, by omega, fun hx => hnl (by simp [hx]), ?_⟩
      intro hg
      simp only [In.good, Bool.and_eq_true, Bool.not_eq_true'] at hg
      exact hp hg.1 hg.2
    · rw [if_neg he] at hl
      cases hs : step h line with
      | ok r =>
        obtain ⟨e, h2⟩ := r
        rw [hs] at hl
        simp only [Res.bind] at hl
        by_cases h0 : e = 0
        · rw [if_neg (by simp [h0])] at hl; simp at hl
        · rw [if_pos h0] at hl; simp [h0] at hl
      | _ => rw [hs] at hl; simp [Res.bind] at hl
  | succ n ih =>
    intro line fin fin' h h' k hr hl
    unfold loop at hl
    by_cases he : "end_of_head".toList.isPrefixOf line = true
    · rw [if_pos he] at hl
      simp only [Res.ok.injEq, Prod.mk.injEq, true_and] at hl
      obtain ⟨rfl, rfl⟩ := hl
      obtain ⟨pre, post, ht, hls, hc, hnl, hp⟩ := hr.here
      obtain ⟨x, rfl⟩ := List.isPrefixOf_iff_prefix.mp he
      refine ⟨pre, x, post, by rw [ht]; simp, hls, by omega, fun hx => hnl (by simp [hx]), ?_⟩
      intro hg
      simp only [In.good, Bool.and_eq_true, Bool.not_eq_true'] at hg
      exact hp hg.1 hg.2
    · rw [if_neg he] at hl
      cases hs : step h line with
      | ok r =>
        obtain ⟨e, h2⟩ := r
        rw [hs] at hl
        simp only [Res.bind] at hl
        by_cases h0 : e = 0
        · rw [if_neg (by simp [h0])] at hl
          obtain ⟨pre, x, post, q1, q2, q3, q4⟩ := ih (reading_next hr) hl
          exact ⟨pre, x, post, q1, q2, by omega, q4⟩
        · rw [if_pos h0] at hl; simp [h0] at hl
      | _ => rw [hs] at hl; simp [Res.bind] at hl

/-- C73: if the constructor succeeds, the file has a line that begins with `end_of_head` among its first 1001 lines, and the data
section, if there is one, is exactly what follows that line. -/
theorem header_sound {file : Option (List Char)} {h : Data} {pos : Option (List Char)} (hc : construct file = .ok (h, pos)) :
    ∃ pre x post, file = some (pre ++ ("end_of_head".toList ++ (x ++ post))) ∧ LineStart pre ∧ pre.count '\n' ≤ 1000 ∧
      '\n' ∉ x ∧ ∀ data, pos = some data → post = '\n' :: data := by
  unfold construct parse at hc
  cases file with
  | none => simp [Res.bind] at hc
  | some text =>
    simp only at hc
    cases hl : loop 1000 ((In.start text).getline 256).1 ((In.start text).getline 256).2.2 {} with
    | ok r =>
      obtain ⟨e, d, fin⟩ := r
      rw [hl] at hc
      simp only [Res.bind] at hc
      by_cases h0 : e = 0
      · subst h0
        simp only [ne_eq, not_true_eq_false, if_false, Res.ok.injEq, Prod.mk.injEq] at hc
        obtain ⟨rfl, rfl⟩ := hc
        obtain ⟨pre, x, post, q1, q2, q3, q4, q5⟩ := loop_sound 1000 (reading_first text) hl
        refine ⟨pre, x, post, by rw [q1], q2, by omega, q4, ?_⟩
        intro data hd
        by_cases hg : fin.good = true
        · rw [if_pos hg] at hd
          rw [q5 hg, Option.some.inj hd]
        · rw [if_neg hg] at hd; cases hd
      · rw [if_pos h0] at hc
        simp [h0] at hc
    | _ => rw [hl] at hc; simp [Res.bind] at hc

/-- C73: a file without a line that begins with `end_of_head` is refused. -/
theorem header_unterminated (text : List Char) (hno : ∀ pre post, text = pre ++ ("end_of_head".toList ++ post) → ¬ LineStart pre)
    (r : Data × Option (List Char)) : construct (some text) ≠ .ok r := by
  intro h
  obtain ⟨pre, x, post, q1, q2, -⟩ := header_sound (h := r.1) (pos := r.2) h
  exact hno pre _ (Option.some.inj q1) q2

/-! ### Values that cannot be read -/

theorem loop_prefix {lines : List (List Char)} {ss : List Setting} (hl : Holds lines ss) (rest : List Char) :
    ∀ (n : Nat) (h : Data), lines.length ≤ n →
    loop n ((⟨unlines lines ++ rest, false, false⟩ : In).getline 256).1
        ((⟨unlines lines ++ rest, false, false⟩ : In).getline 256).2.2 h =
      loop (n - lines.length) ((⟨rest, false, false⟩ : In).getline 256).1 ((⟨rest, false, false⟩ : In).getline 256).2.2
        (ss.foldl put h) := by
  induction hl with
  | nil => intro n h hn; rfl
  | gives hp hg hh ih =>
    rename_i line lines s ss
    intro n h hn
    obtain ⟨n, rfl⟩ : ∃ k, n = k + 1 := ⟨n - 1, by simp at hn; omega⟩
    have e := getline_line line (unlines lines ++ rest) hp.short hp.one
    have e2 : unlines (line :: lines) ++ rest = line ++ '\n' :: (unlines lines ++ rest) := by simp [unlines]
    rw [e2]
    simp only [e]
    have hne : ¬ "end_of_head".toList.isPrefixOf line = true := by
      intro hpre
      obtain ⟨r, hr⟩ := List.isPrefixOf_iff_prefix.mp hpre
      exact hp.notEnd r hr.symm
    rw [loop, if_neg hne, step_gives h hg]
    simp only [Res.bind, ne_eq, not_true_eq_false, if_false]
    rw [ih n (put h s) (by simp at hn; omega)]
    simp
  | other hp hg hh ih =>
    rename_i line lines ss
    intro n h hn
    obtain ⟨n, rfl⟩ : ∃ k, n = k + 1 := ⟨n - 1, by simp at hn; omega⟩
    have e := getline_line line (unlines lines ++ rest) hp.short hp.one
    have e2 : unlines (line :: lines) ++ rest = line ++ '\n' :: (unlines lines ++ rest) := by simp [unlines]
    rw [e2]
    simp only [e]
    have hne : ¬ "end_of_head".toList.isPrefixOf line = true := by
      intro hpre
      obtain ⟨r, hr⟩ := List.isPrefixOf_iff_prefix.mp hpre
      exact hp.notEnd r hr.symm
    rw [loop, if_neg hne, step_neutral h hg]
    simp only [Res.bind, ne_eq, not_true_eq_false, if_false]
    rw [ih n h (by simp at hn; omega)]
    simp

theorem matchKey_bare (kw kw' : List Char) (a b : Nat) (hk : kw.head? ≠ some ' ' ) (hne : kw ≠ [])
    (hw : kw.all (fun c => c != ' ') = true) (hw' : kw'.all (fun c => c != ' ') = true) :
    matchKey kw' (blanks a ++ (kw ++ blanks b)) = if kw'.isPrefixOf kw then some [] else none := by
  unfold matchKey
  have h1 : nonWs (blanks a ++ (kw ++ blanks b)) = kw ++ blanks b := by
    apply nonWs_blanks
    cases kw with
    | nil => exact absurd rfl hne
    | cons c r => exact hk
  have h3 : nonWs (nextWs (kw ++ blanks b)) = [] := by
    have : nextWs (kw ++ blanks b) = blanks b := by
      unfold nextWs
      rw [List.dropWhile_append_of_pos]
      · cases b with
        | zero => rfl
        | succ b => simp [blanks, List.replicate_succ]
      · intro c hc; exact List.all_eq_true.mp hw c hc
    rw [this]
    have := nonWs_blanks b [] (by simp)
    simpa using this
  have h2 : kw'.isPrefixOf (kw ++ blanks b) = kw'.isPrefixOf kw := by
    cases b with
    | zero => simp [blanks]
    | succ b => rw [show blanks (b + 1) = ' ' :: blanks b from rfl, prefix_word _ _ _ hw']
  simp only [h1, h2, h3]

theorem setNum_bad {arg : List Char} (h : ∀ v rest, ¬ BeginsNum arg v rest) (f : ℚ → Data) (d : Data) :
    ∃ e, e ≠ 0 ∧ setNum arg f d = .ok (e, d) := by
  unfold setNum
  by_cases h0 : arg = []
  · exact ⟨1, by decide, by rw [if_pos h0]⟩
  · rw [if_neg h0]
    cases hf : fromCharsDouble arg with
    | none => exact ⟨2, by decide, rfl⟩
    | some r =>
      obtain ⟨dd, h1, h2, h3⟩ := fromCharsDouble_sound (v := r.1) (rest := r.2) hf
      exact absurd ⟨0, dd, h1, h3, by simpa using h2⟩ (h r.1 r.2)

theorem setInt_bad {arg : List Char} (hs : arg.head? ≠ some ' ') (h : ∀ v rest, ¬ BeginsInt arg v rest) (f : Int → Data) (d : Data) :
    ∃ e, e ≠ 0 ∧ setInt arg f d = .ok (e, d) := by
  unfold setInt
  by_cases h0 : arg = []
  · exact ⟨1, by decide, by rw [if_pos h0]⟩
  · rw [if_neg h0]
    cases hf : fromCharsInt arg with
    | none => exact ⟨2, by decide, rfl⟩
    | some r =>
      have e : skipWs arg = arg := by
        cases arg with
        | nil => rfl
        | cons c r =>
          have hc : c ≠ ' ' := fun e => hs (by simp [e])
          simp [skipWs, hc]
      exact absurd (fromCharsInt_sound (line := arg) (v := r.1) (rest := r.2) (by rw [e]; exact hf)) (h r.1 r.2)

theorem step_unreadable {line : List Char} (hu : Unreadable line) (h : Data) : ∃ e, e ≠ 0 ∧ step h line = .ok (e, h) := by
  unfold step
  cases hu with
  | empty kw a b hk he =>
    subst he
    have hf : kw.head? ≠ some ' ' ∧ kw ≠ [] ∧ kw.all (fun c => c != ' ') = true := by
      revert kw; decide
    obtain ⟨f1, f2, f3⟩ := hf
    refine ⟨1, by decide, ?_⟩
    rw [matchKey_bare kw "product_type".toList a b f1 f2 f3 (by decide)]
    rw [matchKey_bare kw "modelname".toList a b f1 f2 f3 (by decide)]
    rw [matchKey_bare kw "earth_gravity_constant".toList a b f1 f2 f3 (by decide)]
    rw [matchKey_bare kw "radius".toList a b f1 f2 f3 (by decide)]
    rw [matchKey_bare kw "max_degree".toList a b f1 f2 f3 (by decide)]
    rw [matchKey_bare kw "errors".toList a b f1 f2 f3 (by decide)]
    rw [matchKey_bare kw "tide_system".toList a b f1 f2 f3 (by decide)]
    rw [matchKey_bare kw "norm".toList a b f1 f2 f3 (by decide)]
    rw [matchKey_bare kw "format".toList a b f1 f2 f3 (by decide)]
    simp only [keywords, List.mem_cons, List.not_mem_nil, or_false] at hk
    rcases hk with rfl | rfl | rfl | rfl | rfl | rfl | rfl | rfl | rfl <;> rfl
  | gm arg hk hn =>
    rw [matchKey_other hk (by decide) (by decide) (by decide) (by decide), matchKey_other hk (by decide) (by decide) (by decide) (by decide),
      matchKey_self hk (by decide) (by decide)]
    exact setNum_bad hn _ _
  | radius arg hk hn =>
    rw [matchKey_other hk (by decide) (by decide) (by decide) (by decide), matchKey_other hk (by decide) (by decide) (by decide) (by decide),
      matchKey_other hk (by decide) (by decide) (by decide) (by decide), matchKey_self hk (by decide) (by decide)]
    exact setNum_bad hn _ _
  | maxDegree arg hk hn =>
    rw [matchKey_other hk (by decide) (by decide) (by decide) (by decide), matchKey_other hk (by decide) (by decide) (by decide) (by decide),
      matchKey_other hk (by decide) (by decide) (by decide) (by decide), matchKey_other hk (by decide) (by decide) (by decide) (by decide),
      matchKey_self hk (by decide) (by decide)]
    obtain ⟨a, b, -, -, h2⟩ := hk
    exact setInt_bad h2 hn _ _
  | format arg hk h1 h2 =>
    rw [matchKey_other hk (by decide) (by decide) (by decide) (by decide), matchKey_other hk (by decide) (by decide) (by decide) (by decide),
      matchKey_other hk (by decide) (by decide) (by decide) (by decide), matchKey_other hk (by decide) (by decide) (by decide) (by decide),
      matchKey_other hk (by decide) (by decide) (by decide) (by decide), matchKey_other hk (by decide) (by decide) (by decide) (by decide),
      matchKey_other hk (by decide) (by decide) (by decide) (by decide), matchKey_other hk (by decide) (by decide) (by decide) (by decide),
      matchKey_self hk (by decide) (by decide)]
    obtain ⟨a, b, -, h3, -⟩ := hk
    refine ⟨2, by decide, ?_⟩
    simp only [setFormat]
    rw [if_neg h3, if_neg, if_neg]
    · intro hp
      obtain ⟨r, hr⟩ := List.isPrefixOf_iff_prefix.mp hp
      exact h2 r hr.symm
    · intro hp
      obtain ⟨r, hr⟩ := List.isPrefixOf_iff_prefix.mp hp
      exact h1 r hr.symm

/-- C73: a file with a header line whose value is missing or cannot be read is refused, wherever among the first 1001
header lines it stands and whatever follows it. -/
theorem header_unreadable {lines : List (List Char)} {ss : List Setting} (hl : Holds lines ss) (hn : lines.length ≤ 1000)
    (bad : List Char) (hp : PlainLine bad) (hu : Unreadable bad) (rest : List Char) :
    construct (some (unlines lines ++ (bad ++ '\n' :: rest))) = .throw := by
  have h := loop_prefix hl (bad ++ '\n' :: rest) 1000 {} hn
  rw [getline_line bad rest hp.short hp.one] at h
  have hne : ¬ "end_of_head".toList.isPrefixOf bad = true := by
    intro hpre
    obtain ⟨r, hr⟩ := List.isPrefixOf_iff_prefix.mp hpre
    exact hp.notEnd r hr.symm
  obtain ⟨e, he, hst⟩ := step_unreadable hu (ss.foldl put {})
  simp only at h
  have h2 : ∀ m, loop m bad ⟨rest, false, false⟩ (ss.foldl put {}) =
      .ok (e, ss.foldl put {}, ((⟨rest, false, false⟩ : In).getline 256).2.2) := by
    intro m
    rw [loop, if_neg hne, hst]
    simp only [Res.bind, ne_eq, he, not_false_eq_true, if_true]
  rw [h2] at h
  unfold construct parse
  simp only [In.start]
  rw [h]
  simp only [Res.bind, ne_eq, he, not_false_eq_true, if_true]

/-- The hypotheses of `header_unreadable` are met: a degree that is no number, a radius without a value. -/
example : PlainLine "max_degree ten".toList ∧ Unreadable "max_degree ten".toList ∧
    PlainLine " radius  ".toList ∧ Unreadable " radius  ".toList := by
  refine ⟨⟨by decide, by decide, fun r h => by simp at h⟩, .maxDegree "ten".toList ⟨0, 0, rfl, by decide, by decide⟩ ?_,
    ⟨by decide, by decide, fun r h => by simp at h⟩, .empty "radius".toList 1 2 (by simp [keywords]) rfl⟩
  rintro v rest ⟨n, d, ⟨h1, h2⟩, -, h3, -⟩
  cases n with
  | succ n => simp [List.replicate_succ] at h3
  | zero =>
    obtain ⟨neg, ds⟩ := d
    cases ds with
    | nil => exact h1 rfl
    | cons c r =>
      cases neg with
      | true => simp [IntText.text] at h3
      | false =>
        simp [IntText.text] at h3
        have := h2 c (by simp)
        rw [← h3.1] at this
        exact absurd this (by decide)

/-! ### The file as a whole -/

theorem linesOf_line (l r : List Char) (h : '\n' ∉ l) : linesOf (l ++ '\n' :: r) = l :: linesOf r := by
  induction l with
  | nil => simp [linesOf]
  | cons c l ih =>
    have hc : c ≠ '\n' := fun e => h (by simp [e])
    have := ih (fun e => h (by simp [e]))
    rw [List.cons_append, linesOf, if_neg hc, this]

theorem linesOf_unlines (ls : List (List Char)) (h : ∀ l ∈ ls, '\n' ∉ l) : linesOf (unlines ls) = ls := by
  induction ls with
  | nil => rfl
  | cons l ls ih =>
    have e : unlines (l :: ls) = l ++ '\n' :: unlines ls := by simp [unlines]
    rw [e, linesOf_line _ _ (h l (by simp)), ih fun l hl => h l (by simp [hl])]

section
variable {T : Type} [LinearOrder T] (cal : Cal T) (junkErr : ErrorModel) (junk : Entry T × (Nat → Nat → ℝ)) (t : T) (co : Coeffs ℝ)
  {lines data : List (List Char)} {ss : List Setting} {rs : List (Record T)} {maxDegree maxOrder n m : Int} {er : ErrorModel}

/-- What the settings of a header say about the data. -/
noncomputable def said (ss : List Setting) (er : ErrorModel) : Header where
  v2 := lastOf Setting.format? false ss
  maxDegree := lastOf Setting.maxDegree? 0 ss
  errors := er
  gm := (lastOf Setting.gm? 0 ss : ℚ)
  re := (lastOf Setting.radius? 0 ss : ℚ)
  normalized := lastOf Setting.norm? "fully_normalized".toList ss == "fully_normalized".toList

theorem readFile_eq (hl : Holds lines ss) (hn : lines.length ≤ 1000) (he : lastOf Setting.errors? none ss = some er)
    (hd : ∀ l ∈ data, '\n' ∉ l) (tail : List Char) (ht : '\n' ∉ tail) (hs : tail.length + 11 < 256) :
    readFile cal (some (unlines lines ++ ("end_of_head".toList ++ tail ++ '\n' :: unlines data))) junkErr junk maxDegree maxOrder t co =
      parseData cal (said ss er) junk (some data) maxDegree maxOrder t co := by
  unfold readFile
  rw [header_read_partial hl hn tail _ ht hs]
  simp only [Res.bind, Option.map_some, linesOf_unlines data hd, Data.header, he, Option.getD_some]
  rfl

/-- C73 with C27 and C30 (version 2): from the text of the file to the coefficients. The header gives version 2, the largest degree, the
constants, the normalisation and the error columns; the data lines hold the records; the result is the documented one. -/
theorem file_read2_partial (hl : Holds lines ss) (hn : lines.length ≤ 1000) (he : lastOf Setting.errors? none ss = some er)
    (hd : ∀ l ∈ data, '\n' ∉ l) (tail : List Char) (ht : '\n' ∉ tail) (hs : tail.length + 11 < 256)
    (hv : lastOf Setting.format? false ss = true) (hmin : cal.min ≤ t) (hmax : t < cal.max)
    (hreq : asked (said ss er) maxDegree maxOrder = (n, m)) (h0 : 0 ≤ m) (h1 : m ≤ n) (h2 : n ≤ lastOf Setting.maxDegree? 0 ss)
    (hlines : List.Forall₂ (GoodLine2 true cal er) data rs) (htri : ∀ r ∈ rs, Within n m r → Triangle r)
    (hper : ∀ r ∈ rs, PeriodOk r) :
    ∃ co', readFile cal (some (unlines lines ++ ("end_of_head".toList ++ tail ++ '\n' :: unlines data))) junkErr junk maxDegree
        maxOrder t co = .ok (0, co') ∧ Result (said ss er) n m (fun _ r => factor2 cal.years t r) (Used2 n m t) rs co' := by
  rw [readFile_eq cal junkErr junk t co hl hn he hd tail ht hs]
  exact icgem2_read cal (said ss er) junk t co hv hmin hmax hreq h0 h1 h2 hlines htri hper

/-- C73 with C27 and C30 (version 1, the default): as `file_read2_partial`. -/
theorem file_read1_partial (hl : Holds lines ss) (hn : lines.length ≤ 1000) (he : lastOf Setting.errors? none ss = some er)
    (hd : ∀ l ∈ data, '\n' ∉ l) (tail : List Char) (ht : '\n' ∉ tail) (hs : tail.length + 11 < 256)
    (hv : lastOf Setting.format? false ss = false)
    (hreq : asked (said ss er) maxDegree maxOrder = (n, m)) (h0 : 0 ≤ m) (h1 : m ≤ n) (h2 : n ≤ lastOf Setting.maxDegree? 0 ss)
    (hlines : List.Forall₂ (GoodLine1 true cal er) data rs) (htri : ∀ r ∈ rs, Within n m r → Triangle r)
    (hper : ∀ r ∈ rs, PeriodOk r) (hgrp : Grouped n m rs) :
    ∃ co', readFile cal (some (unlines lines ++ ("end_of_head".toList ++ tail ++ '\n' :: unlines data))) junkErr junk maxDegree
        maxOrder t co = .ok (0, co') ∧ Result (said ss er) n m (factor1 cal.years t) (Within n m) rs co' := by
  rw [readFile_eq cal junkErr junk t co hl hn he hd tail ht hs]
  exact icgem1_read_partial cal (said ss er) junk t co hv hreq h0 h1 h2 hlines htri hper hgrp

end

/-! ### Room for the texts -/

theorem nonWs_le (s : List Char) : (nonWs s).length ≤ s.length := (List.dropWhile_sublist _).length_le
theorem nextWs_le (s : List Char) : (nextWs s).length ≤ s.length := (List.dropWhile_sublist _).length_le

theorem matchKey_le {kw line a : List Char} (h : matchKey kw line = some a) : a.length ≤ line.length := by
  unfold matchKey at h
  simp only at h
  split at h
  · cases h
    exact (nonWs_le _).trans ((nextWs_le _).trans (nonWs_le _))
  · cases h

theorem setText_defined {cap : Nat} {arg : List Char} (h : arg.length < cap) (f : List Char → Data) (d : Data) :
    ∃ r, setText cap arg f d = .ok r := by
  unfold setText strcpy
  by_cases h0 : arg = []
  · exact ⟨_, by rw [if_pos h0]⟩
  · rw [if_neg h0, if_pos h]
    cases arg with
    | nil => exact absurd rfl h0
    | cons c r => exact ⟨_, rfl⟩

theorem setNum_defined (arg : List Char) (f : ℚ → Data) (d : Data) : ∃ r, setNum arg f d = .ok r := by
  unfold setNum
  split
  · exact ⟨_, rfl⟩
  · split <;> exact ⟨_, rfl⟩

theorem setInt_defined (arg : List Char) (f : Int → Data) (d : Data) : ∃ r, setInt arg f d = .ok r := by
  unfold setInt
  split
  · exact ⟨_, rfl⟩
  · split <;> exact ⟨_, rfl⟩

theorem step_defined (h : Data) (line : List Char) (hl : line.length < 64) : ∃ r, step h line = .ok r := by
  unfold step
  split
  · rename_i a ha; exact setText_defined (by have := matchKey_le ha; omega) _ _
  split
  · rename_i a ha; exact setText_defined (by have := matchKey_le ha; omega) _ _
  split
  · exact setNum_defined _ _ _
  split
  · exact setNum_defined _ _ _
  split
  · exact setInt_defined _ _ _
  split
  · split <;> exact ⟨_, rfl⟩
  split
  · rename_i a ha; exact setText_defined (by have := matchKey_le ha; omega) _ _
  split
  · rename_i a ha; exact setText_defined (by have := matchKey_le ha; omega) _ _
  split
  · unfold setFormat
    split
    · exact ⟨_, rfl⟩
    split
    · exact ⟨_, rfl⟩
    split <;> exact ⟨_, rfl⟩
  · exact ⟨_, rfl⟩

theorem loop_defined {text : List Char} (hs : ∀ l, l <:+: text → '\n' ∉ l → l.length < 64) : ∀ (n : Nat) {line : List Char} {fin : In}
    {h : Data} {k : Nat}, Reading text line fin k → ∃ r, loop n line fin h = .ok r := by
  intro n
  induction n with
  | zero =>
    intro line fin h k hr
    obtain ⟨pre, post, ht, -, -, hnl, -⟩ := hr.here
    obtain ⟨⟨e, d⟩, hst⟩ := step_defined h line (hs line ⟨pre, post, by rw [ht]; simp⟩ hnl)
    unfold loop
    split
    · exact ⟨_, rfl⟩
    rw [hst]
    simp only [Res.bind]
    split <;> exact ⟨_, rfl⟩
  | succ n ih =>
    intro line fin h k hr
    obtain ⟨pre, post, ht, -, -, hnl, -⟩ := hr.here
    obtain ⟨⟨e, d⟩, hst⟩ := step_defined h line (hs line ⟨pre, post, by rw [ht]; simp⟩ hnl)
    unfold loop
    split
    · exact ⟨_, rfl⟩
    rw [hst]
    simp only [Res.bind]
    split
    · exact ⟨_, rfl⟩
    · exact ih (reading_next hr)

/-- C73: reading the header never goes outside the members as long as no line has 64 characters or more, whatever the file holds;
the constructor then succeeds or throws. Missing (`_partial`): longer lines (`header_overflow_fails`). -/
theorem header_defined_partial (text : List Char) (hs : ∀ l, l <:+: text → '\n' ∉ l → l.length < 64) :
    (∃ r, construct (some text) = .ok r) ∨ construct (some text) = .throw := by
  obtain ⟨⟨e, d, fin⟩, h⟩ := loop_defined hs 1000 (h := {}) (reading_first text)
  unfold construct parse
  simp only
  rw [h]
  simp only [Res.bind]
  by_cases h0 : e = 0
  · subst h0
    left
    exact ⟨_, by simp; rfl⟩
  · right
    rw [if_pos h0]
    simp [h0]

/-! ### What goes wrong -/

/-- The header of the description of the format (ICGEM-Format-2023), as the lines of a file. -/
def sample : List (List Char) := [
  "This is an example of the format.".toList,
  "begin_of_head ==================================".toList,
  "product_type              gravity_field".toList,
  "modelname                 EXAMPLE_MODEL".toList,
  "earth_gravity_constant    0.3986004415E+15".toList,
  "radius                    0.6378136460E+07".toList,
  "max_degree                2".toList,
  "errors                    formal".toList,
  "norm                      fully_normalized  ".toList,
  "tide_system               tide_free".toList]

def sampleEnd : List Char := "end_of_head ====================================\n".toList

/-- C73: the sample is read as it should. -/
theorem sample_read : construct (some (unlines sample ++ sampleEnd)) =
    .ok ({ productType := "gravity_field".toList, modelName := "EXAMPLE_MODEL".toList, tideSystem := "tide_free".toList,
           norm := "fully_normalized".toList, errors := some .formal, gm := 398600441500000, radius := 6378136.460,
           maxDegree := 2 }, some []) := by
  decide +kernel

/-- C73 fails: lines in front of `begin_of_head` are comments of any content, but the reader takes them for header lines. Here a comment
that begins with "normalization" overruns the 64 characters of a member. -/
theorem header_overflow_fails : construct (some (unlines
    ("normalization: the coefficients are fully normalized as in Heiskanen and Moritz (1967)".toList :: sample) ++ sampleEnd)) = .ub := by
  decide +kernel

theorem setText_full {cap : Nat} {arg : List Char} (hne : arg ≠ []) (h : cap ≤ arg.length) (f : List Char → Data) (d : Data) :
    setText cap arg f d = .ub := by
  unfold setText strcpy
  rw [if_neg hne, if_neg (by omega)]
  rfl

/-- C73 fails: so does a model name of 128 characters or more within the header. -/
theorem header_name_fails (name : List Char) (h : 128 ≤ name.length) (hc : ' ' ∉ name) (hl : '\n' ∉ name) (h2 : name.length < 200) (rest : List Char) :
    construct (some ("modelname ".toList ++ (name ++ '\n' :: rest))) = .ub := by
  have hk : HasKey "modelname".toList ("modelname ".toList ++ name) name :=
    ⟨0, 0, by simp [blanks], by rintro rfl; simp at h, by
      cases name with
      | nil => simp
      | cons c r => intro e; simp at e; simp [e] at hc⟩
  have e := getline_line ("modelname ".toList ++ name) rest (by simp; omega) (by
    rw [List.mem_append]; rintro (h | h)
    · revert h; decide
    · exact hl h)
  rw [List.append_assoc] at e
  unfold construct parse
  simp only [In.start, e]
  rw [loop, if_neg (by simp [List.isPrefixOf])]
  have : step {} ("modelname ".toList ++ name) = .ub := by
    unfold step
    rw [matchKey_other hk (by decide) (by decide) (by decide) (by decide), matchKey_self hk (by decide) (by decide)]
    have hne : name ≠ [] := by rintro rfl; simp at h
    exact setText_full hne h _ _
  rw [this]
  rfl

/-- C73 fails: a comment in front of the header that begins with the word "radius" makes the file unreadable. -/
theorem header_comment_fails : construct (some (unlines
    ("radius and GM are those of EGM96".toList :: sample) ++ sampleEnd)) = .throw := by
  decide +kernel

/-- C73 fails: an exponent written the Fortran way, which the data section allows, is dropped: the gravity constant is read as
0.3986004415, without an error. -/
theorem header_exponent_fails : ∃ d, construct (some ("earth_gravity_constant 0.3986004415D+15\n".toList ++ sampleEnd)) = .ok (d, some []) ∧
    d.gm = 0.3986004415 := by
  refine ⟨{ gm := 0.3986004415 }, ?_, rfl⟩
  decide +kernel

/-- C73 fails: no keyword is required: a header without `errors`, `max_degree` and the constants is accepted, with constants zero and with
the kind of error columns uninitialised. -/
theorem header_mandatory_fails : construct (some ("begin_of_head\nend_of_head\n".toList)) = .ok ({ errors := none }, some []) := by
  decide +kernel

/-- C73 fails: with line ends of carriage return and line feed, fully normalised coefficients are taken for unnormalised ones. -/
theorem header_crlf_fails : ∃ d, construct (some ("norm fully_normalized\r\nend_of_head\r\n".toList)) = .ok (d, some []) ∧
    d.normalized = false := by
  refine ⟨{ norm := "fully_normalized\r".toList }, ?_, ?_⟩ <;> decide +kernel

/-- C73 fails: a keyword followed by a tabulator is refused. -/
theorem header_tab_fails : construct (some ("max_degree\t360\nend_of_head\n".toList)) = .throw := by
  decide +kernel

/-! ### The hypotheses are met -/

theorem neutral_of {line : List Char} (h : ∀ kw ∈ keywords, kw.isPrefixOf (nonWs line) = false) : Neutral line := by
  intro kw hk a rest he
  have h1 := h kw hk
  have h2 : (kw ++ rest).head? ≠ some ' ' := by
    simp only [keywords, List.mem_cons, List.not_mem_nil, or_false] at hk
    rcases hk with rfl | rfl | rfl | rfl | rfl | rfl | rfl | rfl | rfl <;> simp
  rw [he, nonWs_blanks _ _ h2, List.isPrefixOf_iff_prefix.mpr ⟨rest, rfl⟩] at h1
  cases h1

theorem plain_of {line : List Char} (h1 : line.length < 256) (h2 : '\n' ∉ line) (h3 : "end_of_head".toList.isPrefixOf line = false) :
    PlainLine line :=
  ⟨h1, h2, fun rest he => by rw [he] at h3; simp at h3⟩

/-- A header with a comment, a blank line, the version, the degree (twice), the error columns and the normalisation. -/
example : ∃ ss, Holds ["A comment".toList, [], "format icgem2.0".toList, " max_degree   3".toList, "errors formal  ".toList,
      "norm   fully_normalized ".toList, "max_degree 2".toList] ss ∧ lastOf Setting.maxDegree? 0 ss = 2 ∧
      lastOf Setting.errors? none ss = some .formal ∧ lastOf Setting.format? false ss = true := by
  refine ⟨[.format true, .maxDegree 3, .errors .formal, .norm "fully_normalized".toList, .maxDegree 2], ?_, rfl, rfl, rfl⟩
  refine .other (plain_of (by decide) (by decide) (by decide)) (neutral_of (by decide)) ?_
  refine .other (plain_of (by decide) (by decide) (by decide)) (neutral_of (by decide)) ?_
  refine .gives (plain_of (by decide) (by decide) (by decide)) ⟨"icgem2.0".toList, ⟨0, 0, rfl, by decide, by decide⟩, [], rfl, by simp⟩ ?_
  refine .gives (plain_of (by decide) (by decide) (by decide)) ⟨['3'], [], ⟨1, 2, rfl, by decide, by decide⟩,
    0, ⟨false, ['3']⟩, ⟨by decide, by decide⟩, rfl, rfl, by simp, by decide, by decide⟩ ?_
  refine .gives (plain_of (by decide) (by decide) (by decide)) ⟨"formal  ".toList, ⟨0, 0, rfl, by decide, by decide⟩,
    [' ', ' '], rfl, by simp⟩ ?_
  refine .gives (plain_of (by decide) (by decide) (by decide)) ⟨"fully_normalized ".toList, ⟨0, 2, rfl, by decide, by decide⟩,
    ⟨1, rfl, by decide, by decide⟩, by decide⟩ ?_
  refine .gives (plain_of (by decide) (by decide) (by decide)) ⟨['2'], [], ⟨0, 0, rfl, by decide, by decide⟩,
    0, ⟨false, ['2']⟩, ⟨by decide, by decide⟩, rfl, rfl, by simp, by decide, by decide⟩ ?_
  exact .nil

end Verif.Icgem.Head
