import Verif.Model.IcgemHeader
import Verif.Spec.IcgemHeader
import Verif.Proof.Chars
/-
Lines of the ICGEM header.
-/
namespace Verif.Icgem.Head
open Verif Verif.Chars

theorem prefix_word (kw x : List Char) : ∀ kw' : List Char, kw'.all (fun c => c != ' ') = true →
    kw'.isPrefixOf (kw ++ ' ' :: x) = kw'.isPrefixOf kw := by
  induction kw with
  | nil =>
    intro kw' h
    cases kw' with
    | nil => rfl
    | cons c r =>
      simp only [List.all_cons, Bool.and_eq_true, bne_iff_ne, ne_eq] at h
      simp [List.isPrefixOf, h.1]
  | cons k kw ih =>
    intro kw' h
    cases kw' with
    | nil => rfl
    | cons c r =>
      simp only [List.all_cons, Bool.and_eq_true] at h
      simp only [List.cons_append, List.isPrefixOf, ih r h.2]

theorem nonWs_blanks (n : Nat) (s : List Char) (h : s.head? ≠ some ' ') : nonWs (blanks n ++ s) = s := by
  induction n with
  | zero =>
    cases s with
    | nil => rfl
    | cons c r =>
      have : (c == ' ') = false := by
        rw [beq_eq_false_iff_ne]; rintro rfl; simp at h
      simp [nonWs, blanks, this]
  | succ n ih => simpa [nonWs, blanks, List.replicate_succ] using ih

theorem nextWs_word (kw x : List Char) (h : kw.all (fun c => c != ' ') = true) : nextWs (kw ++ ' ' :: x) = ' ' :: x := by
  induction kw with
  | nil => simp [nextWs]
  | cons c kw ih =>
    simp only [List.all_cons, Bool.and_eq_true] at h
    have := ih h.2
    unfold nextWs at *
    simp only [List.cons_append, List.dropWhile, h.1]
    exact this

theorem nonWs_key {kw line arg : List Char} (h : HasKey kw line arg) (hk : kw ≠ []) (hw : kw.all (fun c => c != ' ') = true) :
    ∃ b, nonWs line = kw ++ ' ' :: (blanks b ++ arg) ∧ arg ≠ [] ∧ arg.head? ≠ some ' ' := by
  obtain ⟨a, b, rfl, h1, h2⟩ := h
  refine ⟨b, ?_, h1, h2⟩
  rw [nonWs_blanks]
  · rfl
  · cases kw with
    | nil => exact absurd rfl hk
    | cons c r =>
      simp only [List.all_cons, Bool.and_eq_true, bne_iff_ne, ne_eq] at hw
      simp [hw.1]

theorem matchKey_self {kw line arg : List Char} (h : HasKey kw line arg) (hk : kw ≠ []) (hw : kw.all (fun c => c != ' ') = true) :
    matchKey kw line = some arg := by
  obtain ⟨b, hn, h1, h2⟩ := nonWs_key h hk hw
  unfold matchKey
  simp only [hn]
  rw [if_pos (by simp), nextWs_word _ _ hw]
  have := nonWs_blanks (b + 1) arg h2
  simp only [blanks, List.replicate_succ, List.cons_append] at this
  exact congrArg some this

theorem matchKey_other {kw line arg kw' : List Char} (h : HasKey kw line arg) (hk : kw ≠ []) (hw : kw.all (fun c => c != ' ') = true)
    (hw' : kw'.all (fun c => c != ' ') = true) (hp : kw'.isPrefixOf kw = false) : matchKey kw' line = none := by
  obtain ⟨b, hn, h1, h2⟩ := nonWs_key h hk hw
  unfold matchKey
  simp only [hn]
  rw [if_neg (by rw [prefix_word _ _ _ hw', hp]; simp)]

theorem nonWs_split (s : List Char) : ∃ n, s = blanks n ++ nonWs s := by
  induction s with
  | nil => exact ⟨0, rfl⟩
  | cons c s ih =>
    by_cases h : c = ' '
    · obtain ⟨n, hn⟩ := ih
      refine ⟨n + 1, ?_⟩
      subst h
      simp only [nonWs, List.dropWhile, beq_self_eq_true, blanks, List.replicate_succ, List.cons_append] at *
      rw [← hn]
    · exact ⟨0, by simp [nonWs, blanks, h]⟩

theorem matchKey_neutral {line kw : List Char} (h : Neutral line) (hk : kw ∈ keywords) : matchKey kw line = none := by
  unfold matchKey
  simp only
  rw [if_neg]
  intro hp
  obtain ⟨n, hn⟩ := nonWs_split line
  obtain ⟨r, hr⟩ := List.isPrefixOf_iff_prefix.mp hp
  exact h kw hk n r (by rw [hn, hr])

theorem step_neutral (h : Data) {line : List Char} (hn : Neutral line) : step h line = .ok (0, h) := by
  unfold step
  rw [matchKey_neutral hn (by simp [keywords]), matchKey_neutral hn (by simp [keywords]), matchKey_neutral hn (by simp [keywords]),
    matchKey_neutral hn (by simp [keywords]), matchKey_neutral hn (by simp [keywords]), matchKey_neutral hn (by simp [keywords]),
    matchKey_neutral hn (by simp [keywords]), matchKey_neutral hn (by simp [keywords]), matchKey_neutral hn (by simp [keywords])]

theorem trim_text {arg s : List Char} (h : TextIs arg s) : rightTrim arg = .ok s := by
  obtain ⟨k, rfl, hs, hl⟩ := h
  cases s with
  | nil => exact absurd rfl hs
  | cons c r =>
    simp only [List.cons_append, rightTrim]
    congr 2
    rw [List.reverse_append]
    have h1 : (blanks k).reverse = blanks k := by simp [blanks]
    rw [h1]
    have h2 := nonWs_blanks k r.reverse (by
      intro h
      rw [List.head?_reverse] at h
      apply hl
      cases r with
      | nil => simp at h
      | cons d r => simpa using h)
    unfold nonWs at h2
    rw [h2, List.reverse_reverse]

theorem setText_ok {cap : Nat} {arg s : List Char} (ht : TextIs arg s) (hc : arg.length < cap) (put : List Char → Data) (h : Data) :
    setText cap arg put h = .ok (0, put s) := by
  have hne : arg ≠ [] := by
    obtain ⟨k, rfl, hs, -⟩ := ht
    simp [hs]
  unfold setText strcpy
  rw [if_neg hne, if_pos hc]
  simp only [Res.bind, trim_text ht]

theorem setNum_ok {arg : List Char} {v : ℚ} (hn : NumIs arg v) (put : ℚ → Data) (h : Data) :
    setNum arg put h = .ok (0, put v) := by
  obtain ⟨d, rest, hd, hv, rfl, he⟩ := hn
  have hne : d.text ++ rest ≠ [] := by
    have := (text_head d hd rest).2
    simp [this]
  unfold setNum
  rw [if_neg hne, fromCharsDouble_text d hd rest he, hv]

theorem setInt_ok {arg : List Char} {v : Int} {rest : List Char} (hn : BeginsInt arg v rest) (hh : arg.head? ≠ some ' ') (put : Int → Data)
    (h : Data) : setInt arg put h = .ok (0, put v) := by
  have h1 := fromCharsInt_text hn
  have hs : skipWs arg = arg := by
    cases arg with
    | nil => rfl
    | cons c r =>
      have : ¬ c = ' ' := by rintro rfl; simp at hh
      simp [skipWs, this]
  rw [hs] at h1
  have hne : arg ≠ [] := by
    rintro rfl
    simp [fromCharsInt, takeSign] at h1
  unfold setInt
  rw [if_neg hne, h1]

theorem word_prefix {arg w : List Char} (h : WordIs arg w) (kw : List Char) (hk : kw.all (fun c => c != ' ') = true) :
    kw.isPrefixOf arg = kw.isPrefixOf w := by
  obtain ⟨rest, rfl, hr⟩ := h
  cases rest with
  | nil => simp
  | cons c r =>
    have : c = ' ' := hr c (by simp)
    subst this
    exact prefix_word _ _ _ hk

theorem errorsOf_word {arg : List Char} {e : ErrorModel} (h : WordIs arg (errorWord e)) : errorsOf arg = e := by
  unfold errorsOf
  rw [word_prefix h _ (by decide), word_prefix h _ (by decide), word_prefix h _ (by decide), word_prefix h _ (by decide)]
  cases e <;> rfl

theorem setFormat_ok {arg : List Char} {two : Bool} (h : WordIs arg (if two then "icgem2.0".toList else "icgem1.0".toList)) (d : Data) :
    setFormat arg d = .ok (0, { d with v2 := two }) := by
  have hne : arg ≠ [] := by
    obtain ⟨r, rfl, -⟩ := h
    cases two <;> simp
  unfold setFormat
  rw [if_neg hne, word_prefix h _ (by decide), word_prefix h _ (by decide)]
  cases two <;> rfl

/-- What a setting does to the members. -/
def put (h : Data) : Setting → Data
  | .productType s => { h with productType := s }
  | .modelName s => { h with modelName := s }
  | .tideSystem s => { h with tideSystem := s }
  | .norm s => { h with norm := s }
  | .gm v => { h with gm := v }
  | .radius v => { h with radius := v }
  | .maxDegree n => { h with maxDegree := n }
  | .errors e => { h with errors := some e }
  | .format two => { h with v2 := two }

theorem step_gives (h : Data) {line : List Char} {s : Setting} (hg : Gives line s) : step h line = .ok (0, put h s) := by
  unfold step
  cases s with
  | productType s =>
    obtain ⟨arg, hk, ht, hl⟩ := hg
    rw [matchKey_self hk (by decide) (by decide)]
    exact setText_ok ht hl _ _
  | modelName s =>
    obtain ⟨arg, hk, ht, hl⟩ := hg
    rw [matchKey_other hk (by decide) (by decide) (by decide) (by decide), matchKey_self hk (by decide) (by decide)]
    exact setText_ok ht hl _ _
  | gm v =>
    obtain ⟨arg, hk, hn⟩ := hg
    rw [matchKey_other hk (by decide) (by decide) (by decide) (by decide), matchKey_other hk (by decide) (by decide) (by decide) (by decide),
      matchKey_self hk (by decide) (by decide)]
    exact setNum_ok hn _ _
  | radius v =>
    obtain ⟨arg, hk, hn⟩ := hg
    rw [matchKey_other hk (by decide) (by decide) (by decide) (by decide), matchKey_other hk (by decide) (by decide) (by decide) (by decide),
      matchKey_other hk (by decide) (by decide) (by decide) (by decide), matchKey_self hk (by decide) (by decide)]
    exact setNum_ok hn _ _
  | maxDegree n =>
    obtain ⟨arg, rest, hk, hn⟩ := hg
    rw [matchKey_other hk (by decide) (by decide) (by decide) (by decide), matchKey_other hk (by decide) (by decide) (by decide) (by decide),
      matchKey_other hk (by decide) (by decide) (by decide) (by decide), matchKey_other hk (by decide) (by decide) (by decide) (by decide),
      matchKey_self hk (by decide) (by decide)]
    obtain ⟨a, b, -, -, hh⟩ := hk
    exact setInt_ok hn hh _ _
  | errors e =>
    obtain ⟨arg, hk, hn⟩ := hg
    rw [matchKey_other hk (by decide) (by decide) (by decide) (by decide), matchKey_other hk (by decide) (by decide) (by decide) (by decide),
      matchKey_other hk (by decide) (by decide) (by decide) (by decide), matchKey_other hk (by decide) (by decide) (by decide) (by decide),
      matchKey_other hk (by decide) (by decide) (by decide) (by decide), matchKey_self hk (by decide) (by decide)]
    obtain ⟨a, b, -, hne, hh⟩ := hk
    simp only [if_neg hne, errorsOf_word hn]
    rfl
  | tideSystem s =>
    obtain ⟨arg, hk, ht, hl⟩ := hg
    rw [matchKey_other hk (by decide) (by decide) (by decide) (by decide), matchKey_other hk (by decide) (by decide) (by decide) (by decide),
      matchKey_other hk (by decide) (by decide) (by decide) (by decide), matchKey_other hk (by decide) (by decide) (by decide) (by decide),
      matchKey_other hk (by decide) (by decide) (by decide) (by decide), matchKey_other hk (by decide) (by decide) (by decide) (by decide),
      matchKey_self hk (by decide) (by decide)]
    exact setText_ok ht hl _ _
  | norm s =>
    obtain ⟨arg, hk, ht, hl⟩ := hg
    rw [matchKey_other hk (by decide) (by decide) (by decide) (by decide), matchKey_other hk (by decide) (by decide) (by decide) (by decide),
      matchKey_other hk (by decide) (by decide) (by decide) (by decide), matchKey_other hk (by decide) (by decide) (by decide) (by decide),
      matchKey_other hk (by decide) (by decide) (by decide) (by decide), matchKey_other hk (by decide) (by decide) (by decide) (by decide),
      matchKey_other hk (by decide) (by decide) (by decide) (by decide), matchKey_self hk (by decide) (by decide)]
    exact setText_ok ht hl _ _
  | format two =>
    obtain ⟨arg, hk, hn⟩ := hg
    rw [matchKey_other hk (by decide) (by decide) (by decide) (by decide), matchKey_other hk (by decide) (by decide) (by decide) (by decide),
      matchKey_other hk (by decide) (by decide) (by decide) (by decide), matchKey_other hk (by decide) (by decide) (by decide) (by decide),
      matchKey_other hk (by decide) (by decide) (by decide) (by decide), matchKey_other hk (by decide) (by decide) (by decide) (by decide),
      matchKey_other hk (by decide) (by decide) (by decide) (by decide), matchKey_other hk (by decide) (by decide) (by decide) (by decide),
      matchKey_self hk (by decide) (by decide)]
    exact setFormat_ok hn _

/-! ### Reading lines -/

theorem getline_line (line : List Char) (rest : List Char) (hl : line.length < 256) (hn : '\n' ∉ line) :
    (⟨line ++ '\n' :: rest, false, false⟩ : In).getline 256 = (line, true, ⟨rest, false, false⟩) := by
  have h1 : (line ++ '\n' :: rest).takeWhile (fun c => decide (c ≠ '\n')) = line := by
    rw [List.takeWhile_append_of_pos]
    · simp
    · intro c hc; simp only [ne_eq, decide_eq_true_eq]; rintro rfl; exact hn hc
  have h2 : (line ++ '\n' :: rest).dropWhile (fun c => decide (c ≠ '\n')) = '\n' :: rest := by
    rw [List.dropWhile_append_of_pos]
    · simp
    · intro c hc; simp only [ne_eq, decide_eq_true_eq]; rintro rfl; exact hn hc
  unfold In.getline
  simp only [Bool.false_eq_true, or_self, if_false, Bool.or_self, h1, h2, hl, if_true]

end Verif.Icgem.Head
