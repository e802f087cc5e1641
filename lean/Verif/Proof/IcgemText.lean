import Verif.Spec.Icgem
import Verif.Proof.Chars
import Mathlib.Tactic.Linarith
/-
ICGEM lines: from texts to entries and back.
-/
namespace Verif.Icgem
open Verif.Chars

/-- Nothing a number begins with is skipped. -/
def SepOk (ws : Char → Bool) : Prop := ∀ c, isDig c ∨ c = '-' ∨ c = '.' → ws c = false

theorem isDig_code {c : Char} (h : isDig c = true) : 48 ≤ c.toNat ∧ c.toNat ≤ 57 := by
  unfold isDig Char.isDigit at h
  simp only [Bool.and_eq_true, decide_eq_true_eq] at h
  exact h

theorem sepOk1 : SepOk ws1 := by
  rintro c (h | rfl | rfl)
  · unfold ws1
    simp only [Bool.or_eq_false_iff, decide_eq_false_iff_not]
    constructor <;> rintro rfl <;> revert h <;> decide
  · rfl
  · rfl

theorem sepOk2 : SepOk ws2 := by
  rintro c (h | rfl | rfl)
  · unfold ws2
    simp only [decide_eq_false_iff_not]
    rintro rfl; revert h; decide
  · rfl
  · rfl

theorem dropWhile_pre {ws : Char → Bool} {pre s : List Char} (hp : ∀ c ∈ pre, ws c) (hs : ∀ c ∈ s.head?, ws c = false) :
    (pre ++ s).dropWhile ws = s := (takeWhile_run hp hs).2

theorem dropWhile_split (ws : Char → Bool) (s : List Char) :
    ∃ pre : List Char, (∀ c ∈ pre, ws c) ∧ s = pre ++ s.dropWhile ws :=
  ⟨s.takeWhile ws, takeWhile_all s, List.takeWhile_append_dropWhile.symm⟩

theorem intText_head {d : IntText} (hd : d.Ok) (rest : List Char) :
    ∀ c ∈ (d.text ++ rest).head?, isDig c ∨ c = '-' ∨ c = '.' := by
  obtain ⟨neg, ds⟩ := d
  obtain ⟨h1, h2⟩ := hd
  simp only at h1 h2
  cases ds with
  | nil => exact absurd rfl h1
  | cons x xs =>
    cases neg with
    | true => simp [IntText.text]
    | false => simp [IntText.text, h2 x (by simp)]

theorem dec_head {d : Dec} (hd : d.Ok) (rest : List Char) :
    ∀ c ∈ (d.text ++ rest).head?, isDig c ∨ c = '-' ∨ c = '.' := by
  obtain ⟨neg, ip, frac, exp⟩ := d
  obtain ⟨h1, h2, h3, h4⟩ := hd
  simp only at h1 h2 h3 h4
  cases neg with
  | true => simp [Dec.text]
  | false =>
    cases ip with
    | cons c cs => simp [Dec.text, h1 c (by simp)]
    | nil =>
      obtain ⟨f, hf, _⟩ := h3.resolve_left (by simp)
      subst hf
      simp [Dec.text, fracText]

theorem fromCharsInt_str {d : IntText} (hd : d.Ok) (rest : List Char) (hr : ∀ c ∈ rest.head?, isDig c = false)
    (lo : -2147483648 ≤ d.value) (hi : d.value ≤ 2147483647) :
    fromCharsInt (d.text ++ rest) = some (d.value, rest) := by
  have h := fromCharsInt_text (line := d.text ++ rest) (v := d.value) (rest := rest)
    ⟨0, d, hd, rfl, by simp, hr, lo, hi⟩
  have : skipWs (d.text ++ rest) = d.text ++ rest := by
    refine skipWs_blanks 0 _ ?_
    intro hh
    have := sepOk2 _ (intText_head hd rest _ hh)
    cases this
  rwa [this] at h

theorem fromCharsInt_str_sound {s : List Char} {v : Int} {rest : List Char} (h : fromCharsInt s = some (v, rest)) :
    ∃ d : IntText, d.Ok ∧ d.value = v ∧ s = d.text ++ rest ∧ (∀ c ∈ rest.head?, isDig c = false) ∧
      -2147483648 ≤ v ∧ v ≤ 2147483647 := by
  unfold fromCharsInt at h
  have hs := takeSign_split s
  generalize takeSign s = sg at h hs
  obtain ⟨neg, s1⟩ := sg
  simp only at h hs
  split at h
  · cases h
  rename_i hne
  split at h
  · rename_i hr
    simp only [Option.some.injEq, Prod.mk.injEq] at h
    obtain ⟨h1, h2⟩ := h
    refine ⟨⟨neg, s1.takeWhile isDig⟩, ⟨?_, takeWhile_all s1⟩, ?_, ?_, ?_, by rw [← h1]; exact hr.1, by rw [← h1]; exact hr.2⟩
    · intro h0; simp only at h0; rw [h0] at hne; exact hne rfl
    · rw [← h1, digitsVal_eq]; cases neg <;> simp [signed, IntText.value]
    · rw [← h2, IntText.text, List.append_assoc, List.takeWhile_append_dropWhile, ← hs]
    · rw [← h2]
      intro c hc
      have := List.head?_dropWhile_not isDig s1
      cases hd : (s1.dropWhile isDig).head? with
      | none => rw [hd] at hc; cases hc
      | some x => rw [hd] at hc this; simp at hc; subst hc; simpa using this
  · cases h

/-! ### Columns -/

theorem readInt_ok {ws : Char → Bool} (hw : SepOk ws) {line : List Char} {v : Int} {rest : List Char}
    (h : IntAt ws line v rest) (old : Int) : readInt ws old line = (v, rest, 0) := by
  obtain ⟨pre, d, hp, hd, rfl, rfl, hr, lo, hi⟩ := h
  unfold readInt
  rw [dropWhile_pre hp (fun c hc => hw c (intText_head hd rest c hc)), fromCharsInt_str hd rest hr lo hi]

theorem readInt_sound {ws : Char → Bool} {line : List Char} {old v : Int} {rest : List Char}
    (h : readInt ws old line = (v, rest, 0)) : IntAt ws line v rest := by
  unfold readInt at h
  split at h
  · rename_i w r hw
    simp only [Prod.mk.injEq, and_true] at h
    obtain ⟨rfl, rfl⟩ := h
    obtain ⟨d, hd, hv, hs, hr, lo, hi⟩ := fromCharsInt_str_sound hw
    obtain ⟨pre, hp, hl⟩ := dropWhile_split ws line
    exact ⟨pre, d, hp, hd, hv, by rw [← hs]; exact hl, hr, lo, hi⟩
  · simp at h

theorem readNum_ok {ws : Char → Bool} (hw : SepOk ws) {line : List Char} {v : ℚ} {rest : List Char}
    (h : NumAt true ws line v rest) (old : ℚ) : readNum ws old line = (v, rest, 0) := by
  obtain ⟨pre, d, hp, hd, rfl, rfl, hr⟩ := h
  unfold readNum
  rw [dropWhile_pre hp (fun c hc => hw c (dec_head hd rest c hc)), fromCharsDouble_text d hd rest (hr rfl)]

theorem readNum_sound {ws : Char → Bool} {line : List Char} {old v : ℚ} {rest : List Char}
    (h : readNum ws old line = (v, rest, 0)) : NumAt false ws line v rest := by
  unfold readNum at h
  split at h
  · rename_i w r hw
    simp only [Prod.mk.injEq, and_true] at h
    obtain ⟨rfl, rfl⟩ := h
    obtain ⟨d, hd, hs, hv⟩ := fromCharsDouble_sound hw
    obtain ⟨pre, hp, hl⟩ := dropWhile_split ws line
    exact ⟨pre, d, hp, hd, hv, by rw [← hs]; exact hl, by simp⟩
  · simp at h

variable {T : Type}

theorem readCols_ok {ws : Char → Bool} (hw : SepOk ws) {line : List Char} {n m : Int} {C S : ℚ} {rest : List Char}
    (h : ColsAt true ws line n m C S rest) (e : Entry T) :
    readCols ws e line = ({ e with degree := n, order := m, C := C, S := S }, rest, 0) := by
  obtain ⟨r1, r2, r3, h1, h2, h3, h4⟩ := h
  simp only [readCols, readInt_ok hw h1, readInt_ok hw h2, readNum_ok hw h3, readNum_ok hw h4]

theorem readCols_sound {ws : Char → Bool} {line rest : List Char} {e e' : Entry T}
    (h : readCols ws e line = (e', rest, 0)) :
    ColsAt false ws line e'.degree e'.order e'.C e'.S rest ∧
      e' = { e with degree := e'.degree, order := e'.order, C := e'.C, S := e'.S } := by
  unfold readCols at h
  rcases h1 : readInt ws e.degree line with ⟨n, s1, k1⟩
  rcases h2 : readInt ws e.order s1 with ⟨m, s2, k2⟩
  rcases h3 : readNum ws e.C s2 with ⟨C, s3, k3⟩
  rcases h4 : readNum ws e.S s3 with ⟨S, s4, k4⟩
  simp only [h1, h2, h3, h4, Prod.mk.injEq] at h
  obtain ⟨rfl, rfl, h0⟩ := h
  obtain rfl : k1 = 0 := by omega
  obtain rfl : k2 = 0 := by omega
  obtain rfl : k3 = 0 := by omega
  obtain rfl : k4 = 0 := by omega
  exact ⟨⟨s1, s2, s3, readInt_sound h1, readInt_sound h2, readNum_sound h3, readNum_sound h4⟩, rfl⟩

theorem skipLoop_blanks (k n : Nat) (s : List Char) (hs : s ≠ []) :
    skipLoop (k + 1) (List.replicate n ' ' ++ s) = skipLoop (k + 1) s := by
  induction n with
  | zero => rfl
  | succ n ih =>
    rw [← ih]
    rcases hx : List.replicate n ' ' ++ s with _ | ⟨b, r⟩
    · simp at hx; exact absurd hx.2 hs
    · rw [List.replicate_succ, List.cons_append, hx]
      simp [skipLoop]

theorem skipLoop_col (k : Nat) (col r : List Char) (hc : ∀ c ∈ col, c ≠ ' ') (hne : col ≠ []) :
    skipLoop (k + 1) (col ++ ' ' :: r) = skipLoop k (' ' :: r) := by
  induction col with
  | nil => exact absurd rfl hne
  | cons a as ih =>
    cases as with
    | nil =>
      have : a ≠ ' ' := hc a (by simp)
      simp [skipLoop, this]
    | cons b bs =>
      have hb : b ≠ ' ' := hc b (by simp)
      have := ih (fun c h => hc c (by simp [h])) (by simp)
      rw [List.cons_append, List.cons_append]
      rw [show skipLoop (k + 1) (a :: b :: (bs ++ ' ' :: r)) = skipLoop (k + 1) (b :: (bs ++ ' ' :: r)) by
        simp [skipLoop, hb]]
      exact this

theorem skips_ne {ws : Char → Bool} {k : Nat} : ∀ {s rest : List Char}, Skips ws k s rest → rest ≠ [] → s ≠ [] := by
  cases k with
  | zero => rintro s rest ⟨pre, _, rfl, _⟩ h; simp [h]
  | succ k => rintro s rest ⟨n, col, r, _, _, rfl, _⟩ _; simp

/-- From a blank on, the columns left are skipped. -/
theorem skipLoop_skips {ws : Char → Bool} (hb : ws ' ' = true) {k : Nat} : ∀ {s rest : List Char},
    Skips ws k s rest → rest ≠ [] → (skipLoop k (' ' :: s)).dropWhile ws = rest := by
  induction k with
  | zero =>
    rintro s rest ⟨pre, hp, rfl, hr⟩ _
    rw [skipLoop, List.dropWhile_cons, if_pos hb]
    exact dropWhile_pre hp hr
  | succ k ih =>
    rintro s rest ⟨n, col, r, hc, ⟨c, hc1, hc2⟩, rfl, hr⟩ hne
    have hcol : col ≠ [] := by rintro rfl; simp at hc1
    have := skipLoop_blanks k (n + 1) (col ++ ' ' :: r) (by simp)
    rw [List.replicate_succ, List.cons_append] at this
    rw [this, skipLoop_col k col r hc hcol]
    exact ih hr hne

theorem skipCols_ok {ws : Char → Bool} (hb : ws ' ' = true) {k : Nat} {s rest : List Char} (h : Skips ws k s rest)
    (hne : rest ≠ []) : skipCols ws k s = rest := by
  unfold skipCols
  cases k with
  | zero =>
    obtain ⟨pre, hp, rfl, hr⟩ := h
    rw [dropWhile_pre hp hr, skipLoop]
    exact dropWhile_pre (pre := []) (by simp) hr
  | succ k =>
    obtain ⟨n, col, r, hc, ⟨c, hc1, hc2⟩, rfl, hr⟩ := h
    have hcol : col ≠ [] := by rintro rfl; simp at hc1
    rw [dropWhile_pre (by intro x hx; rw [List.eq_of_mem_replicate hx]; exact hb) (by
      intro x hx
      cases col with
      | nil => exact absurd rfl hcol
      | cons a as => simp at hx hc1; rw [← hx, hc1]; exact hc2)]
    rw [skipLoop_col k col r hc hcol]
    exact skipLoop_skips hb hr hne

theorem skipLoop_suffix (k : Nat) (s : List Char) : ∃ pre, s = pre ++ skipLoop k s := by
  induction s generalizing k with
  | nil => cases k <;> exact ⟨[], rfl⟩
  | cons a as ih =>
    cases k with
    | zero => exact ⟨[], rfl⟩
    | succ k =>
      cases as with
      | nil => exact ⟨[], rfl⟩
      | cons b bs =>
        rw [skipLoop]
        split
        · obtain ⟨pre, h⟩ := ih k; exact ⟨a :: pre, by rw [List.cons_append, ← h]⟩
        · obtain ⟨pre, h⟩ := ih (k + 1); exact ⟨a :: pre, by rw [List.cons_append, ← h]⟩

theorem skipCols_suffix (ws : Char → Bool) (k : Nat) (s : List Char) : ∃ pre, s = pre ++ skipCols ws k s := by
  obtain ⟨p1, _, h1⟩ := dropWhile_split ws s
  obtain ⟨p2, h2⟩ := skipLoop_suffix k (s.dropWhile ws)
  obtain ⟨p3, _, h3⟩ := dropWhile_split ws (skipLoop k (s.dropWhile ws))
  refine ⟨p1 ++ (p2 ++ p3), ?_⟩
  unfold skipCols
  rw [List.append_assoc, List.append_assoc, ← h3, ← h2, ← h1]

/-! ### Dates -/

theorem natOf_lt (ds : List Char) (h : ∀ c ∈ ds, isDig c) : natOf ds < 10 ^ ds.length := by
  induction ds with
  | nil => simp [natOf]
  | cons c cs ih =>
    have h1 := ih (fun x hx => h x (by simp [hx]))
    have h2 := (isDig_code (h c (by simp))).2
    simp only [natOf, List.length_cons, pow_succ]
    nlinarith [Nat.sub_le_of_le_add (show c.toNat ≤ 9 + 48 by omega), Nat.pow_pos (n := cs.length) (show 0 < 10 by omega)]

theorem intText_bound {d : IntText} (hd : d.Ok) {k : Nat} (hk : d.text.length ≤ k) (h9 : k ≤ 9) :
    -2147483648 ≤ d.value ∧ d.value ≤ 2147483647 := by
  have h1 := natOf_lt d.digits hd.2
  have h2 : d.digits.length ≤ 9 := by
    have : d.digits.length ≤ d.text.length := by simp [IntText.text]
    omega
  have h3 : (10 : Nat) ^ d.digits.length ≤ 10 ^ 9 := Nat.pow_le_pow_right (by norm_num) h2
  unfold IntText.value
  split <;> omega

theorem intIn_ok {k : Nat} (h9 : k ≤ 9) {s : List Char} {v : Int} {rest : List Char} (h : FieldAt true k s v rest) :
    intIn k s = (some v, rest) := by
  obtain ⟨d, hd, rfl, rfl, hk, hl⟩ := h
  have hl := hl rfl
  obtain ⟨lo, hi⟩ := intText_bound hd hk h9
  unfold intIn
  rw [show (d.text ++ rest).take k = d.text ++ [] by rw [← hl]; simp, fromCharsInt_str hd [] (by simp) lo hi]
  simp only [List.nil_append, Prod.mk.injEq, true_and]
  rw [← hl]; simp

theorem intIn_sound {k : Nat} {s : List Char} {v : Int} {rest : List Char} (h : intIn k s = (some v, rest)) :
    FieldAt false k s v rest := by
  unfold intIn at h
  split at h
  · rename_i w r hw
    simp only [Prod.mk.injEq, Option.some.injEq] at h
    obtain ⟨rfl, rfl⟩ := h
    obtain ⟨d, hd, hv, hs, _, _, _⟩ := fromCharsInt_str_sound hw
    refine ⟨d, hd, hv, ?_, ?_, by simp⟩
    · rw [← List.append_assoc, ← hs, List.take_append_drop]
    · have := congrArg List.length hs
      simp only [List.length_take, List.length_append] at this
      omega
  · simp at h

theorem date1_ok (cal : Cal T) {s rest : List Char} {y m d : Int} (h : DateAt true s y m d rest) :
    date1 cal s = (some (cal.date y m d 0 0), rest) := by
  obtain ⟨r1, r2, h1, h2, h3⟩ := h
  simp only [date1, intIn_ok (by norm_num) h1, intIn_ok (by norm_num) h2, intIn_ok (by norm_num) h3]

theorem date1_sound {cal : Cal T} {s : List Char} {t : T} (h : (date1 cal s).1 = some t) :
    ∃ y m d rest, DateAt false s y m d rest ∧ t = cal.date y m d 0 0 := by
  unfold date1 at h
  rcases h1 : intIn 4 s with ⟨y, s1⟩
  rcases h2 : intIn 2 s1 with ⟨m, s2⟩
  rcases h3 : intIn 2 s2 with ⟨d, s3⟩
  simp only [h1, h2, h3] at h
  cases y <;> cases m <;> cases d <;> simp at h
  rename_i y m d
  exact ⟨y, m, d, s3, ⟨s1, s2, intIn_sound h1, intIn_sound h2, intIn_sound h3⟩, h.symm⟩

theorem date2_ok {cal : Cal T} {s rest : List Char} {t : T} (h : TimeAt true cal s t rest) :
    date2 cal s = .ok (some (t, rest)) := by
  obtain ⟨y, m, d, hh, mm, r1, c, r2, r3, ⟨a1, a2, h1, h2, h3⟩, rfl, _, h4, h5, rfl⟩ := h
  simp only [date2, intIn_ok (by norm_num) h1, intIn_ok (by norm_num) h2, intIn_ok (by norm_num) h3,
    intIn_ok (by norm_num) h4, intIn_ok (by norm_num) h5]

theorem date2_sound {cal : Cal T} {s rest : List Char} {t : T} (h : date2 cal s = .ok (some (t, rest))) :
    TimeAt false cal s t rest := by
  unfold date2 at h
  rcases h1 : intIn 4 s with ⟨y, s1⟩
  rcases h2 : intIn 2 s1 with ⟨m, s2⟩
  rcases h3 : intIn 2 s2 with ⟨d, s3⟩
  simp only [h1, h2, h3] at h
  cases s3 with
  | nil => simp at h
  | cons c s3 =>
    rcases h4 : intIn 2 s3 with ⟨hh, s4⟩
    rcases h5 : intIn 2 s4 with ⟨mm, s5⟩
    simp only [h4, h5] at h
    cases y <;> cases m <;> cases d <;> cases hh <;> cases mm <;> simp at h
    rename_i y m d hh mm
    obtain ⟨rfl, rfl⟩ := h
    exact ⟨y, m, d, hh, mm, c :: s3, c, s3, s4, ⟨s1, s2, intIn_sound h1, intIn_sound h2, intIn_sound h3⟩, rfl, by simp,
      intIn_sound h4, intIn_sound h5, rfl⟩

theorem fieldAt_head {strict : Bool} {k : Nat} {s : List Char} {v : Int} {rest : List Char} (h : FieldAt strict k s v rest) :
    s ≠ [] ∧ ∀ c ∈ s.head?, isDig c ∨ c = '-' ∨ c = '.' := by
  obtain ⟨d, hd, rfl, rfl, _, _⟩ := h
  refine ⟨?_, intText_head hd rest⟩
  have := hd.1
  simp [IntText.text, this]

theorem dateAt_head {strict : Bool} {s : List Char} {y m d : Int} {rest : List Char} (h : DateAt strict s y m d rest) :
    s ≠ [] ∧ ∀ c ∈ s.head?, isDig c ∨ c = '-' ∨ c = '.' := by
  obtain ⟨r1, r2, h1, _, _⟩ := h
  exact fieldAt_head h1

theorem timeAt_head {strict : Bool} {cal : Cal T} {s : List Char} {t : T} {rest : List Char} (h : TimeAt strict cal s t rest) :
    s ≠ [] ∧ ∀ c ∈ s.head?, isDig c ∨ c = '-' ∨ c = '.' := by
  obtain ⟨y, m, d, hh, mm, r1, c, r2, r3, h, _⟩ := h
  exact dateAt_head h

theorem numAt_ne {strict : Bool} {ws : Char → Bool} {s : List Char} {v : ℚ} {rest : List Char} (h : NumAt strict ws s v rest) :
    s ≠ [] := by
  obtain ⟨pre, d, _, hd, _, rfl, _⟩ := h
  have := (text_head d hd rest).2
  simp [this]

/-! ### Fortran exponents -/

/-- What becomes of a letter. -/
def conv (c : Char) (next : Option Char) : Char :=
  if (c = 'D' ∨ c = 'd') ∧ (next = some '+' ∨ next = some '-') then 'e' else c

theorem for2cpp_get (s : List Char) (i : Nat) : (for2cpp s)[i]? = s[i]?.map (fun c => conv c s[i + 1]?) := by
  induction s generalizing i with
  | nil => simp [for2cpp]
  | cons a as ih =>
    cases as with
    | nil => cases i <;> simp [for2cpp, conv]
    | cons b bs =>
      rw [for2cpp]
      cases i with
      | zero => simp [conv]
      | succ i => simpa using ih i

theorem for2cpp_length (s : List Char) : (for2cpp s).length = s.length := by
  induction s with
  | nil => rfl
  | cons a as ih =>
    cases as with
    | nil => rfl
    | cons b bs => rw [for2cpp, List.length_cons, ih]; rfl

theorem fortran_sign {line line' : List Char} (h : Fortran line line') {i : Nat} {s : Char} (hs : s = '+' ∨ s = '-') :
    line[i]? = some s ↔ line'[i]? = some s := by
  obtain ⟨_, hl, h3⟩ := h
  rcases hc : line[i]? with _ | c
  · have : line'[i]? = none := by rw [List.getElem?_eq_none_iff] at hc ⊢; omega
    simp [this]
  · rcases hc' : line'[i]? with _ | c'
    · rw [List.getElem?_eq_none_iff] at hc'
      have := (List.getElem?_eq_some_iff.mp hc).1
      omega
    · rcases h3 i c c' hc hc' with rfl | ⟨h4, _, rfl⟩
      · simp
      · simp only [Option.some.injEq]
        constructor
        · rintro rfl; rcases hs with rfl | rfl <;> rcases h4 with h4 | h4 <;> exact absurd h4 (by decide)
        · rintro rfl; rcases hs with h | h <;> exact absurd h (by decide)

theorem fortran_conv {line line' : List Char} (h : Fortran line line') {i : Nat} {c c' : Char} (hc : line[i]? = some c)
    (hc' : line'[i]? = some c') : conv c line[i + 1]? = conv c' line'[i + 1]? := by
  have e1 := fortran_sign h (i := i + 1) (s := '+') (Or.inl rfl)
  have e2 := fortran_sign h (i := i + 1) (s := '-') (Or.inr rfl)
  unfold conv
  simp only [e1, e2]
  rcases h.2.2 i c c' hc hc' with rfl | ⟨h4, h5, rfl⟩
  · rfl
  · rw [e1, e2] at h5
    rw [if_pos ⟨h4, h5⟩]
    rw [if_neg (by rintro ⟨h, _⟩; rcases h with h | h <;> exact absurd h (by decide))]

theorem for2cpp_fortran {line line' : List Char} (h : Fortran line line') : for2cpp line = for2cpp line' := by
  apply List.ext_getElem?
  intro i
  rw [for2cpp_get, for2cpp_get]
  rcases hc : line[i]? with _ | c
  · have : line'[i]? = none := by rw [List.getElem?_eq_none_iff] at hc ⊢; have := h.2.1; omega
    simp [this]
  · rcases hc' : line'[i]? with _ | c'
    · rw [List.getElem?_eq_none_iff] at hc'
      have := (List.getElem?_eq_some_iff.mp hc).1
      have := h.2.1
      omega
    · simp [fortran_conv h hc hc']

theorem for2cpp_noFortran {line : List Char} (h : NoFortran line) : (for2cpp line).drop 4 = line.drop 4 := by
  apply List.ext_getElem?
  intro i
  rw [List.getElem?_drop, List.getElem?_drop, for2cpp_get]
  rcases hc : line[4 + i]? with _ | c
  · rfl
  · simp only [Option.map_some, Option.some.injEq]
    unfold conv
    split
    · rename_i hh
      rcases hh with ⟨h1, h2⟩
      have : c ≠ 'D' ∧ c ≠ 'd' := by
        rcases h2 with h2 | h2
        · exact h (4 + i) c '+' (by omega) hc h2 (Or.inl rfl)
        · exact h (4 + i) c '-' (by omega) hc h2 (Or.inr rfl)
      rcases h1 with h1 | h1
      · exact absurd h1 this.1
      · exact absurd h1 this.2
    · rfl

/-- The line with all exponents replaced. -/
def plain (line : List Char) : List Char := line.take 4 ++ (for2cpp line).drop 4

theorem plain_get (line : List Char) (i : Nat) :
    (plain line)[i]? = if i < 4 then line[i]? else line[i]?.map (fun c => conv c line[i + 1]?) := by
  unfold plain
  by_cases hl : 4 ≤ line.length
  · by_cases h : i < 4
    · rw [List.getElem?_append_left (by simp; omega), if_pos h]
      simp [h]
    · rw [List.getElem?_append_right (by simp; omega), if_neg h, List.getElem?_drop, ← for2cpp_get]
      congr 1
      simp; omega
  · rw [List.drop_eq_nil_of_le (by rw [for2cpp_length]; omega), List.append_nil]
    by_cases h : i < 4
    · rw [if_pos h]; simp [h]
    · have h2 : line[i]? = none := List.getElem?_eq_none (by omega)
      rw [if_neg h, List.getElem?_eq_none (by simp; omega), h2]; rfl

theorem plain_take (line : List Char) : (plain line).take 4 = line.take 4 := by
  apply List.ext_getElem?
  intro i
  by_cases h : i < 4
  · rw [List.getElem?_take, List.getElem?_take, if_pos h, if_pos h, plain_get, if_pos h]
  · rw [List.getElem?_take, List.getElem?_take, if_neg h, if_neg h]

theorem plain_drop (line : List Char) : (plain line).drop 4 = (for2cpp line).drop 4 := by
  apply List.ext_getElem?
  intro i
  rw [List.getElem?_drop, List.getElem?_drop, plain_get, if_neg (by omega), for2cpp_get]

theorem fortran_plain (line : List Char) : Fortran line (plain line) := by
  refine ⟨(plain_take line).symm, ?_, ?_⟩
  · simp [plain, for2cpp_length]; omega
  · intro i c c' hc hc'
    rw [plain_get, hc] at hc'
    by_cases h : i < 4
    · rw [if_pos h] at hc'; simp at hc'; exact Or.inl hc'.symm
    · rw [if_neg h] at hc'; simp at hc'
      unfold conv at hc'
      split at hc'
      · rename_i hh; exact Or.inr ⟨hh.1, hh.2, hc'.symm⟩
      · exact Or.inl hc'.symm

theorem noFortran_plain (line : List Char) : NoFortran (plain line) := by
  intro i c d hi hc hd hs
  rw [plain_get, if_neg (by omega)] at hc hd
  rcases hl : line[i]? with _ | a
  · rw [hl] at hc; cases hc
  rcases hl' : line[i + 1]? with _ | b
  · rw [hl'] at hd; cases hd
  rw [hl] at hc; rw [hl'] at hd
  simp only [Option.map_some, Option.some.injEq] at hc hd
  have hb : b = d := by
    unfold conv at hd
    split at hd
    · rw [← hd] at hs; rcases hs with h | h <;> exact absurd h (by decide)
    · exact hd
  subst hb
  rw [← hc, hl']
  unfold conv
  split
  · exact ⟨by decide, by decide⟩
  · rename_i h
    constructor
    · rintro rfl; exact h ⟨Or.inl rfl, by rcases hs with rfl | rfl <;> simp⟩
    · rintro rfl; exact h ⟨Or.inr rfl, by rcases hs with rfl | rfl <;> simp⟩

/-! ### Lines -/

/-- The record an entry of version 1 stands for. -/
def rec1 (e : Entry T) : Record T :=
  match e.key with
  | .gfc => ⟨.static, e.degree, e.order, e.C, e.S, none, none⟩
  | .gfct => ⟨.ref, e.degree, e.order, e.C, e.S, some e.t0, none⟩
  | .trnd => ⟨.trend, e.degree, e.order, e.C, e.S, none, none⟩
  | .asin => ⟨.sin e.period, e.degree, e.order, e.C, e.S, none, none⟩
  | .acos => ⟨.cos e.period, e.degree, e.order, e.C, e.S, none, none⟩

/-- The record an entry of version 2 stands for. -/
def rec2 (e : Entry T) : Record T :=
  match e.key with
  | .gfc => ⟨.static, e.degree, e.order, e.C, e.S, none, none⟩
  | .gfct => ⟨.ref, e.degree, e.order, e.C, e.S, some e.t0, some e.t1⟩
  | .trnd => ⟨.trend, e.degree, e.order, e.C, e.S, some e.t0, some e.t1⟩
  | .asin => ⟨.sin e.period, e.degree, e.order, e.C, e.S, some e.t0, some e.t1⟩
  | .acos => ⟨.cos e.period, e.degree, e.order, e.C, e.S, some e.t0, some e.t1⟩

theorem kw_append (a b c d : Char) (line : List Char) : ([a, b, c, d] ++ line).take 4 = [a, b, c, d] ∧
    ([a, b, c, d] ++ line).drop 4 = line := by simp

/-- `resolve1` as a function of the keyword and the converted rest of the line. -/
theorem resolve1_congr (cal : Cal T) (er : ErrorModel) {line line' : List Char} (h : Fortran line line') (e : Entry T) :
    resolve1 cal er line e = resolve1 cal er line' e := by
  unfold resolve1
  rw [for2cpp_fortran h, h.1, h.2.1]

theorem cols_eq (er : ErrorModel) : errorColumns er = er.cols := by cases er <;> rfl

theorem skip1 {b : Bool} {er : ErrorModel} {l r : List Char} (h : SkipAt b sep1 (errorColumns er) l r) :
    SkipAt b ws1 er.cols l r := by rw [cols_eq] at h; exact h

theorem skip2 {b : Bool} {er : ErrorModel} {l r : List Char} (h : SkipAt b sep2 (errorColumns er) l r) :
    SkipAt b ws2 er.cols l r := by rw [cols_eq] at h; exact h

theorem resolve1_ok (cal : Cal T) (er : ErrorModel) {line line' : List Char} {r : Record T} (hf : Fortran line line')
    (hn : NoFortran line') (hl : line.length < 255) (h : Line1 true cal er line' r) (e : Entry T) :
    ∃ e', resolve1 cal er line e = .ok (0, e') ∧ rec1 e' = r := by
  rw [resolve1_congr cal er hf]
  have hd := for2cpp_noFortran hn
  have hl' : ¬ line'.length + 1 ≥ 256 := by rw [← hf.2.1]; omega
  unfold resolve1
  rw [if_neg hl']
  simp only [hd]
  have hb : ws1 ' ' = true := rfl
  cases h with
  | gfc h1 => exact ⟨_, by simp [readCols_ok sepOk1 h1]; rfl, rfl⟩
  | gfct h1 h2 h3 =>
    refine ⟨_, by simp [readCols_ok sepOk1 h1, skipCols_ok hb (skip1 h2) (dateAt_head h3).1, date1_ok cal h3]; rfl, rfl⟩
  | trnd h1 => exact ⟨_, by simp [readCols_ok sepOk1 h1]; rfl, rfl⟩
  | dot h1 => exact ⟨_, by simp [readCols_ok sepOk1 h1]; rfl, rfl⟩
  | asin h1 h2 h3 =>
    refine ⟨_, by simp [readCols_ok sepOk1 h1, skipCols_ok hb (skip1 h2) (numAt_ne h3), readNum_ok sepOk1 h3]; rfl, rfl⟩
  | acos h1 h2 h3 =>
    refine ⟨_, by simp [readCols_ok sepOk1 h1, skipCols_ok hb (skip1 h2) (numAt_ne h3), readNum_ok sepOk1 h3]; rfl, rfl⟩

theorem kw_split {line : List Char} {a b c d : Char} (h : line.take 4 = [a, b, c, d]) :
    line = [a, b, c, d] ++ line.drop 4 := by
  rw [← h, List.take_append_drop]

theorem resolve1_sound {cal : Cal T} {er : ErrorModel} {line : List Char} {e e' : Entry T}
    (h : resolve1 cal er line e = .ok (0, e')) :
    line.length < 255 ∧ ∃ line', Fortran line line' ∧ NoFortran line' ∧ Line1 false cal er line' (rec1 e') := by
  unfold resolve1 at h
  split at h
  · cases h
  rename_i hl
  refine ⟨by omega, plain line, fortran_plain line, noFortran_plain line, ?_⟩
  rcases hc : readCols ws1 e ((for2cpp line).drop 4) with ⟨e1, s, err⟩
  simp only [hc] at h
  have hp := plain_drop line
  have ht := plain_take line
  split at h
  · rename_i hk
    simp only [Res.ok.injEq, Prod.mk.injEq] at h
    obtain ⟨rfl, rfl⟩ := h
    have := Line1.gfc (cal := cal) (er := er) (readCols_sound hc).1
    rw [kw_split (ht.trans hk), hp]
    exact this
  split at h
  · rename_i hk
    split at h
    · rename_i t htt
      simp only [Res.ok.injEq, Prod.mk.injEq] at h
      obtain ⟨rfl, rfl⟩ := h
      obtain ⟨y, m, d, rest, h1, rfl⟩ := date1_sound htt
      have := Line1.gfct (cal := cal) (er := er) (readCols_sound hc).1 (skipCols_suffix _ _ _) h1
      rw [kw_split (ht.trans hk), hp]
      exact this
    · simp at h
  split at h
  · rename_i hk
    simp only [Res.ok.injEq, Prod.mk.injEq] at h
    obtain ⟨rfl, rfl⟩ := h
    rcases hk with hk | hk
    · have := Line1.trnd (cal := cal) (er := er) (readCols_sound hc).1
      rw [kw_split (ht.trans hk), hp]
      exact this
    · have := Line1.dot (cal := cal) (er := er) (readCols_sound hc).1
      rw [kw_split (ht.trans hk), hp]
      exact this
  split at h
  · rename_i hk
    rcases hn : readNum ws1 e1.period (skipCols ws1 er.cols s) with ⟨p, r, k⟩
    simp only [hn, Res.ok.injEq, Prod.mk.injEq] at h
    obtain ⟨h0, rfl⟩ := h
    obtain rfl : err = 0 := by omega
    obtain rfl : k = 0 := by omega
    rcases hk with hk | hk
    · have := Line1.asin (cal := cal) (er := er) (readCols_sound hc).1 (skipCols_suffix _ _ _) (readNum_sound hn)
      rw [kw_split (ht.trans hk), hp, if_pos hk]
      exact this
    · have := Line1.acos (cal := cal) (er := er) (readCols_sound hc).1 (skipCols_suffix _ _ _) (readNum_sound hn)
      rw [kw_split (ht.trans hk), hp, if_neg (by rw [hk]; decide)]
      exact this
  · simp at h

theorem dates2_ok {cal : Cal T} {s r2 r3 r4 : List Char} {t0 t1 : T} {b : Nat} (h1 : TimeAt true cal s t0 r2)
    (h2 : r2 = List.replicate b ' ' ++ r3) (h3 : TimeAt true cal r3 t1 r4) (e : Entry T) :
    dates2 cal e s 0 = .ok ({ e with t0 := t0, t1 := t1 }, some r4, 0) := by
  have : r2.dropWhile ws2 = r3 := by
    rw [h2]
    exact dropWhile_pre (by intro x hx; rw [List.eq_of_mem_replicate hx]; rfl) (fun c hc => sepOk2 c ((timeAt_head h3).2 c hc))
  simp [dates2, date2_ok h1, Res.bind, this, date2_ok h3]

theorem dates2_sound {cal : Cal T} {s : List Char} {err : Nat} {e e' : Entry T} {r : Option (List Char)}
    (h : dates2 cal e s err = .ok (e', r, 0)) : err = 0 ∧ ∃ t0 t1 r2 r3 r4 b, TimeAt false cal s t0 r2 ∧
      r2 = List.replicate b ' ' ++ r3 ∧ TimeAt false cal r3 t1 r4 ∧ r = some r4 ∧ e' = { e with t0 := t0, t1 := t1 } := by
  unfold dates2 at h
  rcases h1 : date2 cal s with (_ | ⟨t0, r2⟩) | _ | _ | _ <;> simp only [h1, Res.bind] at h
  · simp at h
  · split at h
    · rename_i hne; simp only [Res.ok.injEq, Prod.mk.injEq] at h; exact absurd h.2.2 hne
    · rename_i hne
      rcases h2 : date2 cal (r2.dropWhile ws2) with (_ | ⟨t1, r4⟩) | _ | _ | _ <;> simp only [h2] at h
      · simp at h
      · simp only [Res.ok.injEq, Prod.mk.injEq, and_true] at h
        obtain ⟨rfl, rfl⟩ := h
        obtain ⟨b, hb⟩ := skipWs_split r2
        exact ⟨by omega, t0, t1, r2, r2.dropWhile ws2, r4, b, date2_sound h1, hb, date2_sound h2, rfl, rfl⟩
      · cases h
      · cases h
      · cases h
  · cases h
  · cases h
  · cases h

theorem resolve2_ok (cal : Cal T) (er : ErrorModel) {line : List Char} {r : Record T} (h : Line2 true cal er line r)
    (e : Entry T) : ∃ e', resolve2 cal er line e = .ok (0, e') ∧ rec2 e' = r ∧
      (e'.key = .gfc → e'.t0 = cal.min ∧ e'.t1 = cal.max) := by
  have hb : ws2 ' ' = true := rfl
  unfold resolve2
  cases h with
  | gfc h1 => exact ⟨_, by simp [readCols_ok sepOk2 h1]; rfl, rfl, fun _ => ⟨rfl, rfl⟩⟩
  | gfct h1 h2 h3 h4 h5 =>
    exact ⟨_, by simp [readCols_ok sepOk2 h1, skipCols_ok hb (skip2 h2) (timeAt_head h3).1, dates2_ok h3 h4 h5, Res.bind]; rfl, rfl,
      by simp⟩
  | trnd h1 h2 h3 h4 h5 =>
    exact ⟨_, by simp [readCols_ok sepOk2 h1, skipCols_ok hb (skip2 h2) (timeAt_head h3).1, dates2_ok h3 h4 h5, Res.bind]; rfl, rfl,
      by simp⟩
  | asin h1 h2 h3 h4 h5 h6 =>
    exact ⟨_, by simp [readCols_ok sepOk2 h1, skipCols_ok hb (skip2 h2) (timeAt_head h3).1, dates2_ok h3 h4 h5, Res.bind,
      readNum_ok sepOk2 h6]; rfl, rfl, by simp⟩
  | acos h1 h2 h3 h4 h5 h6 =>
    exact ⟨_, by simp [readCols_ok sepOk2 h1, skipCols_ok hb (skip2 h2) (timeAt_head h3).1, dates2_ok h3 h4 h5, Res.bind,
      readNum_ok sepOk2 h6]; rfl, rfl, by simp⟩

theorem resolve2_sound {cal : Cal T} {er : ErrorModel} {line : List Char} {e e' : Entry T}
    (h : resolve2 cal er line e = .ok (0, e')) : Line2 false cal er line (rec2 e') ∧
      (e'.key = .gfc → e'.t0 = cal.min ∧ e'.t1 = cal.max) := by
  unfold resolve2 at h
  rcases hc : readCols ws2 e (line.drop 4) with ⟨e1, s, err⟩
  simp only [hc] at h
  split at h
  · rename_i hk
    simp only [Res.ok.injEq, Prod.mk.injEq] at h
    obtain ⟨rfl, rfl⟩ := h
    have := Line2.gfc (cal := cal) (er := er) (readCols_sound hc).1
    refine ⟨?_, fun _ => ⟨rfl, rfl⟩⟩
    rw [kw_split hk]
    exact this
  split at h
  · rename_i hk
    rcases hd : dates2 cal e1 (skipCols ws2 er.cols s) err with ⟨e2, r, err2⟩ | _ | _ | _ <;> simp only [hd, Res.bind] at h
    · simp only [Res.ok.injEq, Prod.mk.injEq] at h
      obtain ⟨rfl, rfl⟩ := h
      obtain ⟨rfl, t0, t1, r2, r3, r4, b, g1, g2, g3, rfl, rfl⟩ := dates2_sound hd
      rcases hk with hk | hk
      · have := Line2.gfct (cal := cal) (er := er) (readCols_sound hc).1 (skipCols_suffix _ _ _) g1 g2 g3
        refine ⟨?_, by simp [hk]⟩
        rw [kw_split hk]
        simpa [rec2] using this
      · have := Line2.trnd (cal := cal) (er := er) (readCols_sound hc).1 (skipCols_suffix _ _ _) g1 g2 g3
        refine ⟨?_, by simp [hk]⟩
        rw [kw_split hk]
        simpa [rec2] using this
    · cases h
    · cases h
    · cases h
  split at h
  · rename_i hk
    rcases hd : dates2 cal e1 (skipCols ws2 er.cols s) err with ⟨e2, r, err2⟩ | _ | _ | _ <;> simp only [hd, Res.bind] at h
    · cases r with
      | none => simp at h
      | some r4' =>
        rcases hn : readNum ws2 e2.period r4' with ⟨p, rr, k⟩
        simp only [hn, Res.ok.injEq, Prod.mk.injEq] at h
        obtain ⟨h0, rfl⟩ := h
        obtain rfl : err2 = 0 := by omega
        obtain rfl : k = 0 := by omega
        obtain ⟨rfl, t0, t1, r2, r3, r4, b, g1, g2, g3, g4, rfl⟩ := dates2_sound hd
        injection g4 with g4
        subst g4
        rcases hk with hk | hk
        · have := Line2.asin (cal := cal) (er := er) (readCols_sound hc).1 (skipCols_suffix _ _ _) g1 g2 g3 (readNum_sound hn)
          refine ⟨?_, by simp [hk]⟩
          rw [kw_split hk]
          simpa [rec2] using this
        · have := Line2.acos (cal := cal) (er := er) (readCols_sound hc).1 (skipCols_suffix _ _ _) g1 g2 g3 (readNum_sound hn)
          refine ⟨?_, by simp [hk]⟩
          rw [kw_split hk]
          simpa [rec2] using this
    · cases h
    · cases h
    · cases h
  · simp at h

end Verif.Icgem
