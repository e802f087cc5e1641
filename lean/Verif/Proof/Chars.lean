import Verif.Spec.Chars
import Mathlib.Tactic.Ring
import Mathlib.Tactic.FieldSimp
import Mathlib.Tactic.NormNum
/-
`from_chars` reads what the text denotes.
-/
namespace Verif.Chars

theorem foldl_digits (cs : List Char) (a : Nat) :
    cs.foldl (fun a c => 10 * a + (c.toNat - 48)) a = a * 10 ^ cs.length + natOf cs := by
  induction cs generalizing a with
  | nil => simp [natOf]
  | cons c cs ih =>
    simp only [List.foldl_cons, ih, natOf, List.length_cons, pow_succ]
    ring

theorem digitsVal_eq (cs : List Char) : digitsVal cs = natOf cs := by
  unfold digitsVal; rw [foldl_digits]; simp

theorem natOf_append (a b : List Char) : natOf (a ++ b) = natOf a * 10 ^ b.length + natOf b := by
  induction a with
  | nil => simp [natOf]
  | cons c cs ih =>
    simp only [List.cons_append, natOf, ih, List.length_append, pow_add]
    ring

theorem takeWhile_run {p : Char → Bool} {a b : List Char} (ha : ∀ c ∈ a, p c = true)
    (hb : ∀ c ∈ b.head?, p c = false) : (a ++ b).takeWhile p = a ∧ (a ++ b).dropWhile p = b := by
  induction a with
  | nil =>
    cases b with
    | nil => simp
    | cons x xs => simp [hb x (by simp)]
  | cons x xs ih =>
    have := ih (fun c hc => ha c (by simp [hc]))
    simp [ha x (by simp), this.1, this.2]

theorem takeSign_text (neg : Bool) (r : List Char) (hr : r.head? ≠ some '-') :
    takeSign ((if neg then ['-'] else []) ++ r) = (neg, r) := by
  cases neg with
  | true => rfl
  | false =>
    cases r with
    | nil => rfl
    | cons c cs =>
      have : c ≠ '-' := by simpa using hr
      simp only [Bool.false_eq_true, if_false, List.nil_append]
      unfold takeSign
      split
      · rename_i h; injection h with h1 h2; exact absurd h1 this
      · rfl

theorem isDig_minus : isDig '-' = false := rfl
theorem isDig_dot : isDig '.' = false := rfl
theorem isDig_blank : isDig ' ' = false := rfl

theorem takeFrac_text (f : Option (List Char)) (r : List Char) (hf : ∀ g, f = some g → ∀ c ∈ g, isDig c)
    (hr : ∀ c ∈ r.head?, isDig c = false ∧ c ≠ '.') :
    takeFrac (fracText f ++ r) = (f.getD [], r) := by
  cases f with
  | none =>
    simp only [fracText, List.nil_append, Option.getD_none]
    unfold takeFrac
    split
    · rename_i h; exact absurd rfl (hr '.' (by simp)).2
    · rfl
  | some g =>
    have := takeWhile_run (a := g) (b := r) (hf g rfl) (fun c hc => (hr c hc).1)
    simp only [fracText, List.cons_append, takeFrac, Option.getD_some, this.1, this.2]

theorem takeExp_none (r : List Char) (hr : ∀ c ∈ r.head?, c ≠ 'e' ∧ c ≠ 'E') : takeExp r = (0, r) := by
  cases r with
  | nil => rfl
  | cons c cs =>
    have := hr c (by simp)
    simp [takeExp, this.1, this.2]

theorem takeExpSign_digits (e r : List Char) (hne : e ≠ []) (he : ∀ c ∈ e, isDig c) :
    takeExpSign (e ++ r) = (false, e ++ r) := by
  cases e with
  | nil => exact absurd rfl hne
  | cons x xs =>
    have hx := he x (by simp)
    unfold takeExpSign
    split
    · rename_i h; simp at h; rw [h.1] at hx; cases hx
    · rename_i h; simp at h; rw [h.1] at hx; cases hx
    · rfl

theorem takeExp_some (l : Char) (s : Option Bool) (e r : List Char) (hl : l = 'e' ∨ l = 'E') (hne : e ≠ [])
    (he : ∀ c ∈ e, isDig c) (hr : ∀ c ∈ r.head?, isDig c = false) :
    takeExp (expText (some (l, s, e)) ++ r) = (expVal (some (l, s, e)), r) := by
  have hw := takeWhile_run (a := e) (b := r) he hr
  have hne' : e.isEmpty = false := by cases e with | nil => exact absurd rfl hne | cons _ _ => rfl
  have hs : takeExpSign (expSignText s ++ (e ++ r)) =
      (s == some true, e ++ r) := by
    rcases s with _ | _ | _
    · simpa [expSignText] using takeExpSign_digits e r hne he
    · rfl
    · rfl
  simp only [expText, expVal, List.cons_append, List.append_assoc, takeExp, if_pos hl, hs, hw.1, hw.2, hne', digitsVal_eq]
  rcases s with _ | _ | _ <;> simp [signed]

theorem signed_cast (neg : Bool) (n : Nat) : ((signed neg n : Int) : ℚ) = if neg then -(n : ℚ) else n := by
  cases neg <;> simp [signed]

/-- `from_chars` reads a decimal text, up to where it ends, and gives its value. -/
theorem fromCharsDouble_text (d : Dec) (hd : d.Ok) (rest : List Char) (hr : Ends rest) :
    fromCharsDouble (d.text ++ rest) = some (d.value, rest) := by
  obtain ⟨neg, ip, frac, exp⟩ := d
  obtain ⟨h1, h2, h3, h4⟩ := hd
  simp only at h1 h2 h3 h4
  have hEhead : ∀ c ∈ (expText exp ++ rest).head?, isDig c = false ∧ c ≠ '.' := by
    intro c hc
    rcases exp with _ | ⟨l, s, e⟩
    · exact ⟨(hr c hc).1, (hr c hc).2.1⟩
    · simp [expText] at hc
      subst hc
      rcases (h4 l s e rfl).1 with rfl | rfl <;> exact ⟨rfl, by decide⟩
  have hFhead : ∀ c ∈ (fracText frac ++ (expText exp ++ rest)).head?, isDig c = false := by
    intro c hc
    rcases frac with _ | f
    · exact (hEhead c hc).1
    · simp [fracText] at hc
      subst hc; rfl
  have ht : Dec.text ⟨neg, ip, frac, exp⟩ ++ rest =
      (if neg then ['-'] else []) ++ (ip ++ (fracText frac ++ (expText exp ++ rest))) := by
    simp only [Dec.text, List.append_assoc]
  have hsign : (ip ++ (fracText frac ++ (expText exp ++ rest))).head? ≠ some '-' := by
    cases ip with
    | cons c cs =>
      have hc := h1 c (by simp)
      simp only [List.cons_append, List.head?_cons]
      intro h; injection h with h; rw [h] at hc; cases hc
    | nil =>
      obtain ⟨f, hf, _⟩ := h3.resolve_left (by simp)
      subst hf
      simp [fracText]
  have hdig := takeWhile_run (a := ip) (b := fracText frac ++ (expText exp ++ rest)) h1 hFhead
  have hfr := takeFrac_text frac (expText exp ++ rest) h2 hEhead
  have hex : takeExp (expText exp ++ rest) = (expVal exp, rest) := by
    rcases exp with _ | ⟨l, s, e⟩
    · exact takeExp_none rest (fun c hc => ⟨(hr c hc).2.2.1, (hr c hc).2.2.2⟩)
    · obtain ⟨a, b, c⟩ := h4 l s e rfl
      exact takeExp_some l s e rest a b c (fun c hc => (hr c hc).1)
  have hnonempty : (ip.isEmpty && (frac.getD []).isEmpty) = false := by
    rcases h3 with h | ⟨f, hf, hne⟩
    · cases ip with | nil => exact absurd rfl h | cons _ _ => rfl
    · rw [hf]
      cases f with | nil => exact absurd rfl hne | cons _ _ => simp
  rw [ht]
  unfold fromCharsDouble
  simp only [takeSign_text neg _ hsign, hdig.1, hdig.2, hfr, hex, hnonempty, Bool.false_eq_true, if_false,
    Dec.value, signed_cast, digitsVal_eq, natOf_append]
  refine congrArg some (Prod.ext ?_ rfl)
  simp only
  have h10 : (10 : ℚ) ≠ 0 := by norm_num
  rw [zpow_sub₀ h10, zpow_natCast]
  cases neg
  · simp only [Bool.false_eq_true, if_false]; push_cast; field_simp
  · simp only [if_true]; push_cast; field_simp

theorem skipWs_blanks (n : Nat) (s : List Char) (hs : s.head? ≠ some ' ') :
    skipWs (List.replicate n ' ' ++ s) = s := by
  unfold skipWs
  induction n with
  | zero =>
    cases s with
    | nil => rfl
    | cons c cs =>
      have : c ≠ ' ' := by simpa using hs
      simp [this]
  | succ n ih => simpa [List.replicate_succ] using ih

/-- A decimal text does not begin with a blank. -/
theorem text_head (d : Dec) (hd : d.Ok) (rest : List Char) : ((d.text ++ rest).head? ≠ some ' ') ∧ d.text ≠ [] := by
  obtain ⟨neg, ip, frac, exp⟩ := d
  obtain ⟨h1, h2, h3, h4⟩ := hd
  simp only at h1 h2 h3 h4
  cases neg with
  | true => simp [Dec.text]
  | false =>
    cases ip with
    | cons c cs =>
      have hc := h1 c (by simp)
      simp only [Dec.text, Bool.false_eq_true, if_false, List.nil_append, List.cons_append, List.head?_cons]
      refine ⟨fun h => ?_, by simp⟩
      injection h with h; rw [h] at hc; cases hc
    | nil =>
      obtain ⟨f, hf, _⟩ := h3.resolve_left (by simp)
      subst hf
      simp [Dec.text, fracText]

theorem takeWhile_all {p : Char → Bool} (s : List Char) : ∀ c ∈ s.takeWhile p, p c = true := by
  induction s with
  | nil => simp
  | cons x xs ih =>
    by_cases h : p x
    · simpa [List.takeWhile_cons, h] using ih
    · simp [List.takeWhile_cons, h]

theorem takeSign_split (s : List Char) : s = (if (takeSign s).1 then ['-'] else []) ++ (takeSign s).2 := by
  unfold takeSign; split <;> simp

theorem takeFrac_split (s : List Char) : ∃ f : Option (List Char), s = fracText f ++ (takeFrac s).2 ∧
    (takeFrac s).1 = f.getD [] ∧ ∀ g, f = some g → ∀ c ∈ g, isDig c := by
  unfold takeFrac
  split
  · rename_i r
    refine ⟨some (r.takeWhile isDig), ?_, rfl, ?_⟩
    · simp [fracText, List.takeWhile_append_dropWhile]
    · intro g hg; injection hg with hg; subst hg; exact takeWhile_all r
  · exact ⟨none, rfl, rfl, fun g hg => by cases hg⟩

theorem takeExpSign_split (s : List Char) : ∃ o : Option Bool, s = expSignText o ++ (takeExpSign s).2 ∧
    ((takeExpSign s).1 = true ↔ o = some true) := by
  unfold takeExpSign
  split
  · exact ⟨some true, rfl, by simp⟩
  · exact ⟨some false, rfl, by simp⟩
  · exact ⟨none, rfl, by simp⟩

theorem takeExp_split (s : List Char) : ∃ x, s = expText x ++ (takeExp s).2 ∧ (takeExp s).1 = expVal x ∧
    ∀ l o e, x = some (l, o, e) → (l = 'e' ∨ l = 'E') ∧ e ≠ [] ∧ ∀ c ∈ e, isDig c := by
  cases s with
  | nil => exact ⟨none, rfl, rfl, fun _ _ _ h => by cases h⟩
  | cons c r =>
    by_cases hc : c = 'e' ∨ c = 'E'
    · obtain ⟨o, ho1, ho2⟩ := takeExpSign_split r
      by_cases he : ((takeExpSign r).2.takeWhile isDig).isEmpty
      · refine ⟨none, ?_, ?_, fun _ _ _ h => by cases h⟩ <;> simp only [takeExp, if_pos hc, he, if_true] <;> rfl
      · refine ⟨some (c, o, (takeExpSign r).2.takeWhile isDig), ?_, ?_, ?_⟩
        · simp only [takeExp, if_pos hc, he, expText]
          simp only [Bool.false_eq_true, if_false, List.cons_append, List.append_assoc,
            List.takeWhile_append_dropWhile]
          rw [← ho1]
        · simp only [takeExp, if_pos hc, he, expVal]
          simp only [Bool.false_eq_true, if_false, digitsVal_eq, signed]
          by_cases h : o = some true
          · rw [if_pos (ho2.mpr h), if_pos h]
          · rw [if_neg (fun h' => h (ho2.mp h')), if_neg h]
        · intro l o' e h
          injection h with h
          injection h with h1 h2
          injection h2 with h2 h3
          subst h1 h2 h3
          refine ⟨hc, ?_, takeWhile_all _⟩
          intro h; rw [h] at he; simp at he
    · exact ⟨none, by simp [takeExp, if_neg hc, expText], by simp [takeExp, if_neg hc, expVal],
        fun _ _ _ h => by cases h⟩

/-- Whatever `from_chars` accepts is a decimal text with the value it gives. -/
theorem fromCharsDouble_sound {s : List Char} {v : ℚ} {rest : List Char}
    (h : fromCharsDouble s = some (v, rest)) : ∃ d : Dec, d.Ok ∧ s = d.text ++ rest ∧ d.value = v := by
  unfold fromCharsDouble at h
  simp only at h
  have hs := takeSign_split s
  generalize takeSign s = sg at h hs
  obtain ⟨neg, s1⟩ := sg
  simp only at h hs
  have h1 : s1 = s1.takeWhile isDig ++ s1.dropWhile isDig := List.takeWhile_append_dropWhile.symm
  have hip := takeWhile_all (p := isDig) s1
  generalize s1.takeWhile isDig = ip at h h1 hip
  obtain ⟨f, hf1, hf2, hf3⟩ := takeFrac_split (s1.dropWhile isDig)
  generalize takeFrac (s1.dropWhile isDig) = tf at h hf1 hf2
  obtain ⟨fp, s2⟩ := tf
  simp only at h hf1 hf2
  obtain ⟨x, hx1, hx2, hx3⟩ := takeExp_split s2
  generalize takeExp s2 = te at h hx1 hx2
  obtain ⟨e, s3⟩ := te
  simp only at h hx1 hx2
  split at h
  · cases h
  · rename_i hne
    injection h with h
    injection h with h4 h5
    subst h5
    refine ⟨⟨neg, ip, f, x⟩, ⟨hip, hf3, ?_, hx3⟩, ?_, ?_⟩
    · by_contra hcon
      push Not at hcon
      obtain ⟨c1, c2⟩ := hcon
      apply hne
      simp only at c1 c2
      rw [c1, hf2]
      rcases hh : f with _ | g
      · rfl
      · rw [c2 g hh]; rfl
    · rw [hs, h1, hf1, hx1]
      simp [Dec.text]
    · rw [← h4]
      simp only [Dec.value, signed_cast, digitsVal_eq, natOf_append, hx2, hf2]
      have h10 : (10 : ℚ) ≠ 0 := by norm_num
      rw [zpow_sub₀ h10, zpow_natCast]
      cases neg
      · simp only [Bool.false_eq_true, if_false]; push_cast; field_simp
      · simp only [if_true]; push_cast; field_simp

theorem skipWs_split (s : List Char) : ∃ n, s = List.replicate n ' ' ++ skipWs s := by
  unfold skipWs
  induction s with
  | nil => exact ⟨0, rfl⟩
  | cons c cs ih =>
    by_cases h : c = ' '
    · obtain ⟨n, hn⟩ := ih
      refine ⟨n + 1, ?_⟩
      subst h
      simp only [List.replicate_succ, List.cons_append, List.dropWhile_cons, decide_true, if_true]
      rw [← hn]
    · exact ⟨0, by simp [h]⟩

/-- Reading a line that begins with numbers gives these numbers and no error. -/
theorem readFields_ok (vals : List ℚ) : ∀ (old : List ℚ) (line : List Char), old.length = vals.length →
    LineIs line vals → readFields old line = (vals, 0) := by
  induction vals with
  | nil => intro old line h _; cases old with | nil => rfl | cons _ _ => simp at h
  | cons v vs ih =>
    intro old line h hl
    cases old with
    | nil => simp at h
    | cons o os =>
      obtain ⟨n, d, rest, hd, hv, rfl, he, hrest⟩ := hl
      have h1 : skipWs (List.replicate n ' ' ++ (d.text ++ rest)) = d.text ++ rest :=
        skipWs_blanks n _ (text_head d hd rest).1
      simp only [readFields, h1, fromCharsDouble_text d hd rest he, hv]
      rw [ih os rest (by simpa using h) hrest]

/-- If no error is counted, the line has the numbers. -/
theorem readFields_sound : ∀ (old : List ℚ) (line : List Char) (vals : List ℚ),
    readFields old line = (vals, 0) → LineHas line vals ∧ vals.length = old.length := by
  intro old
  induction old with
  | nil => intro line vals h; simp [readFields] at h; subst h; exact ⟨trivial, rfl⟩
  | cons o os ih =>
    intro line vals h
    simp only [readFields] at h
    rcases hf : fromCharsDouble (skipWs line) with _ | ⟨v, r⟩
    · rw [hf] at h
      simp only [Prod.mk.injEq] at h
      omega
    · rw [hf] at h
      simp only [Prod.mk.injEq] at h
      obtain ⟨h1, h2⟩ := h
      subst h1
      obtain ⟨h3, h4⟩ := ih r (readFields os r).1 (Prod.ext rfl h2)
      obtain ⟨d, hd, hs, hv⟩ := fromCharsDouble_sound hf
      obtain ⟨n, hn⟩ := skipWs_split line
      exact ⟨⟨n, d, r, hd, hv, by rw [← hs]; exact hn, h3⟩, by simp [h4]⟩

theorem readFields_length : ∀ (old : List ℚ) (line : List Char), (readFields old line).1.length = old.length := by
  intro old
  induction old with
  | nil => intro line; rfl
  | cons o os ih =>
    intro line
    simp only [readFields]
    split <;> simp [ih]

theorem fromCharsInt_text {line : List Char} {v : Int} {rest : List Char} (h : BeginsInt line v rest) :
    fromCharsInt (skipWs line) = some (v, rest) := by
  obtain ⟨n, d, ⟨h1, h2⟩, hv, rfl, hr, lo, hi⟩ := h
  obtain ⟨neg, ds⟩ := d
  simp only at h1 h2
  obtain ⟨x, xs, rfl⟩ : ∃ x xs, ds = x :: xs := by cases ds with | nil => exact absurd rfl h1 | cons a b => exact ⟨a, b, rfl⟩
  have hx : isDig x := h2 x (by simp)
  have hh : (IntText.text ⟨neg, x :: xs⟩ ++ rest).head? ≠ some ' ' := by
    cases neg with
    | true => simp [IntText.text]
    | false => simp only [IntText.text]; intro h; simp at h; rw [h] at hx; exact absurd hx (by decide)
  rw [skipWs_blanks n _ hh]
  have hs : takeSign (IntText.text ⟨neg, x :: xs⟩ ++ rest) = (neg, (x :: xs) ++ rest) := by
    rw [IntText.text, List.append_assoc]
    exact takeSign_text neg _ (by intro h; simp at h; rw [h] at hx; exact absurd hx (by decide))
  obtain ⟨w1, w2⟩ := takeWhile_run (a := x :: xs) (b := rest) h2 hr
  have hval : signed neg (digitsVal (x :: xs)) = v := by
    rw [← hv, digitsVal_eq]; cases neg <;> simp [signed, IntText.value]
  unfold fromCharsInt
  simp only [hs, w1, w2, hval]
  simp [lo, hi]

theorem fromCharsInt_sound {line : List Char} {v : Int} {rest : List Char}
    (h : fromCharsInt (skipWs line) = some (v, rest)) : BeginsInt line v rest := by
  obtain ⟨n, hn⟩ := skipWs_split line
  unfold fromCharsInt at h
  have hs := takeSign_split (skipWs line)
  generalize takeSign (skipWs line) = sg at h hs
  obtain ⟨neg, s1⟩ := sg
  simp only at h hs
  split at h
  · cases h
  rename_i hne
  split at h
  · rename_i hr
    simp only [Option.some.injEq, Prod.mk.injEq] at h
    obtain ⟨h1, h2⟩ := h
    refine ⟨n, ⟨neg, s1.takeWhile isDig⟩, ⟨?_, takeWhile_all s1⟩, ?_, ?_, ?_, by rw [← h1]; exact hr.1, by rw [← h1]; exact hr.2⟩
    · intro h0; simp only at h0; rw [h0] at hne; exact hne rfl
    · rw [← h1, digitsVal_eq]; cases neg <;> simp [signed, IntText.value]
    · rw [← h2, IntText.text, List.append_assoc, List.takeWhile_append_dropWhile, ← hs]
      exact hn
    · rw [← h2]
      intro c hc
      have := List.head?_dropWhile_not isDig s1
      cases hd : (s1.dropWhile isDig).head? with
      | none => rw [hd] at hc; cases hc
      | some x => rw [hd] at hc this; simp at hc; subst hc; simpa using this
  · cases h

theorem fromCharsDouble_begins {line : List Char} {v : ℚ} {rest : List Char} (h : BeginsNum line v rest)
    (he : Ends rest) : fromCharsDouble (skipWs line) = some (v, rest) := by
  obtain ⟨n, d, hd, hv, rfl⟩ := h
  rw [skipWs_blanks n _ (text_head d hd rest).1, fromCharsDouble_text d hd rest he, hv]

theorem fromCharsDouble_begins_sound {line : List Char} {v : ℚ} {rest : List Char}
    (h : fromCharsDouble (skipWs line) = some (v, rest)) : BeginsNum line v rest := by
  obtain ⟨d, hd, hs, hv⟩ := fromCharsDouble_sound h
  obtain ⟨n, hn⟩ := skipWs_split line
  exact ⟨n, d, hd, hv, by rw [← hs]; exact hn⟩

/-- A check of `Dec.Ok`. -/
def Dec.okb (d : Dec) : Bool :=
  d.int.all isDig && (d.frac.getD []).all isDig && (!d.int.isEmpty || !(d.frac.getD []).isEmpty) &&
  match d.exp with
  | none => true
  | some (l, _, e) => (l == 'e' || l == 'E') && !e.isEmpty && e.all isDig

theorem Dec.ok_of {d : Dec} (h : d.okb = true) : d.Ok := by
  obtain ⟨neg, ip, frac, exp⟩ := d
  simp only [Dec.okb, Bool.and_eq_true, List.all_eq_true] at h
  obtain ⟨⟨⟨h1, h2⟩, h3⟩, h4⟩ := h
  refine ⟨h1, fun f hf => by simp only at hf; subst hf; simpa using h2, ?_, ?_⟩
  · simp only [Bool.or_eq_true, Bool.not_eq_true', List.isEmpty_eq_false_iff] at h3
    rcases h3 with h3 | h3
    · exact Or.inl h3
    · cases frac with
      | none => simp at h3
      | some f => exact Or.inr ⟨f, rfl, by simpa using h3⟩
  · intro l s e he
    simp only at he
    subst he
    simp only [Bool.and_eq_true, Bool.or_eq_true, beq_iff_eq, Bool.not_eq_true', List.isEmpty_eq_false_iff,
      List.all_eq_true] at h4
    exact ⟨h4.1.1, h4.1.2, h4.2⟩

end Verif.Chars
