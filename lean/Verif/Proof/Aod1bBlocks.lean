import Verif.Proof.Aod1b
/-
Headers and sequences of blocks of AOD1B files.
-/
namespace Verif.Aod1b
open Verif.Chars Verif.Icgem

variable {T : Type}

theorem adv_append (p s : List Char) (k : Nat) (h : p.length = k) : adv k (p ++ s) = .ok s := by
  subst h
  simp [adv]

theorem ty_text_head (ty : Ty) (s : List Char) : ∀ c ∈ (ty.text ++ s).head?, ws2 c = false := by
  cases ty <;> intro c hc <;> (simp only [Ty.text] at hc; simp at hc; subst hc; decide)

theorem tyOf_text (ty : Ty) (s : List Char) : tyOf (ty.text ++ s) = some ty := by
  cases ty <;> simp [tyOf, Ty.text]

theorem dropWhile_ws2_none {s : List Char} (h : ∀ c ∈ s.head?, ws2 c = false) : s.dropWhile ws2 = s := by
  have := dropWhile_pre (pre := []) (by simp) h
  simpa using this

theorem parseHeader_ok {date : List Char → Option (T × List Char)} {line : List Char} {h : Hdr T} (hl : HeaderLine date line h)
    (h0 : Hdr T) : parseHeader date line h0 = .ok (0, h) := by
  obtain ⟨r1, r2, dt, n, rest, rfl, h1, h2, h3, h4⟩ := hl
  unfold parseHeader
  have e0 : ("DATA SET".toList ++ r1).take 8 = "DATA SET".toList := rfl
  have e1 : ("DATA SET".toList ++ r1).drop 8 = r1 := rfl
  rw [if_neg (by rw [e0]; simp), e1]
  simp only [readInt_ok sepOk2 h1]
  rw [show (':' :: r2 : List Char) = [':'] ++ r2 from rfl, adv_append [':'] r2 1 rfl]
  simp only [Res.bind, readInt_ok sepOk2 h2]
  have e2 : (" COEFFICIENTS FOR ".toList ++ dt).dropWhile ws2 = "COEFFICIENTS FOR ".toList ++ dt := rfl
  rw [e2]
  have e3 : ("COEFFICIENTS FOR ".toList ++ dt).take 17 = "COEFFICIENTS FOR ".toList := rfl
  rw [e3, if_pos rfl]
  rw [show (" COEFFICIENTS FOR ".toList ++ dt) = " COEFFICIENTS FOR".toList ++ ([' '] ++ dt) from rfl, adv_append _ _ 17 rfl]
  simp only []
  rw [dropWhile_pre (ws := ws2) (pre := [' ']) (by decide) (by
    intro c hc; simpa [ws2] using h3 c hc), h4]
  simp only []
  rw [show ∀ x : List Char, (' ' :: x) = [' '] ++ x from fun _ => rfl, adv_append [' '] _ 1 rfl]
  simp only []
  have e4 : ∀ x : List Char, ("OF TYPE".toList ++ x).dropWhile ws2 = "OF TYPE".toList ++ x := fun x => rfl
  have e5 : ∀ x : List Char, ("OF TYPE".toList ++ x).take 7 = "OF TYPE".toList := fun x => rfl
  rw [e4, e5, if_pos rfl, adv_append _ _ 7 rfl]
  simp only []
  rw [dropWhile_pre (ws := ws2) (by intro c hc; rw [List.eq_of_mem_replicate hc]; rfl) (ty_text_head _ _), tyOf_text]
  simp

theorem skip_lines (lines : List (List Char)) (hs : ∀ l ∈ lines, ShortLine l) (rest : List Char) :
    (At (unlines lines ++ rest)).skip 124 lines.length = At rest := by
  induction lines with
  | nil => simp [In.skip, unlines]
  | cons l ls ih =>
    rw [unlines_cons, List.length_cons, In.skip, getline_line (hs l (by simp))]
    exact ih (fun l hl => hs l (by simp [hl]))

theorem text_cons (b : Block T) (bs : List (Block T)) (rest : List Char) :
    blocksText (b :: bs) ++ rest = b.head ++ '\n' :: (unlines b.lines ++ (blocksText bs ++ rest)) := by
  simp [blocksText, Block.text, unlines]

/-- Blocks of other types are skipped. -/
theorem gotoLoop_skip {date : List Char → Option (T × List Char)} {ty : Ty} (rest : List Char) :
    ∀ (bs : List (Block T)), (∀ b ∈ bs, b.Ok date) → (∀ b ∈ bs, b.hdr.type ≠ ty) → ∀ (k : Nat) (h : Hdr T),
    bs.length ≤ k → ∃ h', gotoLoop date ty k (At (blocksText bs ++ rest)) h = gotoLoop date ty (k - bs.length) (At rest) h' := by
  intro bs
  induction bs with
  | nil => intro _ _ k h _; exact ⟨h, by simp [blocksText]⟩
  | cons b bs ih =>
    intro ho ht k h hk
    rw [List.length_cons] at hk
    obtain ⟨k, rfl⟩ : ∃ k', k = k' + 1 := ⟨k - 1, by omega⟩
    have hb := ho b (by simp)
    obtain ⟨h', ih⟩ := ih (fun b hb => ho b (by simp [hb])) (fun b hb => ht b (by simp [hb])) k b.hdr (by omega)
    refine ⟨h', ?_⟩
    rw [text_cons, gotoLoop]
    simp only [getline_line hb.short, parseHeader_ok hb.head, Res.bind]
    rw [if_neg (by simp), if_neg (ht b (by simp)), hb.count, Int.toNat_natCast, skip_lines _ hb.lines, ih,
      List.length_cons, Nat.add_sub_add_right]

theorem gotoLoop_found {date : List Char → Option (T × List Char)} {ty : Ty} {b : Block T} (hb : b.Ok date)
    (ht : b.hdr.type = ty) (bs : List (Block T)) (rest : List Char) (k : Nat) (h : Hdr T) (hk : 1 ≤ k) :
    gotoLoop date ty k (At (blocksText (b :: bs) ++ rest)) h = .ok (0, At (unlines b.lines ++ (blocksText bs ++ rest)), b.hdr) := by
  obtain ⟨k, rfl⟩ : ∃ k', k = k' + 1 := ⟨k - 1, by omega⟩
  rw [text_cons, gotoLoop]
  simp only [getline_line hb.short, parseHeader_ok hb.head, Res.bind]
  rw [if_neg (by simp), if_pos ht]

theorem gotoLoop_end {date : List Char → Option (T × List Char)} {ty : Ty} (k : Nat) (h : Hdr T) :
    gotoLoop date ty k (At []) h = .ok (-1, ⟨[], true, true⟩, h) := by
  rw [gotoLoop.eq_def]; rfl

/-- At the last look the loop only sees that it may not go on. -/
theorem gotoLoop_zero {date : List Char → Option (T × List Char)} {ty : Ty} {b : Block T} (hb : b.Ok date)
    (bs : List (Block T)) (rest : List Char) (h : Hdr T) :
    gotoLoop date ty 0 (At (blocksText (b :: bs) ++ rest)) h = .ok (1, At (unlines b.lines ++ (blocksText bs ++ rest)), h) := by
  rw [text_cons, gotoLoop]
  simp only [getline_line hb.short]
  rfl

theorem goto_first {date : List Char → Option (T × List Char)} {ty : Ty} {pre : List (Block T)} {b : Block T}
    (hp : ∀ b ∈ pre, b.Ok date) (hn : ∀ b ∈ pre, b.hdr.type ≠ ty) (hb : b.Ok date) (ht : b.hdr.type = ty)
    (bs : List (Block T)) (k : Nat) (hk : pre.length + 1 ≤ k) (h : Hdr T) :
    gotoLoop date ty k (At (blocksText (pre ++ b :: bs))) h = .ok (0, At (unlines b.lines ++ blocksText bs), b.hdr) := by
  have e : blocksText (pre ++ b :: bs) = blocksText pre ++ (blocksText (b :: bs) ++ []) := by simp [blocksText]
  obtain ⟨h', hs⟩ := gotoLoop_skip (ty := ty) (blocksText (b :: bs) ++ []) pre hp hn k h (by omega)
  rw [e, hs, gotoLoop_found hb ht bs [] _ h' (by omega), List.append_nil]

theorem goto_none {date : List Char → Option (T × List Char)} {ty : Ty} {bs : List (Block T)}
    (hp : ∀ b ∈ bs, b.Ok date) (hn : ∀ b ∈ bs, b.hdr.type ≠ ty) (k : Nat) (hk : bs.length ≤ k) (h : Hdr T) :
    ∃ h', gotoLoop date ty k (At (blocksText bs)) h = .ok (-1, ⟨[], true, true⟩, h') := by
  obtain ⟨h', hs⟩ := gotoLoop_skip (ty := ty) [] bs hp hn k h hk
  rw [List.append_nil] at hs
  exact ⟨h', by rw [hs, gotoLoop_end]⟩

/-! ### The header of the file -/

theorem skipHeaderLoop_ok (pre : List (List Char)) (last rest : List Char)
    (hp : ∀ l ∈ pre, ShortLine l ∧ l.take 13 ≠ "END OF HEADER".toList) (hl : ShortLine last)
    (he : last.take 13 = "END OF HEADER".toList) : ∀ k, pre.length + 1 ≤ k →
    skipHeaderLoop k (At (unlines (pre ++ [last]) ++ rest)) = (0, At rest) := by
  induction pre with
  | nil =>
    intro k hk
    obtain ⟨k, rfl⟩ : ∃ k', k = k' + 1 := ⟨k - 1, by simp at hk; omega⟩
    rw [List.nil_append, unlines_cons, skipHeaderLoop]
    simp only [getline_line hl]
    rw [if_pos he]; rfl
  | cons l ls ih =>
    intro k hk
    obtain ⟨k, rfl⟩ : ∃ k', k = k' + 1 := ⟨k - 1, by simp at hk; omega⟩
    rw [List.cons_append, unlines_cons, skipHeaderLoop]
    simp only [getline_line (hp l (by simp)).1]
    rw [if_neg (hp l (by simp)).2]
    exact ih (fun l hl => hp l (by simp [hl])) k (by simp at hk; omega)

theorem skipHeader_ok {a : Aod T} {ls : List (List Char)} {rest : List Char} (h : FileHeader ls) (hn : ls.length ≤ 99)
    (ha : a.text = unlines ls ++ rest) (s : In) (hs : s.fail = false) : skipHeader a s = (0, At rest) := by
  obtain ⟨pre, last, rfl, h1, h2, h3⟩ := h
  unfold skipHeader In.seek0
  rw [hs, ha]
  exact skipHeaderLoop_ok pre last rest h1 h2 h3 99 (by simp at hn; omega)

theorem skipHeaderLoop_sound : ∀ (k : Nat) (s s' : In), skipHeaderLoop k s = (0, s') → s'.good = true →
    ∃ ls, FileHeader ls ∧ ls.length ≤ k ∧ s = At (unlines ls ++ s'.rest) ∧ s' = At s'.rest := by
  intro k
  induction k with
  | zero =>
    intro s s' h _
    rw [skipHeaderLoop] at h
    rcases hl : s.getline 124 with ⟨l, ok, s1⟩
    cases ok <;> simp [hl] at h
  | succ k ih =>
    intro s s' h hg
    rw [skipHeaderLoop] at h
    rcases hl : s.getline 124 with ⟨l, ok, s1⟩
    cases ok with
    | false => simp [hl] at h
    | true =>
      simp only [hl] at h
      split at h
      · rename_i he
        simp only [Prod.mk.injEq, true_and] at h
        subst h
        obtain ⟨c1, c2, c3⟩ := getline_sound hl hg
        exact ⟨[l], ⟨[], l, rfl, by simp, c3, he⟩, by simp, by rw [unlines_cons]; simpa [unlines] using c1, c2⟩
      · rename_i he
        obtain ⟨ls, ⟨pre, last, rfl, d1, d2, d3⟩, a2, a3, a4⟩ := ih s1 s' h hg
        have hg1 : s1.good = true := by rw [a3]; rfl
        obtain ⟨c1, c2, c3⟩ := getline_sound hl hg1
        refine ⟨l :: (pre ++ [last]), ⟨l :: pre, last, rfl, ?_, d2, d3⟩, by simp at a2 ⊢; omega, ?_, a4⟩
        · intro l' hl'; rcases List.mem_cons.mp hl' with rfl | hl'
          · exact ⟨c3, he⟩
          · exact d1 l' hl'
        · rw [unlines_cons, c1, a3]; rfl

end Verif.Aod1b
