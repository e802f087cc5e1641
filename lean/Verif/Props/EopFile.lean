import Verif.Spec.EopFile
import Verif.Proof.Chars
import Verif.Props.Eop
import Mathlib.Tactic.NormNum
/-
C24: C04 files.
-/
namespace Verif.Eop
open Verif.Chars

/-! ### Lemmas -/

theorem isComment_iff (l : List Char) : isComment l = true ↔ Comment l := by
  unfold isComment Comment
  cases l with
  | nil => simp
  | cons c cs => simp; constructor
                 · rintro (h | h) <;> simp [h]
                 · rintro ⟨r, h | h⟩ <;> simp [h.1]

theorem dataLine_iff {line rest : List Char} :
    DataLine line rest ↔ (isComment line = false ∧ 12 ≤ line.length ∧ rest = line.drop 12) := by
  constructor
  · rintro ⟨d, hd, rfl, hc⟩
    have hc' : isComment d = false := by
      rw [← Bool.not_eq_true]; exact fun h => hc ((isComment_iff d).mp h)
    refine ⟨?_, by simp [hd], by rw [← hd]; simp⟩
    cases d with
    | nil => simp at hd
    | cons c cs => exact hc'
  · rintro ⟨h1, h2, rfl⟩
    refine ⟨line.take 12, by simp; omega, (List.take_append_drop 12 line).symm, ?_⟩
    intro h
    have := (isComment_iff _).mpr h
    cases line with
    | nil => simp at h2
    | cons c cs =>
      have h3 : isComment (List.take 12 (c :: cs)) = isComment (c :: cs) := rfl
      rw [h3, h1] at this
      cases this

/-- What the loop needs of a data line. -/
def Decodes (F : Fmt) (line : List Char) (r : Rec ℚ) : Prop :=
  ∃ (t dat : ℚ) (rest : List Char) (d : List ℚ), F.date line = .ok (.at_ t dat 0 rest) ∧
    (∀ junk : List ℚ, junk.length = F.n → readFields junk rest = (d, 0)) ∧ r = F.build t dat d ∧ r.t = t

theorem decodes14 {tt dat : ℚ → ℚ} {line : List Char} {r : Rec ℚ} (h : Is14 tt dat line r) : Decodes (fmt14 tt dat) line r := by
  obtain ⟨mjd, rest, rest', h1, h2, h3, h4, h5, h6, h7⟩ := h
  obtain ⟨g1, g2, rfl⟩ := dataLine_iff.mp h1
  refine ⟨tt mjd, dat mjd, rest', [r.xp, r.yp, r.dut, r.lod, r.dX, r.dY], ?_, fun junk hj => readFields_ok _ junk rest' hj h3, ?_, h4⟩
  · simp only [fmt14, date14, g1]
    rw [if_neg (by simp), if_neg (by omega), fromCharsInt_text h2]
  · obtain ⟨⟩ := r
    simp only at h4 h5 h6 h7
    subst h4 h5 h6 h7
    rfl

theorem decodes20 {tt dat : ℚ → ℚ} {line : List Char} {r : Rec ℚ} (h : Is20 tt dat line r) : Decodes (fmt20 tt dat) line r := by
  obtain ⟨day, hours, rest, rest1, rest2, h1, h2, h3, h4, h5, h6, h7, h8, h9⟩ := h
  obtain ⟨g1, g2, rfl⟩ := dataLine_iff.mp h1
  have hh0 : (0 : ℚ) ≤ (hours : ℚ) / 24 := by
    apply div_nonneg _ (by norm_num); exact_mod_cast h3
  have hh1 : (hours : ℚ) / 24 < 1 := by
    rw [div_lt_one (by norm_num)]; exact_mod_cast h4
  have hm : modfInt ((day : ℚ) + (hours : ℚ) / 24) = day := by
    unfold modfInt
    rw [if_neg (by have : (0 : ℚ) ≤ day := by positivity
                   linarith)]
    rw [Int.floor_eq_iff]
    push_cast
    constructor <;> linarith
  refine ⟨tt (day + (hours : ℚ) / 24), dat day, rest2, [r.xp, r.yp, r.dut, r.dX, r.dY, r.xrt, r.yrt, r.lod], ?_, fun junk hj => readFields_ok _ junk rest2 hj h7, ?_, h8⟩
  · simp only [fmt20, date20, g1]
    rw [if_neg (by simp), if_neg (by omega), fromCharsInt_text h2]
    simp only [fromCharsDouble_begins h5 h6, hm]
    rw [if_pos (by push_cast; ring)]
    simp
  · obtain ⟨⟩ := r
    simp only at h8 h9
    subst h8 h9
    rfl

theorem date_comment14 {tt dat : ℚ → ℚ} {line : List Char} (h : Comment line) : (fmt14 tt dat).date line = .ok .skip := by
  simp [fmt14, date14, (isComment_iff line).mpr h]

theorem date_comment20 {tt dat : ℚ → ℚ} {line : List Char} (h : Comment line) : (fmt20 tt dat).date line = .ok .skip := by
  simp [fmt20, date20, (isComment_iff line).mpr h]

theorem readLines_complete {F : Fmt} {Is : List Char → Rec ℚ → Prop} (hc : ∀ l, Comment l → F.date l = .ok .skip)
    (hI : ∀ l r, Is l r → Decodes F l r) (junk : List ℚ) (hj : F.n ≤ junk.length) (start fin : ℚ)
    {lines : List (List Char)} {rs : List (Rec ℚ)} (h : Holds Is lines rs) (hs : Sorted rs) (s : Series ℚ) :
    ∃ s', readLines F junk start fin lines s 0 = .ok (0, s') ∧ s'.vec = s.vec ++ inRange start fin rs := by
  induction h generalizing s with
  | nil => exact ⟨s, rfl, by simp [inRange]⟩
  | comment h1 h2 _ ih =>
    obtain ⟨s', g1, g2⟩ := ih hs s
    refine ⟨s', ?_, g2⟩
    simp only [readLines]
    rw [if_neg (by unfold MAX_LINE; omega), if_neg (by simp), hc _ h2]
    exact g1
  | @data l ls r rs h1 h2 hrest ih =>
    obtain ⟨t, dat, rest, d, e1, e2, e3, e4⟩ := hI _ _ h2
    have hs' := List.pairwise_cons.mp hs
    simp only [readLines]
    rw [if_neg (by unfold MAX_LINE; omega), if_neg (by simp), e1]
    simp only [e2 (junk.take F.n) (by simp; omega)]
    by_cases hin : t ≥ start ∧ t < fin
    · rw [if_pos hin]
      obtain ⟨s', g1, g2⟩ := ih hs'.2 (s.pushBack r)
      refine ⟨s', ?_, ?_⟩
      · rw [← e3]; simpa using g1
      · rw [g2]
        have : (start ≤ r.t ∧ r.t < fin) := by rw [e4]; exact hin
        simp [inRange, Series.pushBack, this]
    · rw [if_neg hin]
      have hout : ¬ (start ≤ r.t ∧ r.t < fin) := by rw [e4]; exact hin
      by_cases hge : t ≥ fin
      · rw [if_pos hge]
        refine ⟨s, by simp, ?_⟩
        have : inRange start fin (r :: rs) = [] := by
          rw [inRange, List.filter_eq_nil_iff]
          intro x hx
          simp only [List.mem_cons] at hx
          have : fin ≤ x.t := by
            rcases hx with rfl | hx
            · rw [e4]; exact hge
            · have := hs'.1 x hx; rw [e4] at this; linarith
          simp only [decide_eq_true_eq, not_and, not_lt]
          intro _; exact this
        rw [this]; simp
      · rw [if_neg hge]
        obtain ⟨s', g1, g2⟩ := ih hs'.2 s
        exact ⟨s', g1, by rw [g2]; simp [inRange, hout]⟩

theorem reserve_vec (s : Series ℚ) (n : Nat) : (s.reserve n).vec = s.vec := by
  unfold Series.reserve; split <;> rfl

/-! ### C24 -/

/-- C24 (C04/14): a file of comments and well-formed data lines in time order, and a non-empty interval:
success, and exactly the records in `[start, end)`, in order, whatever the series held before. -/
theorem c0414_complete (tt dat : ℚ → ℚ) (junk : List ℚ) (hj : 6 ≤ junk.length) (start fin : ℚ) (hsf : start < fin)
    {lines : List (List Char)} {rs : List (Rec ℚ)} (h : Holds (Is14 tt dat) lines rs) (hs : Sorted rs) (s : Series ℚ) :
    ∃ s', parseFmt (fmt14 tt dat) junk (some lines) start fin s = .ok (0, s') ∧ s'.vec = inRange start fin rs := by
  obtain ⟨s', g1, g2⟩ := readLines_complete (F := fmt14 tt dat) (fun l hl => date_comment14 hl) (fun l r hl => decodes14 hl)
    junk hj start fin h hs (s.clear.reserve ⌈fin - start⌉.toNat)
  refine ⟨s', ?_, by rw [g2, reserve_vec]; simp [Series.clear]⟩
  unfold parseFmt
  rw [if_neg (by linarith)]
  exact g1

/-- C24 (C04/20). -/
theorem c0420_complete (tt dat : ℚ → ℚ) (junk : List ℚ) (hj : 8 ≤ junk.length) (start fin : ℚ) (hsf : start < fin)
    {lines : List (List Char)} {rs : List (Rec ℚ)} (h : Holds (Is20 tt dat) lines rs) (hs : Sorted rs) (s : Series ℚ) :
    ∃ s', parseFmt (fmt20 tt dat) junk (some lines) start fin s = .ok (0, s') ∧ s'.vec = inRange start fin rs := by
  obtain ⟨s', g1, g2⟩ := readLines_complete (F := fmt20 tt dat) (fun l hl => date_comment20 hl) (fun l r hl => decodes20 hl)
    junk hj start fin h hs (s.clear.reserve ⌈fin - start⌉.toNat)
  refine ⟨s', ?_, by rw [g2, reserve_vec]; simp [Series.clear]⟩
  unfold parseFmt
  rw [if_neg (by linarith)]
  exact g1

/-- C24, the entry point: the format is recognised by the header; the parsed series has a valid iterator and
is in time order, so that it can be queried at once (C18). -/
theorem parseC04_complete (tt dat : ℚ → ℚ) (junk : List ℚ) (hj : 8 ≤ junk.length) (start fin : ℚ) (hsf : start < fin)
    {lines : List (List Char)} {rs : List (Rec ℚ)} (c20 : Bool) (hh : chooseSeries (some lines) = some c20)
    (h : Holds (if c20 then Is20 tt dat else Is14 tt dat) lines rs) (hs : Sorted rs) (s : Series ℚ) :
    ∃ s', parseC04 tt dat junk (some lines) start fin s = .ok (0, s') ∧ s'.vec = inRange start fin rs ∧
      s'.CacheOk ∧ Sorted s'.vec := by
  have key : ∃ s', parseFmt (if c20 then fmt20 tt dat else fmt14 tt dat) junk (some lines) start fin s = .ok (0, s') ∧
      s'.vec = inRange start fin rs := by
    cases c20 with
    | true => exact c0420_complete tt dat junk hj start fin hsf h hs s
    | false => exact c0414_complete tt dat junk (by omega) start fin hsf h hs s
  obtain ⟨s', g1, g2⟩ := key
  refine ⟨{ s' with last := some s'.vec.length }, ?_, g2, ⟨_, rfl, le_rfl⟩, ?_⟩
  · unfold parseC04
    rw [hh]
    simp only [g1, Res.bind, Series.reset]
    rfl
  · simp only [g2]; exact List.Pairwise.filter _ hs

/-- C24: an empty interval is an error, and the records are left alone. -/
theorem parse_empty_interval (F : Fmt) (junk : List ℚ) (file : Option (List (List Char))) (start fin : ℚ)
    (h : fin ≤ start) (s : Series ℚ) : parseFmt F junk file start fin s = .ok (1, s) := by
  unfold parseFmt; rw [if_pos h]

/-- C24: a file that cannot be opened is an error. -/
theorem parse_no_file (tt dat : ℚ → ℚ) (junk : List ℚ) (start fin : ℚ) (s : Series ℚ) :
    parseC04 tt dat junk none start fin s = .ok (1, s) := rfl

/-- What a line read with success is: a comment; a data line whose epoch `t` is outside the interval; a data
line inside with its record. -/
inductive Item where
  | comment
  | outside (t : ℚ)
  | inside (r : Rec ℚ)

/-- A C04/14 line decoded. The numbers may touch. -/
def Decoded14 (tt dat : ℚ → ℚ) (start fin : ℚ) (line : List Char) : Item → Prop
  | .comment => Comment line
  | .outside t => ∃ (mjd : Int) (rest rest' : List Char), DataLine line rest ∧ BeginsInt rest mjd rest' ∧ t = tt mjd ∧
      ¬ (start ≤ t ∧ t < fin)
  | .inside r => ∃ (mjd : Int) (rest rest' : List Char), DataLine line rest ∧ BeginsInt rest mjd rest' ∧
      LineHas rest' [r.xp, r.yp, r.dut, r.lod, r.dX, r.dY] ∧ r.t = tt mjd ∧ r.dat = dat mjd ∧ r.xrt = 0 ∧ r.yrt = 0 ∧
      start ≤ r.t ∧ r.t < fin

/-- A C04/20 line decoded. -/
def Decoded20 (tt dat : ℚ → ℚ) (start fin : ℚ) (line : List Char) : Item → Prop
  | .comment => Comment line
  | .outside t => ∃ (hours : Int) (mjd : ℚ) (rest rest1 rest2 : List Char), DataLine line rest ∧ BeginsInt rest hours rest1 ∧
      BeginsNum rest1 mjd rest2 ∧ mjd - modfInt mjd = (hours : ℚ) / 24 ∧ t = tt mjd ∧ ¬ (start ≤ t ∧ t < fin)
  | .inside r => ∃ (hours : Int) (mjd : ℚ) (rest rest1 rest2 : List Char), DataLine line rest ∧ BeginsInt rest hours rest1 ∧
      BeginsNum rest1 mjd rest2 ∧ mjd - modfInt mjd = (hours : ℚ) / 24 ∧
      LineHas rest2 [r.xp, r.yp, r.dut, r.dX, r.dY, r.xrt, r.yrt, r.lod] ∧ r.t = tt mjd ∧ r.dat = dat (modfInt mjd) ∧
      start ≤ r.t ∧ r.t < fin

/-- The records of a list of items. -/
def Item.recs (l : List Item) : List (Rec ℚ) := l.filterMap (fun | .inside r => some r | _ => none)

theorem six {l : List ℚ} (h : l.length = 6) : ∃ a b c d e f, l = [a, b, c, d, e, f] := by
  match l, h with
  | [a, b, c, d, e, f], _ => exact ⟨a, b, c, d, e, f, rfl⟩

theorem eight {l : List ℚ} (h : l.length = 8) : ∃ a b c d e f g k, l = [a, b, c, d, e, f, g, k] := by
  match l, h with
  | [a, b, c, d, e, f, g, k], _ => exact ⟨a, b, c, d, e, f, g, k, rfl⟩

/-- What the soundness of the loop needs of a format. -/
structure FmtSound (F : Fmt) (start fin : ℚ) (D : List Char → Item → Prop) : Prop where
  skip : ∀ l, F.date l = .ok .skip → D l .comment
  out : ∀ l t dat rest, F.date l = .ok (.at_ t dat 0 rest) → ¬ (start ≤ t ∧ t < fin) → D l (.outside t)
  inn : ∀ l t dat rest junk d, F.date l = .ok (.at_ t dat 0 rest) → start ≤ t → t < fin → junk.length = F.n →
    readFields junk rest = (d, 0) → D l (.inside (F.build t dat d))
  ret : ∀ l c, F.date l = .ok (.ret c) → c ≠ 0

theorem sound14 (tt dat : ℚ → ℚ) (start fin : ℚ) : FmtSound (fmt14 tt dat) start fin (Decoded14 tt dat start fin) where
  skip := by
    intro l h
    simp only [fmt14, date14] at h
    split at h
    · rename_i hc; exact (isComment_iff l).mp hc
    · split at h
      · cases h
      · split at h <;> cases h
  out := by
    intro l t dt rest h hn
    simp only [fmt14, date14] at h
    split at h
    · cases h
    · rename_i hc
      split at h
      · cases h
      · rename_i hl
        split at h
        · rename_i mjd r hf
          cases h
          exact ⟨mjd, l.drop 12, rest, dataLine_iff.mpr ⟨by simpa using hc, by omega, rfl⟩, fromCharsInt_sound hf, rfl, hn⟩
        · cases h
  inn := by
    intro l t dt rest junk d h h1 h2 hj hr
    obtain ⟨r1, r2⟩ := readFields_sound _ _ _ hr
    obtain ⟨a, b, c, e, f, g, rfl⟩ := six (r2.trans hj)
    simp only [fmt14, date14] at h
    split at h
    · cases h
    · rename_i hc
      split at h
      · cases h
      · rename_i hl
        split at h
        · rename_i mjd r hf
          cases h
          exact ⟨mjd, l.drop 12, rest, dataLine_iff.mpr ⟨by simpa using hc, by omega, rfl⟩, fromCharsInt_sound hf, r1, rfl, rfl,
            rfl, rfl, h1, h2⟩
        · cases h
  ret := by
    intro l c h
    simp only [fmt14, date14] at h
    split at h
    · cases h
    · split at h
      · cases h
      · split at h <;> cases h

theorem sound20 (tt dat : ℚ → ℚ) (start fin : ℚ) : FmtSound (fmt20 tt dat) start fin (Decoded20 tt dat start fin) where
  skip := by
    intro l h
    simp only [fmt20, date20] at h
    split at h
    · rename_i hc; exact (isComment_iff l).mp hc
    · split at h
      · cases h
      · split at h
        · cases h
        · split at h
          · cases h
          · split at h <;> cases h
  out := by
    intro l t dt rest h hn
    simp only [fmt20, date20] at h
    split at h
    · cases h
    · rename_i hc
      split at h
      · cases h
      · rename_i hl
        split at h
        · cases h
        · rename_i hours r hf
          split at h
          · cases h
          · rename_i mjd r2 hf2
            split at h
            · rename_i hm
              cases h
              exact ⟨hours, mjd, l.drop 12, r, rest, dataLine_iff.mpr ⟨by simpa using hc, by omega, rfl⟩,
                fromCharsInt_sound hf, fromCharsDouble_begins_sound hf2, hm, rfl, hn⟩
            · cases h
  inn := by
    intro l t dt rest junk d h h1 h2 hj hr
    obtain ⟨r1, r2⟩ := readFields_sound _ _ _ hr
    obtain ⟨a, b, c, e, f, g, k1, k2, rfl⟩ := eight (r2.trans hj)
    simp only [fmt20, date20] at h
    split at h
    · cases h
    · rename_i hc
      split at h
      · cases h
      · rename_i hl
        split at h
        · cases h
        · rename_i hours r hf
          split at h
          · cases h
          · rename_i mjd r2 hf2
            split at h
            · rename_i hm
              cases h
              exact ⟨hours, mjd, l.drop 12, r, rest, dataLine_iff.mpr ⟨by simpa using hc, by omega, rfl⟩,
                fromCharsInt_sound hf, fromCharsDouble_begins_sound hf2, hm, r1, rfl, rfl, h1, h2⟩
            · cases h
  ret := by
    intro l c h
    simp only [fmt20, date20] at h
    split at h
    · cases h
    · split at h
      · cases h
      · split at h
        · cases h; simp
        · split at h
          · cases h; simp
          · split at h <;> cases h

theorem readLines_error {F : Fmt} {junk : List ℚ} {start fin : ℚ} {lines : List (List Char)} {s s' : Series ℚ} {e : Nat}
    (he : e ≠ 0) : readLines F junk start fin lines s e ≠ .ok (0, s') := by
  cases lines with
  | nil => simp [readLines, he]
  | cons l ls => simp [readLines, he]

theorem readLines_sound {F : Fmt} {start fin : ℚ} {D : List Char → Item → Prop} (hF : FmtSound F start fin D)
    (junk : List ℚ) (hj : F.n ≤ junk.length) (lines : List (List Char)) : ∀ (s s' : Series ℚ),
    readLines F junk start fin lines s 0 = .ok (0, s') →
    ∃ (read unread : List (List Char)) (items : List Item), lines = read ++ unread ∧ List.Forall₂ D read items ∧
      s'.vec = s.vec ++ Item.recs items ∧
      (unread = [] ∨ ∃ t, fin ≤ t ∧ items.getLast? = some (.outside t)) := by
  induction lines with
  | nil =>
    intro s s' h
    simp only [readLines] at h
    cases h
    exact ⟨[], [], [], rfl, .nil, by simp [Item.recs], .inl rfl⟩
  | cons l ls ih =>
    intro s s' h
    simp only [readLines] at h
    split at h
    · simp at h
    · rw [if_neg (by simp)] at h
      split at h
      · rename_i hd
        obtain ⟨read, unread, items, g1, g2, g3, g4⟩ := ih s s' h
        refine ⟨l :: read, unread, .comment :: items, by rw [g1]; rfl, .cons (hF.skip l hd) g2, by rw [g3]; rfl, ?_⟩
        rcases g4 with g4 | ⟨t, ht, g4⟩
        · exact .inl g4
        · exact .inr ⟨t, ht, by rw [List.getLast?_cons, g4]; rfl⟩
      · rename_i c hd
        simp only [Res.ok.injEq, Prod.mk.injEq] at h
        exact absurd h.1 (hF.ret l c hd)
      · rename_i t dat e1 rest hd
        split at h
        · rename_i hin
          rcases hr : readFields (junk.take F.n) rest with ⟨d, e2⟩
          rw [hr] at h
          simp only at h
          by_cases he : e1 + e2 = 0
          · rw [if_pos he, he] at h
            have h1 : e1 = 0 := by omega
            have h2 : e2 = 0 := by omega
            subst h1 h2
            obtain ⟨read, unread, items, g1, g2, g3, g4⟩ := ih _ s' h
            refine ⟨l :: read, unread, .inside (F.build t dat d) :: items, by rw [g1]; rfl,
              .cons (hF.inn l t dat rest _ d hd hin.1 hin.2 (by simp; omega) hr) g2, ?_, ?_⟩
            · rw [g3]; simp [Series.pushBack, Item.recs]
            · rcases g4 with g4 | ⟨t, ht, g4⟩
              · exact .inl g4
              · exact .inr ⟨t, ht, by rw [List.getLast?_cons, g4]; rfl⟩
          · exact absurd h (readLines_error he)
        · rename_i hout
          split at h
          · rename_i hge
            simp only [Res.ok.injEq, Prod.mk.injEq] at h
            obtain ⟨h1, rfl⟩ := h
            have h1 : e1 = 0 := by by_contra hne; simp [hne] at h1
            subst h1
            exact ⟨[l], ls, [.outside t], rfl, .cons (hF.out l t dat rest hd hout) .nil, by simp [Item.recs],
              .inr ⟨t, hge, rfl⟩⟩
          · by_cases he : e1 = 0
            · subst he
              obtain ⟨read, unread, items, g1, g2, g3, g4⟩ := ih s s' h
              refine ⟨l :: read, unread, .outside t :: items, by rw [g1]; rfl, .cons (hF.out l t dat rest hd hout) g2,
                by rw [g3]; rfl, ?_⟩
              rcases g4 with g4 | ⟨t, ht, g4⟩
              · exact .inl g4
              · exact .inr ⟨t, ht, by rw [List.getLast?_cons, g4]; rfl⟩
            · exact absurd h (readLines_error he)
      · cases h
      · cases h
      · cases h

/-- C24, the other direction (C04/14): if success is reported, then every line read could be decoded (a
comment, a date outside the interval, or a full record), reading stopped only at a date at or after the end,
and the series is exactly the decoded records. So a line that cannot be decoded gives an error. -/
theorem c0414_sound (tt dat : ℚ → ℚ) (junk : List ℚ) (hj : 6 ≤ junk.length) (start fin : ℚ)
    (file : Option (List (List Char))) (s s' : Series ℚ)
    (h : parseFmt (fmt14 tt dat) junk file start fin s = .ok (0, s')) :
    ∃ (read unread : List (List Char)) (items : List Item), start < fin ∧ file = some (read ++ unread) ∧
      List.Forall₂ (Decoded14 tt dat start fin) read items ∧ s'.vec = Item.recs items ∧
      (unread = [] ∨ ∃ t, fin ≤ t ∧ items.getLast? = some (.outside t)) := by
  unfold parseFmt at h
  split at h
  · simp at h
  · rename_i hlt
    split at h
    · simp at h
    · rename_i lines
      obtain ⟨read, unread, items, g1, g2, g3, g4⟩ := readLines_sound (sound14 tt dat start fin) junk hj lines _ _ h
      exact ⟨read, unread, items, by linarith, by rw [g1], g2, by rw [g3, reserve_vec]; simp [Series.clear], g4⟩

/-- C24, the other direction (C04/20). -/
theorem c0420_sound (tt dat : ℚ → ℚ) (junk : List ℚ) (hj : 8 ≤ junk.length) (start fin : ℚ)
    (file : Option (List (List Char))) (s s' : Series ℚ)
    (h : parseFmt (fmt20 tt dat) junk file start fin s = .ok (0, s')) :
    ∃ (read unread : List (List Char)) (items : List Item), start < fin ∧ file = some (read ++ unread) ∧
      List.Forall₂ (Decoded20 tt dat start fin) read items ∧ s'.vec = Item.recs items ∧
      (unread = [] ∨ ∃ t, fin ≤ t ∧ items.getLast? = some (.outside t)) := by
  unfold parseFmt at h
  split at h
  · simp at h
  · rename_i hlt
    split at h
    · simp at h
    · rename_i lines
      obtain ⟨read, unread, items, g1, g2, g3, g4⟩ := readLines_sound (sound20 tt dat start fin) junk hj lines _ _ h
      exact ⟨read, unread, items, by linarith, by rw [g1], g2, by rw [g3, reserve_vec]; simp [Series.clear], g4⟩

/-- C24 fails for a line that is shorter than the date field: it is not reported as an error but read past its
end. -/
theorem c04_short_line_fails (tt dat : ℚ → ℚ) (junk : List ℚ) (start fin : ℚ) (hsf : start < fin) (s : Series ℚ) :
    parseFmt (fmt14 tt dat) junk (some ["1962".toList]) start fin s = .ub ∧
    parseFmt (fmt20 tt dat) junk (some ["1962".toList]) start fin s = .ub := by
  unfold parseFmt
  rw [if_neg (by linarith), if_neg (by linarith)]
  exact ⟨rfl, rfl⟩

/-- A data line of C04/14 (first six quantities of the published example). -/
def exLine : List Char :=
  "1962   1   1  37665  -0.012700   0.213000   0.0326338   0.0017230   0.000000   0.000000   0.030000".toList

example : Holds (Is14 (fun x => x) (fun _ => 2)) ["# comment".toList, exLine]
    [⟨37665, -0.0127, 0.213, 0.0326338, 0.001723, 0, 0, 2, 0, 0⟩] := by
  refine .comment (by decide) (.inr ⟨" comment".toList, .inr rfl⟩) (.data (by decide) ?_ .nil)
  refine ⟨37665, "  37665  -0.012700   0.213000   0.0326338   0.0017230   0.000000   0.000000   0.030000".toList,
    "  -0.012700   0.213000   0.0326338   0.0017230   0.000000   0.000000   0.030000".toList,
    ⟨"1962   1   1".toList, rfl, rfl, by rw [← isComment_iff]; decide⟩,
    ⟨2, ⟨false, "37665".toList⟩, ⟨by decide, by decide⟩, rfl, rfl, by decide, by decide, by decide⟩, ?_,
    rfl, rfl, rfl, rfl⟩
  have ok : ∀ (neg : Bool) (i f : List Char), i ≠ [] → (∀ c ∈ i, isDig c) → (∀ c ∈ f, isDig c) → Dec.Ok ⟨neg, i, some f, none⟩ :=
    fun neg i f h1 h2 h3 => ⟨h2, fun g hg => by simp at hg; rw [← hg]; exact h3, .inl h1, fun _ _ _ h => by simp at h⟩
  refine ⟨2, ⟨true, "0".toList, some "012700".toList, none⟩, _, ok _ _ _ (by decide) (by decide) (by decide), ?_, rfl, by unfold Ends; decide, ?_⟩
  · decide +kernel
  refine ⟨3, ⟨false, "0".toList, some "213000".toList, none⟩, _, ok _ _ _ (by decide) (by decide) (by decide), ?_, rfl, by unfold Ends; decide, ?_⟩
  · decide +kernel
  refine ⟨3, ⟨false, "0".toList, some "0326338".toList, none⟩, _, ok _ _ _ (by decide) (by decide) (by decide), ?_, rfl, by unfold Ends; decide, ?_⟩
  · decide +kernel
  refine ⟨3, ⟨false, "0".toList, some "0017230".toList, none⟩, _, ok _ _ _ (by decide) (by decide) (by decide), ?_, rfl, by unfold Ends; decide, ?_⟩
  · decide +kernel
  refine ⟨3, ⟨false, "0".toList, some "000000".toList, none⟩, _, ok _ _ _ (by decide) (by decide) (by decide), ?_, rfl, by unfold Ends; decide, ?_⟩
  · decide +kernel
  refine ⟨3, ⟨false, "0".toList, some "000000".toList, none⟩, _, ok _ _ _ (by decide) (by decide) (by decide), ?_, rfl, by unfold Ends; decide, ?_⟩
  · decide +kernel
  show Ends _
  unfold Ends; decide

/-! ### The choice of the format -/

/-- C24: the format is decided by the published header lines, for every file with lines that fit the buffer. -/
theorem choose_c04 (lines : List (List Char)) (hl : ∀ l ∈ lines, l.length < 256) :
    (chooseSeries (some lines) = some true ↔
      ∃ a b rest, lines = (h1c0420 ++ a) :: (h2c0420 ++ b) :: rest) ∧
    (chooseSeries (some lines) = some false ↔
      ∃ n m k a b c rest, lines = (List.replicate n ' ' ++ (h1c0414 ++ a)) :: (List.replicate m ' ' ++ (h2c0414 ++ b)) ::
        (List.replicate k ' ' ++ (h3c0414 ++ c)) :: rest) := by
  have hh : ∀ i, headerLine lines i = (lines[i]?).getD [] := by
    intro i
    unfold headerLine
    rw [if_pos]
    · rcases h : lines[i]? with _ | x
      · rfl
      · have := hl x (List.mem_of_getElem? h)
        simp only [Option.getD_some]
        exact List.take_of_length_le (by unfold MAX_LINE; omega)
    · rw [List.all_eq_true]
      intro x hx
      have := hl x (List.mem_of_mem_take hx)
      exact decide_eq_true (by unfold MAX_LINE; exact this)
  have hpre : ∀ (p s : List Char), p.isPrefixOf s = true ↔ ∃ t, s = p ++ t := by
    intro p s
    rw [List.isPrefixOf_iff_prefix]
    exact ⟨fun ⟨t, ht⟩ => ⟨t, ht.symm⟩, fun ⟨t, ht⟩ => ⟨t, ht.symm⟩⟩
  have hskip : ∀ (p s : List Char), p.head? ≠ some ' ' → p ≠ [] → (p.isPrefixOf (skipWs s) = true ↔ ∃ n t, s = List.replicate n ' ' ++ (p ++ t)) := by
    intro p s hp hp0
    rw [hpre]
    constructor
    · rintro ⟨t, ht⟩
      obtain ⟨n, hn⟩ := skipWs_split s
      exact ⟨n, t, by rw [hn, ht]⟩
    · rintro ⟨n, t, rfl⟩
      refine ⟨t, skipWs_blanks n _ ?_⟩
      cases p with
      | nil => exact absurd rfl hp0
      | cons x xs => simpa using hp
  have e1 := fun s => hskip h1c0414 s (by decide) (by decide)
  have e2 := fun s => hskip h2c0414 s (by decide) (by decide)
  have e3 := fun s => hskip h3c0414 s (by decide) (by decide)
  -- nothing begins with both first lines
  have excl : ∀ s, h1c0420.isPrefixOf s = true → h1c0414.isPrefixOf (skipWs s) = false := by
    intro s h
    obtain ⟨t, rfl⟩ := (hpre _ _).mp h
    rfl
  have n1 : h1c0420 ≠ [] := by decide
  have n2 : h2c0420 ≠ [] := by decide
  have n3 : h1c0414 ≠ [] := by decide
  have n4 : h2c0414 ≠ [] := by decide
  have n5 : h3c0414 ≠ [] := by decide
  unfold chooseSeries
  simp only [hh]
  generalize h1c0420 = P1 at *
  generalize h2c0420 = P2 at *
  generalize h1c0414 = P3 at *
  generalize h2c0414 = P4 at *
  generalize h3c0414 = P5 at *
  constructor
  · constructor
    · intro h
      split at h
      · rename_i h1
        split at h
        · rename_i h2
          obtain ⟨a, ha⟩ := (hpre _ _).mp h1
          obtain ⟨b, hb⟩ := (hpre _ _).mp h2
          match lines, ha, hb with
          | x :: y :: rest, ha, hb => exact ⟨a, b, rest, by simp at ha hb; rw [ha, hb]⟩
          | [x], ha, hb => exact absurd (List.append_eq_nil_iff.mp hb.symm).1 n2
          | [], ha, hb => exact absurd (List.append_eq_nil_iff.mp ha.symm).1 n1
        · cases h
      · split at h
        · split at h
          · cases h
          · split at h <;> cases h
        · cases h
    · rintro ⟨a, b, rest, rfl⟩
      rw [if_pos ((hpre _ _).mpr ⟨a, by simp⟩), if_pos ((hpre _ _).mpr ⟨b, by simp⟩)]
  · constructor
    · intro h
      split at h
      · split at h <;> cases h
      · split at h
        · rename_i h1
          split at h
          · cases h
          · rename_i h2
            split at h
            · cases h
            · rename_i h3
              obtain ⟨n, a, ha⟩ := (e1 _).mp h1
              obtain ⟨m, b, hb⟩ := (e2 _).mp (by simpa using h2)
              obtain ⟨k, c, hc⟩ := (e3 _).mp (by simpa using h3)
              match lines, ha, hb, hc with
              | x :: y :: z :: rest, ha, hb, hc => exact ⟨n, m, k, a, b, c, rest, by simp at ha hb hc; rw [ha, hb, hc]⟩
              | [x, y], ha, hb, hc => exact absurd (List.append_eq_nil_iff.mp (List.append_eq_nil_iff.mp hc.symm).2).1 n5
              | [x], ha, hb, hc => exact absurd (List.append_eq_nil_iff.mp (List.append_eq_nil_iff.mp hb.symm).2).1 n4
              | [], ha, hb, hc => exact absurd (List.append_eq_nil_iff.mp (List.append_eq_nil_iff.mp ha.symm).2).1 n3
        · cases h
    · rintro ⟨n, m, k, a, b, c, rest, rfl⟩
      have p1 := (e1 _).mpr ⟨n, a, rfl⟩
      have hnot : ¬ P1.isPrefixOf (((List.replicate n ' ' ++ (P3 ++ a)) :: (List.replicate m ' ' ++ (P4 ++ b)) ::
        (List.replicate k ' ' ++ (P5 ++ c)) :: rest)[0]?.getD []) = true := by
        intro h
        have := excl _ h
        simp only [List.getElem?_cons_zero, Option.getD_some] at this
        rw [p1] at this
        cases this
      rw [if_neg hnot, if_pos (by simpa using p1), if_neg (by simpa using (e2 _).mpr ⟨m, b, rfl⟩),
        if_neg (by simpa using (e3 _).mpr ⟨k, c, rfl⟩)]

end Verif.Eop
