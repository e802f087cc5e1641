import Verif.Proof.Aod1bBlocks
import Mathlib.Tactic.IntervalCases
/-
Tidal AOD1B files.
-/
namespace Verif.Aod1b
open Verif.Chars Verif.Icgem

variable {T : Type}

/-- What the header of a tidal block has to look like for the lemmas below. -/
structure Nr (nr kind : List Char) : Prop where
  nr : nr = "DATA SET 01:".toList ∨ nr = "DATA SET 02:".toList
  kind : kind = "COEFFICIENTS OF TYPE cos".toList ∨ kind = "COEFFICIENTS OF TYPE sin".toList

theorem nr_cos : Nr "DATA SET 01:".toList "COEFFICIENTS OF TYPE cos".toList := ⟨.inl rfl, .inl rfl⟩
theorem nr_sin : Nr "DATA SET 02:".toList "COEFFICIENTS OF TYPE sin".toList := ⟨.inr rfl, .inr rfl⟩

theorem tidalHeader_ok {nr kind line rest : List Char} {n : Int} (hk : Nr nr kind) (h : TidalHead nr kind line n)
    (hs : ShortLine line) : tidalHeader nr kind (At (line ++ '\n' :: rest)) = .ok (some n, At rest) := by
  obtain ⟨r, b, rest', rfl, h1⟩ := h
  unfold tidalHeader
  simp only [getline_line hs]
  have hl : nr.length = 12 := by rcases hk.nr with h | h <;> rw [h] <;> rfl
  have hd : (nr ++ r).dropWhile ws2 = nr ++ r := by
    apply dropWhile_ws2_none
    rcases hk.nr with h | h <;> rw [h] <;> intro c hc <;> (simp at hc; subst hc; rfl)
  have hkl : kind.length = 24 := by rcases hk.kind with h | h <;> rw [h] <;> rfl
  have hkd : ∀ c ∈ (kind ++ rest').head?, ws2 c = false := by
    rcases hk.kind with h | h <;> rw [h] <;> intro c hc <;> (simp at hc; subst hc; rfl)
  rw [hd, List.take_left' hl, if_pos rfl, adv_append nr r 12 hl]
  simp only [Res.bind, readInt_ok sepOk2 h1]
  rw [dropWhile_pre (ws := ws2) (by intro c hc; rw [List.eq_of_mem_replicate hc]; rfl) hkd, List.take_left' hkl, if_pos rfl]
  simp

/-- An integer does not begin with a letter or a colon. -/
theorem intAt_not {r rest : List Char} {v : Int} (h : IntAt ws2 r v rest) : ∀ c ∈ (r.dropWhile ws2).head?, isDig c ∨ c = '-' ∨ c = '.' := by
  obtain ⟨pre, d, h1, h2, h3, rfl, _⟩ := h
  rw [dropWhile_pre h1 (fun c hc => sepOk2 c (intText_head h2 rest c hc))]
  exact intText_head h2 rest

theorem readInt_of {r rest : List Char} {v : Int} (h : IntAt ws2 r v rest) : readInt ws2 0 r = (v, rest, 0) := readInt_ok sepOk2 h 0

theorem intAt_unique {r rest rest' : List Char} {v v' : Int} (h : IntAt ws2 r v rest) (h' : IntAt ws2 r v' rest') :
    v = v' ∧ rest = rest' := by
  have := (readInt_of h).symm.trans (readInt_of h')
  simp only [Prod.mk.injEq, and_true] at this
  exact this

theorem tidalHeader_sound {nr kind : List Char} {n : Int} {s s' : In} (hk : Nr nr kind)
    (h : tidalHeader nr kind s = .ok (some n, s')) (hg : s'.good = true) :
    ∃ line, TidalHead nr kind line n ∧ ShortLine line ∧ s = At (line ++ '\n' :: s'.rest) ∧ s' = At s'.rest := by
  unfold tidalHeader at h
  rcases hl : s.getline 124 with ⟨line, ok, s1⟩
  simp only [hl] at h
  unfold adv at h
  by_cases h12 : 12 ≤ line.length
  swap
  · rw [if_neg h12] at h; simp [Res.bind] at h
  rw [if_pos h12] at h
  rcases hr : readInt ws2 0 (line.drop 12) with ⟨v, r, e⟩
  simp only [Res.bind, hr, Res.ok.injEq, Prod.mk.injEq] at h
  obtain ⟨h, rfl⟩ := h
  have hok : ok = true := by
    cases ok with
    | true => rfl
    | false => rw [getline_false hl] at hg; cases hg
  subst hok
  obtain ⟨c1, c2, c3⟩ := getline_sound hl hg
  refine ⟨line, ?_, c3, c1, c2⟩
  by_cases ha : (line.dropWhile ws2).take 12 = nr
  swap
  · rw [if_neg ha, if_neg (by omega)] at h; cases h
  by_cases hb : (r.dropWhile ws2).take 24 = kind
  swap
  · rw [if_neg hb, if_neg (by omega)] at h; cases h
  rw [if_pos ha, if_pos hb] at h
  have he : e = 0 := by
    by_contra hne
    rw [if_neg (by omega)] at h; cases h
  subst he
  rw [if_pos rfl] at h
  simp only [Option.some.injEq] at h
  subst h
  have hi := readInt_sound hr
  obtain ⟨pre, hp, hpl⟩ := dropWhile_split ws2 line
  obtain ⟨pre2, hp2, hpl2⟩ := dropWhile_split ws2 r
  have e1 : line.dropWhile ws2 = nr ++ (line.dropWhile ws2).drop 12 := by
    conv_lhs => rw [← List.take_append_drop 12 (line.dropWhile ws2), ha]
  have e2 : r.dropWhile ws2 = kind ++ (r.dropWhile ws2).drop 24 := by
    conv_lhs => rw [← List.take_append_drop 24 (r.dropWhile ws2), hb]
  generalize (line.dropWhile ws2).drop 12 = x at e1
  generalize (r.dropWhile ws2).drop 24 = y at e2
  rw [e1] at hpl
  rw [e2] at hpl2
  have blank : ∀ {q : List Char}, (∀ c ∈ q, ws2 c) → q = List.replicate q.length ' ' := by
    intro q hq
    rw [List.eq_replicate_iff]
    exact ⟨rfl, fun c hc => by simpa [ws2] using hq c hc⟩
  have hkk : ∃ c z, kind ++ y = 'C' :: z ∧ c = 'C' := by
    rcases hk.kind with h | h <;> rw [h] <;> exact ⟨'C', _, rfl, rfl⟩
  -- nothing may come before the number of the set
  have hpre : pre = [] := by
    by_contra hne
    have hb1 := blank hp
    have hlen : 1 ≤ pre.length := by
      cases pre with
      | nil => exact absurd rfl hne
      | cons => simp
    generalize pre.length = b at hb1 hlen
    subst hb1
    have hx := intAt_not hi
    have hcol : ∀ {w : Int} {z : List Char}, IntAt ws2 (line.drop 12) w (':' :: z) → False := by
      intro w z hz
      obtain ⟨_, hrz⟩ := intAt_unique hi hz
      rw [hrz] at hpl2
      cases pre2 with
      | nil => obtain ⟨c, z', hc, _⟩ := hkk; rw [List.nil_append, hc] at hpl2; simp at hpl2
      | cons a t =>
        have ha : a = ':' := by
          rw [List.cons_append] at hpl2; exact (List.cons.inj hpl2).1.symm
        have hb := hp2 a (by simp)
        rw [ha] at hb
        exact absurd hb (by decide)
    by_cases hb12 : 12 ≤ b
    · have : line.drop 12 = List.replicate (b - 12) ' ' ++ (nr ++ x) := by
        rw [hpl, List.drop_append_of_le_length (by simpa using hb12), List.drop_replicate]
      rw [this, dropWhile_pre (by intro c hc; rw [List.eq_of_mem_replicate hc]; rfl) (by
        rcases hk.nr with h | h <;> rw [h] <;> intro c hc <;> (simp at hc; subst hc; rfl))] at hx
      rcases hk.nr with h | h <;> (rw [h] at hx; exact absurd (hx 'D' rfl) (by decide))
    · rcases hk.nr with h | h <;> rw [h] at hpl <;>
      (interval_cases b <;> simp [List.replicate] at hpl <;> subst hpl <;>
        first
        | exact absurd (hx _ rfl) (by decide)
        | exact hcol (w := 1) (z := x) ⟨[], ⟨false, ['1']⟩, by decide, ⟨by decide, by decide⟩, by decide, rfl, by simp; decide, by decide, by decide⟩
        | exact hcol (w := 1) (z := x) ⟨[], ⟨false, ['0', '1']⟩, by decide, ⟨by decide, by decide⟩, by decide, rfl, by simp; decide, by decide, by decide⟩
        | exact hcol (w := 1) (z := x) ⟨[' '], ⟨false, ['0', '1']⟩, by decide, ⟨by decide, by decide⟩, by decide, rfl, by simp; decide, by decide, by decide⟩
        | exact hcol (w := 2) (z := x) ⟨[], ⟨false, ['2']⟩, by decide, ⟨by decide, by decide⟩, by decide, rfl, by simp; decide, by decide, by decide⟩
        | exact hcol (w := 2) (z := x) ⟨[], ⟨false, ['0', '2']⟩, by decide, ⟨by decide, by decide⟩, by decide, rfl, by simp; decide, by decide, by decide⟩
        | exact hcol (w := 2) (z := x) ⟨[' '], ⟨false, ['0', '2']⟩, by decide, ⟨by decide, by decide⟩, by decide, rfl, by simp; decide, by decide, by decide⟩)
  subst hpre
  rw [List.nil_append] at hpl
  refine ⟨x, pre2.length, y, hpl, ?_⟩
  have hl12 : nr.length = 12 := by rcases hk.nr with h | h <;> rw [h] <;> rfl
  rw [hpl, List.drop_left' hl12] at hi
  rw [← blank hp2, ← hpl2]
  exact hi

theorem tidalBlock_ok {nr kind : List Char} {n m : Int} {lines : List (List Char)} {rows : List Row} (hk : Nr nr kind)
    (h : TidalBlock true nr kind n m lines rows) {co : Coeffs ℝ} (hh : ∀ r ∈ rows, r.In n m → co.Has r.n r.m)
    (rest : List Char) :
    tidalBlock nr kind n m (At (unlines lines ++ rest)) co = .ok (0, At rest, rows.foldl (putRow n m) co) := by
  obtain ⟨head, k, body, rfl, h1, h2, h3, h4⟩ := h
  unfold tidalBlock
  rw [unlines_cons, tidalHeader_ok hk h2 (h1 _ (by simp))]
  simp only [Res.bind]
  rw [← h3, collectLoop_ok sepOk2 h4 (fun l hl => h1 l (by simp [hl])) rest co 0 0 hh]
  simp [In.good, At]

theorem tidalBlock_sound {nr kind : List Char} {n m : Int} {s s' : In} {co co' : Coeffs ℝ} (hk : Nr nr kind)
    (h : tidalBlock nr kind n m s co = .ok (0, s', co')) :
    ∃ lines rows, TidalBlock false nr kind n m lines rows ∧ s = At (unlines lines ++ s'.rest) ∧ s' = At s'.rest ∧
      co' = rows.foldl (putRow n m) co ∧ ∀ r ∈ rows, r.In n m → co.Has r.n r.m := by
  unfold tidalBlock at h
  cases hh : tidalHeader nr kind s with
  | ok v =>
    obtain ⟨o, s1⟩ := v
    cases o with
    | none => simp [hh, Res.bind] at h
    | some k =>
      simp only [hh, Res.bind] at h
      cases hc : collectLoop ws2 n m k.toNat ⟨s1, co, 0, 0⟩ with
      | ok v =>
        obtain ⟨err, g⟩ := v
        simp only [hc, Res.ok.injEq, Prod.mk.injEq] at h
        obtain ⟨h1, h2, h3⟩ := h
        have he : ¬ (err ≠ 0 ∨ g.s.good = false) := by
          intro hx; rw [if_pos hx] at h1; cases h1
        rw [not_or, not_not, Bool.not_eq_false] at he
        obtain ⟨rfl, hg⟩ := he
        obtain ⟨body, rows, a1, a2, a3, a4, a5, a6, _, _, a9⟩ := collectLoop_sound _ _ _ hc hg
        simp only at a4 a6 a9
        have hg1 : s1.good = true := by rw [a4]; rfl
        obtain ⟨line, b1, b2, b3, b4⟩ := tidalHeader_sound hk hh hg1
        subst h2 h3
        refine ⟨line :: body, rows, ⟨line, k, body, rfl, ?_, b1, a1, a2⟩, ?_, a5, a6, a9⟩
        · intro l hl; rcases List.mem_cons.mp hl with rfl | hl
          · exact b2
          · exact a3 l hl
        · rw [unlines_cons, b3, a4]; rfl
      | ub => simp [hc] at h
      | abort => simp [hc] at h
      | throw => simp [hc] at h
  | ub => simp [hh, Res.bind] at h
  | abort => simp [hh, Res.bind] at h
  | throw => simp [hh, Res.bind] at h

theorem eof_tail {text : List Char} : ((At text).getline 124).2.2.eof = true ↔ ShortLine text := by
  unfold In.getline ShortLine
  simp only [At, Bool.or_self, Bool.false_eq_true, if_false]
  by_cases hn : '\n' ∈ text
  · obtain ⟨a, b, rfl, ha⟩ := List.eq_append_cons_of_mem hn
    simp only [(takeWhile_nl ha).1, (takeWhile_nl ha).2]
    split <;> simp
  · have h := takeWhile_run (p := fun c : Char => decide (c ≠ '\n')) (a := text) (b := [])
      (by intro c hc; simp only [decide_eq_true_eq]; rintro rfl; exact hn hc) (by simp)
    rw [List.append_nil] at h
    simp only [h.1, h.2]
    split
    · split <;> simp [*]
    · simp [*]

end Verif.Aod1b
