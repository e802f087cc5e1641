import Verif.Props.PoleTide
/-
Properties C46 (coefficients of the ocean pole tide) and C74 (the file they come from).
-/
namespace Verif.PoleTide
open Verif Verif.Chars

/-! ### C74 -/

theorem readFields_four {old : List ℚ} {s : List Char} {a b c d : ℚ} (ho : old.length = 4) (h : LineIs s [a, b, c, d]) :
    readFields old s = ([a, b, c, d], 0) := readFields_ok _ _ _ (by simpa using ho) h

theorem readRow_ok {r : Row} {e : Entry} {line : List Char} (hr : r.data.length = 4) (h : e.Line line) :
    readRow r line = (⟨e.l, e.m, [e.ar, e.br, e.ai, e.bi]⟩, 0) := by
  obtain ⟨r1, r2, h1, h2, h3⟩ := h
  unfold readRow rowInt
  rw [fromCharsInt_text h1]
  simp only
  rw [fromCharsInt_text h2]
  simp only
  rw [readFields_four hr h3]
  rfl

theorem readRow_sound {r r' : Row} {line : List Char} (hr : r.data.length = 4) (h : readRow r line = (r', 0)) :
    ∃ e : Entry, e.LineHas line ∧ r' = ⟨e.l, e.m, [e.ar, e.br, e.ai, e.bi]⟩ := by
  unfold readRow rowInt at h
  cases h1 : fromCharsInt (skipWs line) with
  | none => rw [h1] at h; simp at h
  | some p =>
    obtain ⟨l, s⟩ := p
    rw [h1] at h
    simp only at h
    cases h2 : fromCharsInt (skipWs s) with
    | none => rw [h2] at h; simp at h
    | some q =>
      obtain ⟨m, s'⟩ := q
      rw [h2] at h
      simp only at h
      cases h3 : readFields r.data s' with
      | mk d e =>
        rw [h3] at h
        simp only [Prod.mk.injEq] at h
        obtain ⟨rfl, he⟩ := h
        have he : e = 0 := by omega
        subst he
        have hl := readFields_length r.data s'
        rw [h3, hr] at hl
        have hs := readFields_sound _ _ _ h3
        match d, hl with
        | [a, b, c, dd], _ => exact ⟨⟨l, m, a, b, c, dd⟩, ⟨s, s', fromCharsInt_sound h1, fromCharsInt_sound h2, hs.1⟩, rfl⟩

theorem entryAt_append (es : List Entry) (e : Entry) (l k : Nat) :
    entryAt (es ++ [e]) l k = if e.l = (l : Int) ∧ e.m = (k : Int) then e else entryAt es l k := by
  unfold entryAt
  rw [List.reverse_append, List.reverse_singleton, List.singleton_append, List.find?_cons]
  split_ifs with h <;> simp [h]

theorem storeRow_hold {d d' : Desai} {es : List Entry} {e : Entry} {n m : Int} (h : Desai.Holds d es n m)
    (hs : storeRow n m ⟨e.l, e.m, [e.ar, e.br, e.ai, e.bi]⟩ d = .ok d') : Desai.Holds d' (es ++ [e]) n m := by
  unfold storeRow at hs
  by_cases h1 : e.l ≤ n ∧ e.m ≤ m
  · rw [if_pos h1] at hs
    by_cases h2 : 0 ≤ e.m ∧ e.m ≤ e.l ∧ e.l < d.rows
    · rw [if_pos h2] at hs
      cases hs
      refine ⟨h.1, fun l k hl hk => ?_⟩
      have := h.2 l k hl hk
      simp only at this ⊢
      rw [entryAt_append]
      unfold Coeffs.put
      by_cases hlk : l = e.l.toNat ∧ k = e.m.toNat
      · have c1 : e.l = (l : Int) ∧ e.m = (k : Int) := by omega
        have c2 : (k : Int) ≤ m := by omega
        simp only [hlk, and_self, if_true]
        rw [if_pos (by omega), if_pos (by omega)]
        exact ⟨rfl, rfl, rfl, rfl⟩
      · have c1 : ¬ (e.l = (l : Int) ∧ e.m = (k : Int)) := by omega
        simp only [hlk, if_false, c1]
        exact this
    · rw [if_neg h2] at hs; cases hs
  · rw [if_neg h1] at hs
    cases hs
    refine ⟨h.1, fun l k hl hk => ?_⟩
    have := h.2 l k hl hk
    simp only at this ⊢
    rw [entryAt_append]
    by_cases hk : (k : Int) ≤ m
    · rw [if_pos hk] at this ⊢
      rw [if_neg (by omega)]
      exact this
    · rw [if_neg hk] at this ⊢
      exact this

theorem storeRow_ok {d : Desai} {e : Entry} {n m : Int} (hr : d.rows = (n + 1).toNat) (h : 0 ≤ e.m ∧ e.m ≤ e.l) :
    ∃ d', storeRow n m ⟨e.l, e.m, [e.ar, e.br, e.ai, e.bi]⟩ d = .ok d' := by
  unfold storeRow
  simp only
  split_ifs with h1 h2
  · exact ⟨_, rfl⟩
  · omega
  · exact ⟨_, rfl⟩

theorem desaiLoop_ok (n m : Int) : ∀ (lines : List (List Char)) (es es0 : List Entry) (r : Row) (d : Desai), r.data.length = 4 →
    Desai.Holds d es0 n m → List.Forall₂ (fun l e => l.length < 256 ∧ e.Line l ∧ 0 ≤ e.m ∧ e.m ≤ e.l) lines es →
    ∃ d', desaiLoop n m lines r d = .ok (0, d') ∧ Desai.Holds d' (es0 ++ es) n m := by
  intro lines
  induction lines with
  | nil =>
    intro es es0 r d _ hd h
    cases h
    exact ⟨d, rfl, by simpa using hd⟩
  | cons l ls ih =>
    intro es es0 r d hr hd h
    cases h with
    | cons h1 h2 =>
      rename_i e es
      obtain ⟨d', hd'⟩ := storeRow_ok (d := d) (e := e) (n := n) (m := m) hd.1 h1.2.2
      obtain ⟨d'', h3, h4⟩ := ih es (es0 ++ [e]) ⟨e.l, e.m, [e.ar, e.br, e.ai, e.bi]⟩ d' rfl (storeRow_hold hd hd') h2
      refine ⟨d'', ?_, by simpa using h4⟩
      unfold desaiLoop
      rw [if_neg (by have := h1.1; omega), readRow_ok hr h1.2.1]
      simp only [hd', Res.bind]
      exact h3

theorem desaiLoop_sound (n m : Int) : ∀ (lines : List (List Char)) (es0 : List Entry) (r : Row) (d d' : Desai), r.data.length = 4 →
    Desai.Holds d es0 n m → desaiLoop n m lines r d = .ok (0, d') →
    ∃ es, List.Forall₂ (fun l e => Entry.LineHas e l) lines es ∧ Desai.Holds d' (es0 ++ es) n m := by
  intro lines
  induction lines with
  | nil =>
    intro es0 r d d' _ hd h
    cases h
    exact ⟨[], .nil, by simpa using hd⟩
  | cons l ls ih =>
    intro es0 r d d' hr hd h
    unfold desaiLoop at h
    by_cases hl : l.length ≥ 256
    · rw [if_pos hl] at h; cases h
    rw [if_neg hl] at h
    cases hrr : readRow r l with
    | mk r' e =>
      rw [hrr] at h
      simp only at h
      cases hs : storeRow n m r' d with
      | ok d1 =>
        rw [hs] at h
        simp only [Res.bind] at h
        by_cases he : e ≠ 0
        · rw [if_pos he] at h; cases h
        · rw [if_neg he] at h
          have he : e = 0 := by omega
          subst he
          obtain ⟨en, hen, rfl⟩ := readRow_sound hr hrr
          obtain ⟨es, h1, h2⟩ := ih (es0 ++ [en]) _ d1 d' rfl (storeRow_hold hd hs) h
          exact ⟨en :: es, .cons hen h1, by simpa using h2⟩
      | ub => rw [hs] at h; cases h
      | abort => rw [hs] at h; cases h
      | throw => rw [hs] at h; cases h

theorem holds_nil (n m : Int) : Desai.Holds ⟨(n + 1).toNat, fun _ _ => 0, fun _ _ => 0, fun _ _ => 0, fun _ _ => 0⟩ [] n m := by
  refine ⟨rfl, fun l k _ _ => ?_⟩
  simp [entryAt]

/-- C74, partial: from a file with the header and one entry per line, every entry up to the requested degree and order is stored, the
last one if there are several; all other elements are zero. Missing: entries that are not in the lower triangle
(`desai_triangle_fails`). -/
theorem desai_complete_partial (junk : List ℚ) (hj : junk.length = 4) (head : List Char) (lines : List (List Char)) (es : List Entry)
    (n m : Int) (d : Desai) (hh : head.filter (· ≠ ' ') = "nmAnm(Real)Bnm(Real)Anm(Imaginary)Bnm(Imaginary)".toList)
    (hl : head.length < 256) (hm : m ≤ n) (h0 : -1 ≤ n) (hn : n ≤ 360)
    (h : List.Forall₂ (fun l e => l.length < 256 ∧ e.Line l ∧ 0 ≤ e.m ∧ e.m ≤ e.l) lines es) :
    ∃ d', parseDesai junk (some (head :: lines)) n m d = .ok (0, d') ∧ d'.Holds es n m := by
  obtain ⟨d', h1, h2⟩ := desaiLoop_ok n m lines es [] ⟨0, 0, junk⟩ _ hj (holds_nil n m) h
  refine ⟨d', ?_, by simpa using h2⟩
  unfold parseDesai
  simp only
  rw [if_neg (by omega), if_neg (by omega)]
  have : isHeader (head.take 255) = true := by
    rw [List.take_of_length_le (by omega)]
    unfold isHeader
    simpa using hh
  rw [this]
  simp only [Bool.not_true, Bool.false_eq_true, if_false]
  rw [if_neg (by omega)]
  exact h1

/-- C74, partial (soundness): if reading succeeds, every line after the header is an entry, and the matrices hold exactly these. -/
theorem desai_sound_partial (junk : List ℚ) (hj : junk.length = 4) (file : Option (List (List Char))) (n m : Int) (d d' : Desai)
    (h : parseDesai junk file n m d = .ok (0, d')) :
    m ≤ n ∧ n ≤ 360 ∧ ∃ head lines es, file = some (head :: lines) ∧
      head.filter (· ≠ ' ') = "nmAnm(Real)Bnm(Real)Anm(Imaginary)Bnm(Imaginary)".toList ∧
      List.Forall₂ (fun l e => Entry.LineHas e l) lines es ∧ d'.Holds es n m := by
  unfold parseDesai at h
  match file, h with
  | some lines, h =>
    simp only at h
    by_cases h1 : n < m ∨ n > 360 ∨ m > 360
    · rw [if_pos h1] at h; cases h
    rw [if_neg h1] at h
    by_cases h2 : n < -1
    · rw [if_pos h2] at h; cases h
    rw [if_neg h2] at h
    match lines, h with
    | head :: ls, h =>
      simp only at h
      by_cases h3 : (!isHeader (head.take 255)) = true
      · rw [if_pos h3] at h; cases h
      rw [if_neg h3] at h
      by_cases h4 : head.length ≥ 256
      · rw [if_pos h4] at h; cases h
      rw [if_neg h4] at h
      obtain ⟨es, h5, h6⟩ := desaiLoop_sound n m ls [] ⟨0, 0, junk⟩ _ d' hj (holds_nil n m) h
      refine ⟨by omega, by omega, head, ls, es, rfl, ?_, h5, by simpa using h6⟩
      rw [List.take_of_length_le (by omega)] at h3
      unfold isHeader at h3
      simpa using h3

/-- C74 fails: a line whose order is larger than its degree (both within the limits) is not rejected; the write goes to another element
or outside the matrix. -/
theorem desai_triangle_fails (junk : List ℚ) (hj : junk.length = 4) (head line : List Char) (lines : List (List Char)) (e : Entry)
    (n m : Int) (d : Desai) (hh : head.filter (· ≠ ' ') = "nmAnm(Real)Bnm(Real)Anm(Imaginary)Bnm(Imaginary)".toList)
    (hl : head.length < 256) (hm : m ≤ n) (h0 : -1 ≤ n) (hn : n ≤ 360) (hline : line.length < 256) (he : e.Line line)
    (hb : e.l ≤ n ∧ e.m ≤ m) (ht : e.l < e.m ∨ e.m < 0) :
    parseDesai junk (some (head :: line :: lines)) n m d = .ub := by
  unfold parseDesai
  simp only
  rw [if_neg (by omega), if_neg (by omega)]
  have : isHeader (head.take 255) = true := by
    rw [List.take_of_length_le (by omega)]
    unfold isHeader
    simpa using hh
  rw [this]
  simp only [Bool.not_true, Bool.false_eq_true, if_false]
  rw [if_neg (by omega)]
  unfold desaiLoop
  rw [if_neg (by omega), readRow_ok hj he]
  simp only
  unfold storeRow
  rw [if_pos hb, if_neg (by simp only; omega)]
  rfl

/-- The header of the published file and an entry. -/
theorem ex_header : ("   n    m   Anm(Real)          Bnm(Real)          Anm(Imaginary)     Bnm(Imaginary)".toList).filter (· ≠ ' ') =
      "nmAnm(Real)Bnm(Real)Anm(Imaginary)Bnm(Imaginary)".toList ∧
    (⟨2, 1, 1 / 2, -3, 25, 0⟩ : Entry).Line "   2    1  0.5 -3  2.5E+01 0".toList :=
  ⟨by decide +kernel, _, _, ⟨3, ⟨false, ['2']⟩, ⟨by decide, by decide⟩, rfl, rfl, by decide, by decide, by decide⟩,
    ⟨4, ⟨false, ['1']⟩, ⟨by decide, by decide⟩, rfl, rfl, by decide, by decide, by decide⟩,
    2, ⟨false, ['0'], some ['5'], none⟩, _, Dec.ok_of (by decide), by decide +kernel, by decide +kernel, by unfold Ends; decide,
    1, ⟨true, ['3'], none, none⟩, _, Dec.ok_of (by decide), by decide +kernel, rfl, by unfold Ends; decide,
    2, ⟨false, ['2'], some ['5'], some ('E', some false, ['0', '1'])⟩, _, Dec.ok_of (by decide), by decide +kernel, rfl, by unfold Ends; decide,
    1, ⟨false, ['0'], none, none⟩, [], Dec.ok_of (by decide), by decide +kernel, rfl, by unfold Ends; decide, by unfold LineIs Ends; decide⟩

/-! ### C46 -/

theorem column_ok {d : Desai} {fr fi : ℝ} {n : Int} {k : Nat} {cs : Coeffs ℝ} (hn : n < 360) (hd : n < d.rows) (hc : n < cs.rows) :
    ∃ cs', column d fr fi n k cs = .ok cs' ∧ cs'.rows = cs.rows ∧ cs'.deg = cs.deg ∧ cs'.ord = cs.ord ∧ cs'.re = cs.re ∧ cs'.gm = cs.gm ∧
      ∀ a b, (b = k ∧ k ≤ a ∧ (a : Int) ≤ n → cs'.C a b = (1 + kn a) / (2 * a + 1) * (d.ar a b * fr + d.ai a b * fi) ∧
          cs'.S a b = (1 + kn a) / (2 * a + 1) * (d.br a b * fr + d.bi a b * fi)) ∧
        (¬ (b = k ∧ k ≤ a ∧ (a : Int) ≤ n) → cs'.C a b = cs.C a b ∧ cs'.S a b = cs.S a b) := by
  have key : ∀ (ls : List Nat) (cs : Coeffs ℝ), (∀ l ∈ ls, k ≤ l ∧ (l : Int) ≤ n) → n < cs.rows →
      ∃ cs', forEach ls (fun l cs =>
          if l ≥ 360 ∨ l ≥ d.rows then .ub
          else
            (cs.setC l k ((1 + kn l) / (2 * l + 1) * (d.ar l k * fr + d.ai l k * fi))).bind fun cs =>
            cs.setS l k ((1 + kn l) / (2 * l + 1) * (d.br l k * fr + d.bi l k * fi))) cs = .ok cs' ∧
        cs'.rows = cs.rows ∧ cs'.deg = cs.deg ∧ cs'.ord = cs.ord ∧ cs'.re = cs.re ∧ cs'.gm = cs.gm ∧
        ∀ a b, (b = k ∧ a ∈ ls → cs'.C a b = (1 + kn a) / (2 * a + 1) * (d.ar a b * fr + d.ai a b * fi) ∧
            cs'.S a b = (1 + kn a) / (2 * a + 1) * (d.br a b * fr + d.bi a b * fi)) ∧
          (¬ (b = k ∧ a ∈ ls) → cs'.C a b = cs.C a b ∧ cs'.S a b = cs.S a b) := by
    intro ls
    induction ls with
    | nil =>
      intro cs _ _
      exact ⟨cs, rfl, rfl, rfl, rfl, rfl, rfl, fun a b => ⟨fun h => absurd h.2 (by simp), fun _ => ⟨rfl, rfl⟩⟩⟩
    | cons l ls ih =>
      intro cs hls hrows
      obtain ⟨hl1, hl2⟩ := hls l (by simp)
      have hhas : cs.Has l k := by unfold Coeffs.Has; omega
      let cs1 : Coeffs ℝ := { cs with C := Coeffs.put cs.C l k ((1 + kn l) / (2 * l + 1) * (d.ar l k * fr + d.ai l k * fi)),
                                       S := Coeffs.put cs.S l k ((1 + kn l) / (2 * l + 1) * (d.br l k * fr + d.bi l k * fi)) }
      obtain ⟨cs', h1, h2, h3, h4, h5, h6, h7⟩ := ih cs1 (fun x hx => hls x (by simp [hx])) hrows
      refine ⟨cs', ?_, h2, h3, h4, h5, h6, fun a b => ⟨?_, ?_⟩⟩
      · unfold forEach
        rw [if_neg (by omega)]
        unfold Coeffs.setC Coeffs.setS
        rw [if_pos hhas]
        simp only [Res.bind, Int.toNat_natCast]
        rw [if_pos (by exact hhas)]
        exact h1
      · rintro ⟨hb, ha⟩
        by_cases hal : a ∈ ls
        · exact (h7 a b).1 ⟨hb, hal⟩
        · have : a = l := by simpa [hal] using ha
          subst this
          obtain ⟨e1, e2⟩ := (h7 a b).2 (fun h => hal h.2)
          rw [e1, e2, hb]
          show Coeffs.put _ _ _ _ _ _ = _ ∧ Coeffs.put _ _ _ _ _ _ = _
          unfold Coeffs.put
          simp
      · intro hab
        obtain ⟨e1, e2⟩ := (h7 a b).2 (fun h => hab ⟨h.1, by simp [h.2]⟩)
        rw [e1, e2]
        show Coeffs.put _ _ _ _ _ _ = _ ∧ Coeffs.put _ _ _ _ _ _ = _
        unfold Coeffs.put
        rw [if_neg (fun h => hab ⟨h.2, by simp [h.1]⟩), if_neg (fun h => hab ⟨h.2, by simp [h.1]⟩)]
        exact ⟨rfl, rfl⟩
  have hmem : ∀ a, a ∈ (List.range (n + 1 - k).toNat).map (k + ·) ↔ k ≤ a ∧ (a : Int) ≤ n := by
    intro a
    simp only [List.mem_map, List.mem_range]
    constructor
    · rintro ⟨b, hb, rfl⟩; omega
    · intro h; exact ⟨a - k, by omega, by omega⟩
  obtain ⟨cs', h1, h2, h3, h4, h5, h6, h7⟩ := key ((List.range (n + 1 - k).toNat).map (k + ·)) cs (fun l hl => (hmem l).mp hl) hc
  refine ⟨cs', h1, h2, h3, h4, h5, h6, fun a b => ?_⟩
  have := h7 a b
  rw [hmem] at this
  exact this

theorem columns_ok {d : Desai} {fr fi : ℝ} {n : Int} (hn : n < 360) (hd : n < d.rows) : ∀ (ks : List Nat) (cs : Coeffs ℝ), n < cs.rows →
    ∃ cs', forEach ks (column d fr fi n) cs = .ok cs' ∧ cs'.rows = cs.rows ∧ cs'.deg = cs.deg ∧ cs'.ord = cs.ord ∧ cs'.re = cs.re ∧
      cs'.gm = cs.gm ∧
      ∀ a b, (b ∈ ks ∧ b ≤ a ∧ (a : Int) ≤ n → cs'.C a b = (1 + kn a) / (2 * a + 1) * (d.ar a b * fr + d.ai a b * fi) ∧
          cs'.S a b = (1 + kn a) / (2 * a + 1) * (d.br a b * fr + d.bi a b * fi)) ∧
        (¬ (b ∈ ks ∧ b ≤ a ∧ (a : Int) ≤ n) → cs'.C a b = cs.C a b ∧ cs'.S a b = cs.S a b) := by
  intro ks
  induction ks with
  | nil =>
    intro cs _
    exact ⟨cs, rfl, rfl, rfl, rfl, rfl, rfl, fun a b => ⟨fun h => absurd h.1 (by simp), fun _ => ⟨rfl, rfl⟩⟩⟩
  | cons k ks ih =>
    intro cs hc
    obtain ⟨c1, g1, g2, g3, g4, g5, g6, g7⟩ := column_ok (d := d) (fr := fr) (fi := fi) (k := k) hn hd hc
    obtain ⟨c2, h1, h2, h3, h4, h5, h6, h7⟩ := ih c1 (by rw [g2]; exact hc)
    refine ⟨c2, ?_, h2.trans g2, h3.trans g3, h4.trans g4, h5.trans g5, h6.trans g6, fun a b => ⟨?_, ?_⟩⟩
    · unfold forEach
      rw [g1]
      exact h1
    · rintro ⟨hb, hab, han⟩
      by_cases hbk : b ∈ ks
      · exact (h7 a b).1 ⟨hbk, hab, han⟩
      · have : b = k := by simpa [hbk] using hb
        obtain ⟨e1, e2⟩ := (h7 a b).2 (fun h => hbk h.1)
        rw [e1, e2]
        exact (g7 a b).1 ⟨this, by omega, han⟩
    · intro hab
      obtain ⟨e1, e2⟩ := (h7 a b).2 (fun h => hab ⟨by simp [h.1], h.2⟩)
      rw [e1, e2]
      exact (g7 a b).2 (fun h => hab ⟨by simp [h.1], by omega, h.2.2⟩)

theorem kn_zero : kn 0 = -1 := by
  unfold kn
  rw [show knTable.getD 0 0 = -1000000000000 from rfl]
  norm_num

/-- Every accepted call, of any degree below 360. The factor is that of the call; what is not computed is scaled with it. -/
theorem stokes_ok {o : Ocean} (hw : o.WF) (dt xp yp : ℝ) (n m : Int) (Om G ge : ℝ) (h0 : 0 ≤ n) (h1 : 0 ≤ m) (hm : m ≤ n) (hd : n ≤ o.deg)
    (ho : m ≤ o.ord) (hn : n < 360) :
    ∃ cs, o.stokes dt xp yp n m Om G ge = .ok (0, { o with cs := cs }) ∧ cs.rows = o.cs.rows ∧ cs.deg = o.cs.deg ∧ cs.ord = o.cs.ord ∧
      cs.re = o.cs.re ∧ cs.gm = o.cs.gm ∧
      (∀ l k : Nat, k ≤ l → (l : Int) ≤ n → (k : Int) ≤ m →
        cs.C l k = oceanFormula Om o.cs.re o.cs.gm G ge (rad (xp - poleX dt)) (rad (-(yp - poleY dt))) l (o.desai.ar l k) (o.desai.ai l k) ∧
        cs.S l k = oceanFormula Om o.cs.re o.cs.gm G ge (rad (xp - poleX dt)) (rad (-(yp - poleY dt))) l (o.desai.br l k) (o.desai.bi l k)) ∧
      (0 < o.deg → ∀ l k : Nat, ¬ (k ≤ l ∧ (l : Int) ≤ n ∧ (k : Int) ≤ m) →
        cs.C l k = o.cs.C l k * (Om * Om * o.cs.re ^ 4 / o.cs.gm * (2 * (2 * Real.pi) * G * 1025) / ge)) := by
  have e1 : sec2rad (mcoeffs dt xp yp).1 = rad (xp - poleX dt) := by rw [mcoeffs_eq]; unfold rad sec2rad; ring
  have e2 : sec2rad (mcoeffs dt xp yp).2 = rad (-(yp - poleY dt)) := by rw [mcoeffs_eq]; unfold rad sec2rad; ring
  unfold Ocean.stokes
  simp only
  rw [if_neg (by omega : ¬ n < 0), if_neg (by omega : ¬ m < 0), if_neg (by omega)]
  rw [e1, e2]
  generalize rad (xp - poleX dt) = m1
  generalize rad (-(yp - poleY dt)) = m2
  have hr1 := hw.desai
  have hr2 := hw.rows
  obtain ⟨cs, g1, g2, g3, g4, g5, g6, g7⟩ := columns_ok (d := o.desai) (fr := m1 * 0.6870 + m2 * 0.0036)
    (fi := m2 * 0.6870 - m1 * 0.0036) (n := n) hn (by omega) (List.range (m.toNat + 1)) o.cs (by omega)
  rw [g1]
  simp only [Res.bind]
  have hdeg := hw.csdeg
  by_cases hz : cs.deg = 0
  · refine ⟨cs, ?_, g2, g3, g4, g5, g6, ?_, ?_⟩
    · unfold Coeffs.scale
      rw [if_neg (by simpa using hz)]
    · intro l k hkl hln hkm
      have : o.deg = 0 := by omega
      obtain ⟨f1, f2⟩ := (g7 l k).1 ⟨by rw [List.mem_range]; omega, hkl, hln⟩
      have hl0 : l = 0 := by omega
      rw [f1, f2]
      unfold oceanFormula
      rw [hl0, kn_zero]
      constructor <;> ring
    · intro hpos
      omega
  · refine ⟨_, rfl, ?_, ?_, ?_, ?_, ?_, ?_, ?_⟩
    all_goals
      unfold Coeffs.scale
      rw [if_pos hz]
      simp only
    · exact g2
    · exact g3
    · exact g4
    · exact g5
    · exact g6
    · intro l k hkl hln hkm
      obtain ⟨f1, f2⟩ := (g7 l k).1 ⟨by rw [List.mem_range]; omega, hkl, hln⟩
      rw [f1, f2, g5, g6]
      unfold oceanFormula
      constructor <;> ring
    · intro _ l k hlk
      rw [((g7 l k).2 (fun h => hlk ⟨h.2.1, h.2.2, by have := List.mem_range.mp h.1; omega⟩)).1, g5, g6]

/-- C46, partial: whatever was computed before, after an accepted call of degree below 360 every coefficient up to its degree and order is
that of the Conventions. Missing: the coefficients beyond (`ocean_stale_fails`), degree 360 (`ocean_360_fails`), objects made without a
file (`ocean_default_fails`). -/
theorem ocean_coeffs_partial {o : Ocean} (hw : o.WF) (dt xp yp : ℝ) (n m : Int) (Om G ge : ℝ) (h0 : 0 ≤ n) (h1 : 0 ≤ m) (hm : m ≤ n)
    (hd : n ≤ o.deg) (ho : m ≤ o.ord) (hn : n < 360) :
    ∃ cs, o.stokes dt xp yp n m Om G ge = .ok (0, { o with cs := cs }) ∧ Ocean.WF { o with cs := cs } ∧
      ∀ l k : Nat, k ≤ l → (l : Int) ≤ n → (k : Int) ≤ m →
        cs.C l k = oceanFormula Om o.cs.re o.cs.gm G ge (rad (xp - poleX dt)) (rad (-(yp - poleY dt))) l (o.desai.ar l k) (o.desai.ai l k) ∧
        cs.S l k = oceanFormula Om o.cs.re o.cs.gm G ge (rad (xp - poleX dt)) (rad (-(yp - poleY dt))) l (o.desai.br l k) (o.desai.bi l k) := by
  obtain ⟨cs, g1, g2, g3, g4, g5, g6, g7, -⟩ := stokes_ok hw dt xp yp n m Om G ge h0 h1 hm hd ho hn
  exact ⟨cs, g1, ⟨hw.deg, hw.ord, g2.trans hw.rows, g3.trans hw.csdeg, hw.desai⟩, g7⟩

/-- C46: a call without degree and order, on an object whose order is its degree, below 360: all coefficients are those of the
Conventions. -/
theorem ocean_all_partial {o : Ocean} (hw : o.WF) (dt xp yp : ℝ) (Om G ge : ℝ) (hord : o.ord = o.deg) (hn : o.deg < 360) :
    ∃ cs, o.stokes dt xp yp (-1) (-1) Om G ge = .ok (0, { o with cs := cs }) ∧
      ∀ l k : Nat, k ≤ l → l < cs.rows →
        cs.C l k = oceanFormula Om o.cs.re o.cs.gm G ge (rad (xp - poleX dt)) (rad (-(yp - poleY dt))) l (o.desai.ar l k) (o.desai.ai l k) ∧
        cs.S l k = oceanFormula Om o.cs.re o.cs.gm G ge (rad (xp - poleX dt)) (rad (-(yp - poleY dt))) l (o.desai.br l k) (o.desai.bi l k) := by
  have hd := hw.deg
  have hr := hw.rows
  obtain ⟨cs, g1, g2, g3, g4, g5, g6, g7, -⟩ := stokes_ok hw dt xp yp o.deg o.ord Om G ge hd.1 hw.ord.1 hw.ord.2 le_rfl le_rfl hn
  refine ⟨cs, ?_, fun l k hk hl => g7 l k hk (by omega) (by omega)⟩
  rw [← g1]
  unfold Ocean.stokes
  simp only
  rw [if_pos (by decide : (-1 : Int) < 0), if_pos (by decide : (-1 : Int) < 0), if_neg (by omega : ¬ o.deg < 0), if_neg (by have := hw.ord; omega : ¬ o.ord < 0)]

/-- C46: a call that is not accepted changes nothing. -/
theorem ocean_rejected {o : Ocean} (dt xp yp : ℝ) (n m : Int) (Om G ge : ℝ) (h0 : 0 ≤ n) (h1 : 0 ≤ m) (h : n < m ∨ o.deg < n ∨ o.ord < m) :
    o.stokes dt xp yp n m Om G ge = .ok (1, o) := by
  unfold Ocean.stokes
  simp only
  rw [if_neg (by omega : ¬ n < 0), if_neg (by omega : ¬ m < 0), if_pos (by omega)]

/-- Objects made from a file are as assumed, and GM and radius are those of the Earth. -/
theorem make_wf {junk : Nat → Nat → ℝ} {jr : List ℚ} {file : Option (List (List Char))} {n m : Int} {o : Ocean} (hj : jr.length = 4)
    (h : Ocean.make junk jr file n m = .ok o) (hn : 0 ≤ n) (hm : 0 ≤ m) :
    o.WF ∧ o.deg = n ∧ o.ord = m ∧ o.cs.re = 6378136.6 ∧ o.cs.gm = 3.986004418e14 := by
  unfold Ocean.make at h
  rw [if_neg (by omega)] at h
  cases hp : parseDesai jr file n m ⟨(n + 1).toNat, fun _ _ => 0, fun _ _ => 0, fun _ _ => 0, fun _ _ => 0⟩ with
  | ok p =>
    obtain ⟨st, d⟩ := p
    rw [hp] at h
    simp only [Res.bind] at h
    by_cases hst : st ≠ 0
    · rw [if_pos hst] at h; cases h
    rw [if_neg hst] at h
    cases h
    have hst : st = 0 := by omega
    subst hst
    obtain ⟨h1, h2, _, _, _, _, _, _, h3⟩ := desai_sound_partial jr hj file n m _ d hp
    exact ⟨⟨⟨hn, h2⟩, ⟨hm, h1⟩, rfl, rfl, h3.1⟩, rfl, rfl, rfl, rfl⟩
  | ub => rw [hp] at h; cases h
  | abort => rw [hp] at h; cases h
  | throw => rw [hp] at h; cases h

/-- C46 fails: with degree 360, which the constructors accept, the factors are written behind the end of their array. -/
theorem ocean_360_fails {o : Ocean} (hw : o.WF) (hd : o.deg = 360) (dt xp yp : ℝ) (m : Int) (Om G ge : ℝ) (h1 : 0 ≤ m) (hm : m ≤ o.ord) :
    o.stokes dt xp yp (-1) m Om G ge = .ub := by
  have hr1 := hw.desai
  have hr2 := hw.rows
  unfold Ocean.stokes
  simp only
  rw [if_pos (by decide : (-1 : Int) < 0), if_neg (by omega : ¬ m < 0), if_neg (by have := hw.ord; omega), hd]
  -- the first column reads element 360
  have key : ∀ (fr fi : ℝ), column o.desai fr fi 360 0 o.cs = .ub := by
    intro fr fi
    obtain ⟨cs', h1, h2, -⟩ := column_ok (d := o.desai) (fr := fr) (fi := fi) (n := 359) (k := 0) (cs := o.cs) (by decide) (by omega) (by omega)
    unfold column at h1 ⊢
    rw [show ((360 : Int) + 1 - (0 : Nat)).toNat = 360 + 1 from rfl, List.range_succ, List.map_append]
    rw [show ((359 : Int) + 1 - (0 : Nat)).toNat = 360 from rfl] at h1
    have app : ∀ {κ σ : Type} (f : κ → σ → Res σ) (a b : List κ) (s s' : σ), forEach a f s = .ok s' →
        forEach (a ++ b) f s = forEach b f s' := by
      intro κ σ f a
      induction a with
      | nil => intro b s s' h; cases h; rfl
      | cons x a ih =>
        intro b s s' h
        rw [List.cons_append]
        unfold forEach at h
        show (f x s).bind (forEach (a ++ b) f) = _
        cases hx : f x s with
        | ok s1 => rw [hx] at h; exact ih b s1 s' h
        | ub => rw [hx] at h; cases h
        | abort => rw [hx] at h; cases h
        | throw => rw [hx] at h; cases h
    rw [app _ _ _ _ _ h1]
    rfl
  rw [List.range_succ_eq_map]
  unfold forEach
  rw [key]
  rfl

/-- C46 fails: an object made by the default constructor has no model; every call reads outside its (empty) matrices. -/
theorem ocean_default_fails (junk : Nat → Nat → ℝ) (dt xp yp Om G ge : ℝ) :
    (Ocean.default junk).stokes dt xp yp (-1) (-1) Om G ge = .ub := by
  unfold Ocean.stokes Ocean.default
  simp only
  rw [if_pos (by decide : (-1 : Int) < 0), if_neg (by decide)]
  rw [List.range_succ_eq_map]
  unfold forEach
  have : ∀ fr fi cs, column ⟨0, fun _ _ => 0, fun _ _ => 0, fun _ _ => 0, fun _ _ => 0⟩ fr fi 2 0 cs = .ub := by
    intro fr fi cs
    rfl
  rw [this]
  rfl

/-- C46 fails: a coefficient beyond the degree of the call keeps what an earlier call left there, multiplied once more by the factor: it
is neither zero nor that of the Conventions. -/
theorem ocean_stale_fails {o : Ocean} (hw : o.WF) (hdeg : 3 ≤ o.deg) (hord : 2 ≤ o.ord) (dt xp yp Om G ge : ℝ) (hOm : Om ≠ 0) (hG : G ≠ 0)
    (hge : ge ≠ 0) (hre : o.cs.re ≠ 0) (hgm : o.cs.gm ≠ 0) (hC : o.cs.C 3 0 ≠ 0) :
    ∃ cs, o.stokes dt xp yp 2 2 Om G ge = .ok (0, { o with cs := cs }) ∧ cs.C 3 0 ≠ 0 := by
  obtain ⟨cs, g1, -, -, -, -, -, -, g8⟩ := stokes_ok hw dt xp yp 2 2 Om G ge (by decide) (by decide) (by decide) (by omega) hord (by decide)
  refine ⟨cs, g1, ?_⟩
  rw [g8 (by omega) 3 0 (by omega)]
  refine mul_ne_zero hC (div_ne_zero (mul_ne_zero (div_ne_zero (mul_ne_zero (mul_ne_zero hOm hOm) (pow_ne_zero _ hre)) hgm) ?_) hge)
  have := Real.pi_ne_zero
  positivity

/-- Such an object, as the constructor makes it in memory full of ones: degree and order three. -/
example : Ocean.WF ⟨3, 3, newSet (fun _ _ => 1) 3 3, ⟨4, fun _ _ => 1, fun _ _ => 0, fun _ _ => 0, fun _ _ => 0⟩⟩ ∧
    (newSet (fun _ _ => 1) 3 3).C 3 0 ≠ 0 :=
  ⟨⟨by decide, by decide, rfl, rfl, rfl⟩, one_ne_zero⟩

/-- C46: the load Love numbers of the table are those of the Conventions (Section 6.5) to the two digits the models agree on for degrees
2 to 6, and for all degrees negative, increasing and concave: no entry can be off by more than its neighbours allow. -/
theorem load_love : (|kn 2 + 0.3075| ≤ 0.0025 ∧ |kn 3 + 0.195| ≤ 0.0025 ∧ |kn 4 + 0.132| ≤ 0.0025 ∧ |kn 5 + 0.1032| ≤ 0.0025 ∧
    |kn 6 + 0.0892| ≤ 0.0025) ∧
    (∀ l, 2 ≤ l → l ≤ 360 → -1 < kn l ∧ kn l < 0) ∧ (∀ l, 2 ≤ l → l < 360 → kn l < kn (l + 1)) ∧
    (∀ l, 2 ≤ l → l < 359 → kn (l + 2) - kn (l + 1) < kn (l + 1) - kn l) := by
  have h1 : ∀ l < 361, 2 ≤ l → -1000000000000 < knTable.getD l 0 ∧ knTable.getD l 0 < 0 := by decide +kernel
  have h2 : ∀ l < 360, 2 ≤ l → knTable.getD l 0 < knTable.getD (l + 1) 0 := by decide +kernel
  have h3 : ∀ l < 359, 2 ≤ l →
      knTable.getD (l + 2) 0 - knTable.getD (l + 1) 0 < knTable.getD (l + 1) 0 - knTable.getD l 0 := by decide +kernel
  refine ⟨?_, fun l a b => ?_, fun l a b => ?_, fun l a b => ?_⟩
  · have e2 : kn 2 = -0.3054020195 := by unfold kn; rw [show knTable.getD 2 0 = -305402019500 from by decide +kernel]; norm_num
    have e3 : kn 3 = -0.1960294041 := by unfold kn; rw [show knTable.getD 3 0 = -196029404100 from by decide +kernel]; norm_num
    have e4 : kn 4 = -0.1336652689 := by unfold kn; rw [show knTable.getD 4 0 = -133665268900 from by decide +kernel]; norm_num
    have e5 : kn 5 = -0.1047066267 := by unfold kn; rw [show knTable.getD 5 0 = -104706626700 from by decide +kernel]; norm_num
    have e6 : kn 6 = -0.09033564429 := by unfold kn; rw [show knTable.getD 6 0 = -90335644290 from by decide +kernel]; norm_num
    rw [e2, e3, e4, e5, e6]
    refine ⟨?_, ?_, ?_, ?_, ?_⟩ <;> rw [abs_le] <;> norm_num
  · obtain ⟨p, q⟩ := h1 l (by omega) a
    have p' : ((-1000000000000 : Int) : ℝ) < (knTable.getD l 0 : ℝ) := by exact_mod_cast p
    have q' : (knTable.getD l 0 : ℝ) < 0 := by exact_mod_cast q
    push_cast at p'
    unfold kn
    constructor <;> linarith
  · have p := h2 l b a
    have p' : (knTable.getD l 0 : ℝ) < (knTable.getD (l + 1) 0 : ℝ) := by exact_mod_cast p
    unfold kn
    linarith
  · have p := h3 l b a
    have p' : (knTable.getD (l + 2) 0 : ℝ) - (knTable.getD (l + 1) 0 : ℝ) <
      (knTable.getD (l + 1) 0 : ℝ) - (knTable.getD l 0 : ℝ) := by exact_mod_cast p
    unfold kn
    linarith

end Verif.PoleTide
