import Verif.Proof.Aod1bHeader
import Verif.Props.Aod1b
/-
C82: the header of an AOD1B file.
-/
namespace Verif.Aod1b.Head
open Verif Verif.Chars

variable {T : Type}

/-! ### Lemmas -/

theorem lastOf_cons {α : Type} (f : Setting T → Option α) (d : α) (s : Setting T) (ss : List (Setting T)) :
    lastOf f d (s :: ss) = lastOf f ((f s).getD d) ss := by
  unfold lastOf
  cases h : f s with
  | none => simp [List.filterMap_cons, h]
  | some v => simp only [List.filterMap_cons, h, List.getLast?_cons, Option.getD_some]

theorem lastOf_none {α : Type} (f : Setting T → Option α) (d : α) (ss : List (Setting T)) (h : ss.filterMap f = []) :
    lastOf f d ss = d := by
  unfold lastOf; rw [h]; rfl

theorem once_cons {α : Type} {f : Setting T → Option α} {s : Setting T} {ss : List (Setting T)} (h : Once f (s :: ss)) :
    Once f ss ∧ ∀ v, f s = some v → ss.filterMap f = [] := by
  unfold Once at *
  cases hs : f s with
  | none => rw [List.filterMap_cons_none hs] at h; exact ⟨h, by intro v hv; cases hv⟩
  | some v =>
    rw [List.filterMap_cons_some hs, List.length_cons] at h
    have : (ss.filterMap f).length = 0 := by omega
    exact ⟨by omega, fun _ _ => List.length_eq_zero_iff.mp this⟩

/-- The members but the texts. -/
theorem fold_put (ss : List (Setting T)) : ∀ h : Data T, ∃ a, ss.foldl put h =
    { arena := a
      fileType := lastOf Setting.fileType? h.fileType ss
      fileFormat := lastOf Setting.fileFormat? h.fileFormat ss
      headerRecords := lastOf Setting.headerRecords? h.headerRecords ss
      dataRecords := lastOf Setting.dataRecords? h.dataRecords ss
      maxDegree := lastOf Setting.maxDegree? h.maxDegree ss
      errors := lastOf Setting.errors? h.errors ss
      normalized := lastOf Setting.normalized? h.normalized ss
      gm := lastOf Setting.gm? h.gm ss
      re := lastOf Setting.radius? h.re ss
      flat := lastOf Setting.flat? h.flat ss
      omega := lastOf Setting.omega? h.omega ss
      dataSets := lastOf Setting.dataSets? h.dataSets ss
      epoch := lastOf Setting.epoch? h.epoch ss
      first := lastOf Setting.first? h.first ss
      last := lastOf Setting.last? h.last ss
      wave := lastOf Setting.wave? h.wave ss } := by
  induction ss with
  | nil => intro h; exact ⟨h.arena, rfl⟩
  | cons s ss ih =>
    intro h
    rw [List.foldl_cons]
    obtain ⟨a, ha⟩ := ih (put h s)
    refine ⟨a, ?_⟩
    rw [ha]
    simp only [lastOf_cons]
    cases s <;> rfl

/-- A text of the header has no zero and fits. -/
def Fits (n : Nat) (v : List Char) : Prop := v.length < n ∧ '\x00' ∉ v

theorem fits_nil {n : Nat} (h : 0 < n) : Fits n [] := ⟨h, by simp⟩

structure Slots (a b c d e : List Char) : Prop where
  a : Fits 20 a
  b : Fits 20 b
  c : Fits 20 c
  d : Fits 4 d
  e : Fits 16 e

theorem fold_arena (E : Env T) {e0 : T} {lines : List (List Char)} {ss : List (Setting T)}
    (hl : Holds E.date E.addNs E.newYear e0 lines ss) : ∀ (h : Data T) (a b c d e : List Char), Slots a b c d e →
    h.arena = arenaOf a b c d e →
    (Once Setting.agency? ss ∧ (a ≠ [] → ss.filterMap Setting.agency? = [])) →
    (Once Setting.satellite? ss ∧ (b ≠ [] → ss.filterMap Setting.satellite? = [])) →
    (Once Setting.sensor? ss ∧ (c ≠ [] → ss.filterMap Setting.sensor? = [])) →
    (Once Setting.level? ss ∧ (d ≠ [] → ss.filterMap Setting.level? = [])) →
    (Once Setting.pressure? ss ∧ (e ≠ [] → ss.filterMap Setting.pressure? = [])) →
    (ss.foldl put h).arena = arenaOf (lastOf Setting.agency? a ss) (lastOf Setting.satellite? b ss)
      (lastOf Setting.sensor? c ss) (lastOf Setting.level? d ss) (lastOf Setting.pressure? e ss) ∧
    Slots (lastOf Setting.agency? a ss) (lastOf Setting.satellite? b ss)
      (lastOf Setting.sensor? c ss) (lastOf Setting.level? d ss) (lastOf Setting.pressure? e ss) := by
  induction hl with
  | nil => intro h a b c d e hs ha _ _ _ _ _; exact ⟨ha, hs⟩
  | cons h1 h2 hg hh ih =>
    rename_i e0 line lines s ss
    intro h a b c d e hs ha oa ob oc od oe
    rw [List.foldl_cons]
    simp only [lastOf_cons]
    obtain ⟨oa1, oa2⟩ := once_cons oa.1
    obtain ⟨ob1, ob2⟩ := once_cons ob.1
    obtain ⟨oc1, oc2⟩ := once_cons oc.1
    obtain ⟨od1, od2⟩ := once_cons od.1
    obtain ⟨oe1, oe2⟩ := once_cons oe.1
    have keep : ∀ {f : Setting T → Option (List Char)} {x : List Char}, (x ≠ [] → (s :: ss).filterMap f = []) →
        x ≠ [] → ss.filterMap f = [] := by
      intro f x hx hne
      have := hx hne
      rw [List.filterMap_cons] at this
      split at this
      · exact this
      · cases this
    have first : ∀ {f : Setting T → Option (List Char)} {x v : List Char}, (x ≠ [] → (s :: ss).filterMap f = []) →
        f s = some v → x = [] := by
      intro f x v hx hv
      by_contra hne
      have := hx hne
      rw [List.filterMap_cons_some hv] at this
      cases this
    cases s with
    | agency v =>
      obtain ⟨arg, hk, ⟨n, _, _, _, _, hz⟩, hv⟩ := hg
      obtain rfl := first oa.2 rfl
      refine ih _ v b c d e ⟨⟨hv, hz⟩, hs.b, hs.c, hs.d, hs.e⟩ ?_ ⟨oa1, fun _ => oa2 v rfl⟩ ⟨ob1, keep ob.2⟩ ⟨oc1, keep oc.2⟩
        ⟨od1, keep od.2⟩ ⟨oe1, keep oe.2⟩
      simp only [put, ha]; exact over_a hv
    | satellite v =>
      obtain ⟨arg, hk, ⟨n, _, _, _, _, hz⟩, hv⟩ := hg
      obtain rfl := first ob.2 rfl
      refine ih _ a v c d e ⟨hs.a, ⟨hv, hz⟩, hs.c, hs.d, hs.e⟩ ?_ ⟨oa1, keep oa.2⟩ ⟨ob1, fun _ => ob2 v rfl⟩ ⟨oc1, keep oc.2⟩
        ⟨od1, keep od.2⟩ ⟨oe1, keep oe.2⟩
      simp only [put, ha]; exact over_b hs.a.1 hv
    | sensor v =>
      obtain ⟨arg, hk, ⟨n, _, _, _, _, hz⟩, hv⟩ := hg
      obtain rfl := first oc.2 rfl
      refine ih _ a b v d e ⟨hs.a, hs.b, ⟨hv, hz⟩, hs.d, hs.e⟩ ?_ ⟨oa1, keep oa.2⟩ ⟨ob1, keep ob.2⟩ ⟨oc1, fun _ => oc2 v rfl⟩
        ⟨od1, keep od.2⟩ ⟨oe1, keep oe.2⟩
      simp only [put, ha]; exact over_c hs.a.1 hs.b.1 hv
    | level v =>
      obtain ⟨arg, hk, ⟨n, _, _, _, _, hz⟩, hv⟩ := hg
      obtain rfl := first od.2 rfl
      refine ih _ a b c v e ⟨hs.a, hs.b, hs.c, ⟨hv, hz⟩, hs.e⟩ ?_ ⟨oa1, keep oa.2⟩ ⟨ob1, keep ob.2⟩ ⟨oc1, keep oc.2⟩
        ⟨od1, fun _ => od2 v rfl⟩ ⟨oe1, keep oe.2⟩
      simp only [put, ha]; exact over_d hs.a.1 hs.b.1 hs.c.1 hv
    | pressure v =>
      obtain ⟨arg, hk, ⟨n, _, _, _, _, hz⟩, hv⟩ := hg
      obtain rfl := first oe.2 rfl
      refine ih _ a b c d v ⟨hs.a, hs.b, hs.c, hs.d, ⟨hv, hz⟩⟩ ?_ ⟨oa1, keep oa.2⟩ ⟨ob1, keep ob.2⟩ ⟨oc1, keep oc.2⟩
        ⟨od1, keep od.2⟩ ⟨oe1, fun _ => oe2 v rfl⟩
      simp only [put, ha]; exact over_e hs.a.1 hs.b.1 hs.c.1 hs.d.1 hv
    | _ =>
      exact ih _ a b c d e hs ha ⟨oa1, keep oa.2⟩ ⟨ob1, keep ob.2⟩ ⟨oc1, keep oc.2⟩ ⟨od1, keep od.2⟩ ⟨oe1, keep oe.2⟩

theorem put_epoch (h : Data T) (s : Setting T) : (put h s).epoch = s.after h.epoch := by cases s <;> rfl

theorem loop_reads [DecidableEq T] (E : Env T) {e0 : T} {lines : List (List Char)} {ss : List (Setting T)}
    (hl : Holds E.date E.addNs E.newYear e0 lines ss) (tail data : List Char)
    (ht : '\n' ∉ tail) (hs : tail.length + 13 < 124) : ∀ (n : Nat) (h : Data T), lines.length + 2 ≤ n → h.arena.length = 80 →
    h.epoch = e0 →
    loop E n ⟨textOf lines ++ ("END OF HEADER".toList ++ tail ++ '\n' :: data), false, false⟩ 0 h = .ok (0, ss.foldl put h) := by
  induction hl with
  | nil =>
    intro n h hn ha he
    obtain ⟨n, rfl⟩ : ∃ k, n = k + 2 := ⟨n - 2, by simp at hn; omega⟩
    have e := getline_line 124 ("END OF HEADER".toList ++ tail) data (by simp; omega) (by
      rw [List.mem_append]; rintro (h | h)
      · revert h; decide
      · exact ht h)
    simp only [textOf, List.flatMap_nil, List.nil_append]
    unfold loop
    simp only [e]
    rw [if_neg (by simp)]
    rw [keyOf_key (k := .theEnd) _ (by inkeys), if_pos rfl]
    rfl
  | cons h1 h2 hg hh ih =>
    rename_i e0 line lines s ss
    intro n h hn ha he
    subst he
    obtain ⟨n, rfl⟩ : ∃ k, n = k + 2 := ⟨n - 2, by simp at hn; omega⟩
    have e := getline_line 124 line (textOf lines ++ ("END OF HEADER".toList ++ tail ++ '\n' :: data)) h1 h2
    have e2 : textOf (line :: lines) ++ ("END OF HEADER".toList ++ tail ++ '\n' :: data) =
        line ++ '\n' :: (textOf lines ++ ("END OF HEADER".toList ++ tail ++ '\n' :: data)) := by simp [textOf]
    obtain ⟨s1, s2⟩ := step_gives E h hg ha
    rw [e2]
    unfold loop
    simp only [e]
    rw [if_neg (by simp), if_neg s1, s2]
    simp only [Res.bind]
    exact ih (n + 1) (put h s) (by simp at hn; omega) (put_length h s h.epoch E line hg ha) (put_epoch h s)

/-! ### C82 -/

/-- C82: a header of at most 98 lines in front of `END OF HEADER`, each of which gives a known key a value (texts at most
once each), is read: every member has the value that stands last for its key. A number without a key stays unset
(`none`, an uninitialised variable). Not covered (`_partial`): texts that are empty or too long (`text_empty_fails`,
`text_long_fails`), the radius with its colon near the key (`radius_column_fails`), an unknown tide (`wave_unknown_fails`). -/
theorem header_read_partial [DecidableEq T] (E : Env T) {lines : List (List Char)} {ss : List (Setting T)}
    (hl : Holds E.date E.addNs E.newYear E.unset lines ss) (hn : lines.length ≤ 98)
    (h1 : Once Setting.agency? ss) (h2 : Once Setting.satellite? ss) (h3 : Once Setting.sensor? ss)
    (h4 : Once Setting.level? ss) (h5 : Once Setting.pressure? ss)
    (tail data : List Char) (ht : '\n' ∉ tail) (hs : tail.length + 13 < 124) :
    ∃ h, construct E (some (textOf lines ++ ("END OF HEADER".toList ++ tail ++ '\n' :: data))) = .ok h ∧
      h.agency = .ok (lastOf Setting.agency? [] ss) ∧
      h.satellite = .ok (lastOf Setting.satellite? [] ss) ∧
      h.sensor = .ok (lastOf Setting.sensor? [] ss) ∧
      h.level = .ok (lastOf Setting.level? [] ss) ∧
      h.pressure = .ok (lastOf Setting.pressure? [] ss) ∧
      h.fileType = lastOf Setting.fileType? none ss ∧
      h.fileFormat = lastOf Setting.fileFormat? none ss ∧
      h.headerRecords = lastOf Setting.headerRecords? none ss ∧
      h.dataRecords = lastOf Setting.dataRecords? none ss ∧
      h.maxDegree = lastOf Setting.maxDegree? none ss ∧
      h.dataSets = lastOf Setting.dataSets? none ss ∧
      h.errors = lastOf Setting.errors? none ss ∧
      h.normalized = lastOf Setting.normalized? none ss ∧
      h.gm = lastOf Setting.gm? none ss ∧
      h.re = lastOf Setting.radius? none ss ∧
      h.flat = lastOf Setting.flat? none ss ∧
      h.omega = lastOf Setting.omega? none ss ∧
      h.epoch = lastOf Setting.epoch? E.unset ss ∧
      h.first = lastOf Setting.first? E.unset ss ∧
      h.last = lastOf Setting.last? E.unset ss ∧
      h.wave = lastOf Setting.wave? none ss := by
  have h := loop_reads E hl tail data ht hs 100 { epoch := E.unset, first := E.unset, last := E.unset } (by omega) (by simp) rfl
  refine ⟨ss.foldl put { epoch := E.unset, first := E.unset, last := E.unset }, ?_, ?_⟩
  · unfold construct read
    simp only [In.start, h]
    rfl
  · obtain ⟨ha, hsl⟩ := fold_arena E hl { epoch := E.unset, first := E.unset, last := E.unset } [] [] [] [] []
      ⟨fits_nil (by omega), fits_nil (by omega), fits_nil (by omega), fits_nil (by omega), fits_nil (by omega)⟩ rfl
      ⟨h1, fun h => absurd rfl h⟩ ⟨h2, fun h => absurd rfl h⟩ ⟨h3, fun h => absurd rfl h⟩ ⟨h4, fun h => absurd rfl h⟩
      ⟨h5, fun h => absurd rfl h⟩
    obtain ⟨a, hf⟩ := fold_put ss { epoch := E.unset, first := E.unset, last := E.unset }
    refine ⟨?_, ?_, ?_, ?_, ?_, ?_⟩
    · unfold Data.agency
      rw [ha]
      exact cstr_pad [] _ _ 20 hsl.a.1 hsl.a.2
    · unfold Data.satellite
      rw [ha]
      have := cstr_pad (pad 20 (lastOf Setting.agency? [] ss)) (pad 20 (lastOf Setting.sensor? [] ss) ++
        (pad 4 (lastOf Setting.level? [] ss) ++ pad 16 (lastOf Setting.pressure? [] ss))) _ 20 hsl.b.1 hsl.b.2
      rw [pad_length (Nat.le_of_lt hsl.a.1)] at this
      exact this
    · unfold Data.sensor
      rw [ha]
      have := cstr_pad (pad 20 (lastOf Setting.agency? [] ss) ++ pad 20 (lastOf Setting.satellite? [] ss))
        (pad 4 (lastOf Setting.level? [] ss) ++ pad 16 (lastOf Setting.pressure? [] ss)) _ 20 hsl.c.1 hsl.c.2
      rw [List.length_append, pad_length (Nat.le_of_lt hsl.a.1), pad_length (Nat.le_of_lt hsl.b.1), List.append_assoc] at this
      exact this
    · unfold Data.level
      rw [ha]
      have := cstr_pad (pad 20 (lastOf Setting.agency? [] ss) ++ (pad 20 (lastOf Setting.satellite? [] ss) ++
        pad 20 (lastOf Setting.sensor? [] ss))) (pad 16 (lastOf Setting.pressure? [] ss)) _ 4 hsl.d.1 hsl.d.2
      rw [List.length_append, List.length_append, pad_length (Nat.le_of_lt hsl.a.1), pad_length (Nat.le_of_lt hsl.b.1),
        pad_length (Nat.le_of_lt hsl.c.1), List.append_assoc, List.append_assoc] at this
      exact this
    · unfold Data.pressure
      rw [ha]
      have := cstr_pad (pad 20 (lastOf Setting.agency? [] ss) ++ (pad 20 (lastOf Setting.satellite? [] ss) ++
        (pad 20 (lastOf Setting.sensor? [] ss) ++ pad 4 (lastOf Setting.level? [] ss)))) [] _ 16 hsl.e.1 hsl.e.2
      rw [List.length_append, List.length_append, List.length_append, pad_length (Nat.le_of_lt hsl.a.1),
        pad_length (Nat.le_of_lt hsl.b.1), pad_length (Nat.le_of_lt hsl.c.1), pad_length (Nat.le_of_lt hsl.d.1),
        List.append_assoc, List.append_assoc, List.append_assoc, List.append_nil] at this
      exact this
    · rw [hf]
      exact ⟨rfl, rfl, rfl, rfl, rfl, rfl, rfl, rfl, rfl, rfl, rfl, rfl, rfl, rfl, rfl, rfl⟩

/-! ### A tidal file from header to coefficients -/

theorem end_take {line : List Char} (h : keyOf line ≠ some .theEnd) : line.take 13 ≠ "END OF HEADER".toList := by
  intro he
  apply h
  rw [← List.take_append_drop 13 line, he]
  exact keyOf_key _ (by inkeys)

theorem holds_lines (E : Env T) {e0 : T} {lines : List (List Char)} {ss : List (Setting T)}
    (hl : Holds E.date E.addNs E.newYear e0 lines ss) [DecidableEq T] :
    ∀ l ∈ lines, ShortLine l ∧ l.take 13 ≠ "END OF HEADER".toList := by
  induction hl with
  | nil => intro l h; cases h
  | cons h1 h2 hg hh ih =>
    rename_i e0 line lines s ss
    intro l hm
    rcases List.mem_cons.mp hm with rfl | hm
    · exact ⟨⟨h2, h1⟩, end_take (step_gives E { epoch := e0, first := e0, last := e0 } hg (by simp)).1⟩
    · exact ih l hm

/-- C82: a tidal file whose header gives maximum degree and number of sets, followed by its two blocks, is read from the name of the
file to the coefficients: the header is accepted and both sets hold the values of the file within the request. -/
theorem tidal_file_read_partial [DecidableEq T] (E : Env T) {lines : List (List Char)} {ss : List (Setting T)}
    (hl : Holds E.date E.addNs E.newYear E.unset lines ss) (hn : lines.length ≤ 98)
    (h1 : Once Setting.agency? ss) (h2 : Once Setting.satellite? ss) (h3 : Once Setting.sensor? ss)
    (h4 : Once Setting.level? ss) (h5 : Once Setting.pressure? ss)
    (degree sets : Int) (hdeg : lastOf Setting.maxDegree? none ss = some degree) (hsets : lastOf Setting.dataSets? none ss = some sets)
    {lc ls : List (List Char)} {cosRows sinRows : List Row} {tail : List Char} (n m : Int) (hm0 : 0 ≤ m) (hmn : m ≤ n) (hna : n ≤ degree)
    (hc : TidalBlock true "DATA SET 01:".toList "COEFFICIENTS OF TYPE cos".toList n m lc cosRows)
    (hs : TidalBlock true "DATA SET 02:".toList "COEFFICIENTS OF TYPE sin".toList n m ls sinRows) (ht : ShortLine tail)
    (name : List Char) (cc cs : Coeffs ℝ) (hcc : n ≤ cc.deg ∧ m ≤ cc.ord ∧ cc.deg < cc.rows) (hcs : n ≤ cs.deg ∧ m ≤ cs.ord ∧ cs.deg < cs.rows)
    (htc : ∀ r ∈ cosRows, r.In n m → r.Triangle) (hts : ∀ r ∈ sinRows, r.In n m → r.Triangle) (text : List Char)
    (htext : text = textOf lines ++ ("END OF HEADER".toList ++ [] ++ '\n' :: (unlines lc ++ (unlines ls ++ tail)))) :
    ∃ h a cc' cs', construct E (some text) = .ok h ∧ h.aod name text = .ok a ∧ getTidal a cc cs n m = .ok (0, cc', cs') ∧
      Aod1b.Holds n m cosRows cc.rows cc' ∧ Aod1b.Holds n m sinRows cs.rows cs' := by
  obtain ⟨h, e1, _, _, _, _, _, _, _, _, _, e2, e3, _⟩ := header_read_partial E hl hn h1 h2 h3 h4 h5 []
    (unlines lc ++ (unlines ls ++ tail)) (by simp) (by simp)
  have hr : ∀ k : Int, 0 ≤ k → request (⟨text, degree, sets, h.first, h.last, name⟩ : Aod T) k = k := by
    intro k hk; unfold request; rw [if_neg (by omega)]
  have hf : TidalFile true n m text cosRows sinRows tail := by
    refine ⟨lines ++ ["END OF HEADER".toList], lc, ls, ⟨lines, "END OF HEADER".toList, rfl, holds_lines E hl, ⟨by decide, by decide⟩,
      by decide⟩, by simp; omega, hc, hs, ht, ?_⟩
    rw [htext]
    simp [textOf, unlines, List.flatMap]
  have := tidal_complete (⟨text, degree, sets, h.first, h.last, name⟩ : Aod T) cc cs n m (cosRows := cosRows) (sinRows := sinRows) (tail := tail)
  rw [hr n (by omega), hr m hm0] at this
  obtain ⟨cc', cs', g1, g2, g3⟩ := this hf hmn hna hcc hcs htc hts
  refine ⟨h, _, cc', cs', by rw [htext]; exact e1, ?_, g1, g2, g3⟩
  unfold Data.aod
  rw [e2, e3, hdeg, hsets]

/-! ### Soundness -/

theorem key_known {line : List Char} {k : Key} (h : keyOf line = some k) (hk : k ≠ .theEnd) :
    ∃ key ∈ knownKeys, key <+: line := by
  unfold keyOf at h
  obtain ⟨p, hp, rfl⟩ := Option.map_eq_some_iff.mp h
  have hm := List.mem_of_find?_eq_some hp
  have hpre := List.find?_some hp
  refine ⟨p.1, ?_, List.isPrefixOf_iff_prefix.mp hpre⟩
  have : ∀ p ∈ keys, p.2 ≠ .theEnd → p.1 ∈ knownKeys := by unfold keys knownKeys ignored; decide +kernel
  exact this p hm hk

theorem key_prefix {line kw : List Char} {k : Key} (h : keyOf line = some k) (hk : (kw, k) ∈ keys) : kw <+: line := by
  unfold keyOf at h
  obtain ⟨p, hp, rfl⟩ := Option.map_eq_some_iff.mp h
  have hm := List.mem_of_find?_eq_some hp
  have hpre := List.find?_some hp
  have : ∀ p ∈ keys, ∀ q ∈ keys, p.2 = q.2 → p.1 = q.1 := by unfold keys; decide +kernel
  have e : kw = p.1 := this _ hk p hm rfl
  rw [e]
  exact List.isPrefixOf_iff_prefix.mp hpre

theorem dropWhile_split (s : List Char) : ∃ b, s = blanks b ++ s.dropWhile (fun c => c == ' ') := by
  induction s with
  | nil => exact ⟨0, rfl⟩
  | cons c s ih =>
    obtain ⟨b, hb⟩ := ih
    by_cases hc : c = ' '
    · subst hc
      refine ⟨b + 1, ?_⟩
      rw [List.dropWhile_cons_of_pos (by rfl)]
      simp only [blanks, List.replicate_succ, List.cons_append] at hb ⊢
      rw [← hb]
    · refine ⟨0, ?_⟩
      rw [List.dropWhile_cons_of_neg (by simpa using hc)]
      rfl

theorem field_split {s v : List Char} (h : field s = .ok v) : ∃ p b, s = p ++ ':' :: (blanks b ++ v) := by
  unfold field at h
  split at h
  · cases h
  · rename_i c r hr
    cases h
    have hc : c = ':' := by
      have := List.head?_dropWhile_not (fun c => c != ':') s
      rw [hr] at this
      simpa using this
    obtain ⟨b, hb⟩ := dropWhile_split r
    refine ⟨s.takeWhile (fun c => c != ':'), b, ?_⟩
    have := (List.takeWhile_append_dropWhile (p := fun c => c != ':') (l := s)).symm
    rw [hr, hc] at this
    rw [← hb]
    exact this

theorem at_split {k : Nat} {line s : List Char} (h : at' k line = .ok s) : line = line.take k ++ s := by
  unfold at' at h
  split at h
  · cases h; exact (List.take_append_drop k line).symm
  · cases h

/-- A field of a line with this key. -/
theorem key_says {k : Nat} {kw line v : List Char} (hk : kw <+: line) (hc : ':' ∉ kw) (h : (at' k line).bind field = .ok v) :
    ∃ p b, line = kw ++ (p ++ ':' :: (blanks b ++ v)) := by
  cases hs : at' k line with
  | ok s =>
    rw [hs] at h
    obtain ⟨p, b, hp⟩ := field_split h
    have hl := at_split hs
    obtain ⟨x, rfl⟩ := hk
    rw [hp, ← List.append_assoc] at hl
    rcases List.append_eq_append_iff.mp hl with ⟨y, hy1, hy2⟩ | ⟨y, hy1, hy2⟩
    · exact ⟨y, b, by rw [hy2]⟩
    · cases y with
      | nil => exact ⟨[], b, by rw [List.nil_append] at hy2; rw [← hy2, List.nil_append]⟩
      | cons c y =>
        exfalso
        simp only [List.cons_append, List.cons.injEq] at hy2
        apply hc
        rw [hy1, ← hy2.1]
        simp
  | _ => rw [hs] at h; cases h

theorem int_says {k : Nat} {kw line v rest : List Char} {n : Int} (hk : kw <+: line) (hc : ':' ∉ kw)
    (hf : (at' k line).bind field = .ok v) (hn : fromCharsInt v = some (n, rest)) : SaysInt kw n line := by
  obtain ⟨p, b, rfl⟩ := key_says hk hc hf
  refine ⟨p, blanks b ++ v, rest, rfl, ?_⟩
  have hv : v.head? ≠ some ' ' := by
    intro hh
    obtain ⟨w, rfl⟩ : ∃ w, v = ' ' :: w := by
      cases v with
      | nil => cases hh
      | cons c w => simp only [List.head?_cons, Option.some.injEq] at hh; exact ⟨w, by rw [hh]⟩
    revert hn
    simp [fromCharsInt, takeSign, isDig]
  exact fromCharsInt_sound (line := blanks b ++ v) (v := n) (rest := rest) (by
    rw [show blanks b ++ v = List.replicate b ' ' ++ v from rfl, skipWs_blanks b v hv]; exact hn)

theorem setInt_sound {k : Nat} {line : List Char} {put : Int → Data T} {h h' : Data T} (hs : setInt k line put h = .ok (.go 0 h')) :
    ∃ n, h' = put n ∧ ∀ kw, kw <+: line → ':' ∉ kw → SaysInt kw n line := by
  unfold setInt at hs
  rw [bind_assoc'] at hs
  cases hf : (at' k line).bind field with
  | ok v =>
    rw [hf] at hs
    simp only [Res.bind] at hs
    split at hs
    · rename_i n rest hn
      simp only [Res.ok.injEq, Step.go.injEq, true_and] at hs
      exact ⟨n, hs.symm, fun kw hk hc => int_says hk hc hf hn⟩
    · cases hs
  | _ => rw [hf] at hs; cases hs

theorem setNum_sound {k : Nat} {line : List Char} {put : ℚ → Data T} {h h' : Data T} (hs : setNum k line put h = .ok (.go 0 h')) :
    ∃ n, h' = put n ∧ ∀ kw, kw <+: line → ':' ∉ kw → SaysNum kw n line := by
  unfold setNum at hs
  rw [bind_assoc'] at hs
  cases hf : (at' k line).bind field with
  | ok v =>
    rw [hf] at hs
    simp only [Res.bind] at hs
    split at hs
    · rename_i n rest hn
      simp only [Res.ok.injEq, Step.go.injEq, true_and] at hs
      refine ⟨n, hs.symm, fun kw hk hc => ?_⟩
      obtain ⟨p, b, rfl⟩ := key_says hk hc hf
      obtain ⟨d, h1, h2, h3⟩ := fromCharsDouble_sound hn
      exact ⟨p, blanks b ++ v, rest, rfl, b, d, h1, h3, by rw [h2]; rfl⟩
    · cases hs
  | _ => rw [hf] at hs; cases hs

/-- Where the numbers and the epochs come from. -/
structure Origin (E : Env T) (h : Data T) (lines : List (List Char)) : Prop where
  degree : ∀ n, h.maxDegree = some n → ∃ line ∈ lines, SaysInt "MAXIMUM DEGREE".toList n line
  sets : ∀ n, h.dataSets = some n → ∃ line ∈ lines, SaysInt "NUMBER OF DATA SETS".toList n line
  gm : ∀ v, h.gm = some v → ∃ line ∈ lines, SaysNum "CONSTANT GM [M^3/S^2]".toList v line
  radius : ∀ v, h.re = some v → ∃ line ∈ lines, SaysNum "CONSTANT A [M]".toList v line
  first : h.first = E.unset ∨ ∃ line ∈ lines, SaysDate E.date "TIME FIRST OBS(SEC PAST EPOCH)".toList h.first line ∨
    SaysYear E.newYear "TIME FIRST OBS (YEAR START)".toList h.first line
  last : h.last = E.unset ∨ ∃ line ∈ lines, SaysDate E.date "TIME LAST OBS(SEC PAST EPOCH)".toList h.last line ∨
    SaysYear E.newYear "TIME LAST OBS (YEAR END)".toList h.last line

theorem Origin.same {E : Env T} {h h' : Data T} {L : List (List Char)} (o : Origin E h L) (line : List Char) (h1 : h'.maxDegree = h.maxDegree)
    (h2 : h'.dataSets = h.dataSets) (h3 : h'.gm = h.gm) (h4 : h'.re = h.re) (h5 : h'.first = h.first) (h6 : h'.last = h.last) :
    Origin E h' (L ++ [line]) where
  degree n hn := by obtain ⟨l, hl, hs⟩ := o.degree n (h1 ▸ hn); exact ⟨l, by simp [hl], hs⟩
  sets n hn := by obtain ⟨l, hl, hs⟩ := o.sets n (h2 ▸ hn); exact ⟨l, by simp [hl], hs⟩
  gm n hn := by obtain ⟨l, hl, hs⟩ := o.gm n (h3 ▸ hn); exact ⟨l, by simp [hl], hs⟩
  radius n hn := by obtain ⟨l, hl, hs⟩ := o.radius n (h4 ▸ hn); exact ⟨l, by simp [hl], hs⟩
  first := by
    rw [h5]; rcases o.first with h | ⟨l, hl, hs⟩
    · exact .inl h
    · exact .inr ⟨l, by simp [hl], hs⟩
  last := by
    rw [h6]; rcases o.last with h | ⟨l, hl, hs⟩
    · exact .inl h
    · exact .inr ⟨l, by simp [hl], hs⟩

theorem bind_eq_ok {α β : Type} {x : Res α} {f : α → Res β} {y : β} (h : x.bind f = .ok y) : ∃ a, x = .ok a ∧ f a = .ok y := by
  cases x with
  | ok a => exact ⟨a, rfl, h⟩
  | _ => cases h

theorem setText_keeps {k off : Nat} {line : List Char} {h h' : Data T} (hs : setText k off line h = .ok (.go 0 h')) :
    ∃ a, h' = { h with arena := a } := by
  unfold setText at hs
  obtain ⟨s, _, hs⟩ := bind_eq_ok hs
  obtain ⟨⟨v, sz⟩, _, hs⟩ := bind_eq_ok hs
  obtain ⟨a, _, hs⟩ := bind_eq_ok hs
  cases hs
  exact ⟨a, rfl⟩

theorem setFlag_keeps {k : Nat} {line : List Char} {put : Bool → Data T} {h h' : Data T} (hs : setFlag k line put h = .ok (.go 0 h')) :
    ∃ b, h' = put b := by
  unfold setFlag at hs
  obtain ⟨s, _, hs⟩ := bind_eq_ok hs
  obtain ⟨⟨v, sz⟩, _, hs⟩ := bind_eq_ok hs
  simp only at hs
  split at hs
  · split at hs <;> cases hs; exact ⟨_, rfl⟩
  · split at hs
    · split at hs <;> cases hs; exact ⟨_, rfl⟩
    · cases hs

theorem setEpoch_sound [DecidableEq T] {E : Env T} {k : Nat} {line : List Char} {put : T → Data T} {h h' : Data T}
    (hs : setEpoch E k line put h = .ok (.go 0 h')) :
    ∃ t, h' = put t ∧ ∀ kw, kw <+: line → ':' ∉ kw → SaysDate E.date kw t line := by
  unfold setEpoch at hs
  rw [bind_assoc'] at hs
  obtain ⟨v, hf, hs⟩ := bind_eq_ok hs
  split at hs
  · cases hs
  · rename_i sec rest hd
    obtain ⟨ns, _, hs⟩ := bind_eq_ok hs
    dsimp only at hs
    split at hs
    · cases hs
    · rename_i r hne
      split at hs
      · cases hs
      · rename_i t' ht
        split at hs
        · cases hs
        · rename_i heq
          cases hs
          refine ⟨_, rfl, fun kw hk hc => ?_⟩
          obtain ⟨p, b, rfl⟩ := key_says hk hc hf
          obtain ⟨d, h1, h2, h3⟩ := fromCharsDouble_sound hd
          refine ⟨p ++ ':' :: (blanks b ++ (d.text ++ rest.takeWhile (fun c => !isDig c))), rest.dropWhile (fun c => !isDig c), ?_, ?_, ?_⟩
          · rw [h2]
            simp only [List.append_assoc, List.cons_append, List.takeWhile_append_dropWhile]
          · cases hr : rest.dropWhile (fun c => !isDig c) with
            | nil => exact absurd hr hne
            | cons c r =>
              refine ⟨c, rfl, ?_⟩
              have := List.head?_dropWhile_not (fun c => !isDig c) rest
              rw [hr] at this
              simpa using this
          · rw [ht]
            exact congrArg some (not_not.mp heq)

theorem setYear_sound {E : Env T} {k : Nat} {line : List Char} {put : T → Data T} {h' : Data T}
    (hs : setYear E k line put = .ok (.go 0 h')) :
    ∃ t, h' = put t ∧ ∀ kw, kw <+: line → ':' ∉ kw → SaysYear E.newYear kw t line := by
  unfold setYear at hs
  rw [bind_assoc'] at hs
  obtain ⟨v, hf, hs⟩ := bind_eq_ok hs
  split at hs
  · cases hs
  · rename_i y rest hn
    cases hs
    refine ⟨_, rfl, fun kw hk hc => ⟨y, ?_, rfl⟩⟩
    exact int_says hk hc hf hn

theorem setWave_keeps {line : List Char} {h h' : Data T} (hs : setWave line h = .ok (.go 0 h')) :
    ∃ w, h' = { h with wave := some w } := by
  unfold setWave at hs
  obtain ⟨s, _, hs⟩ := bind_eq_ok hs
  obtain ⟨⟨v, sz⟩, _, hs⟩ := bind_eq_ok hs
  simp only at hs
  split at hs
  · cases hs
  · split at hs
    · cases hs
    · cases hs; exact ⟨_, rfl⟩

theorem step_origin [DecidableEq T] {E : Env T} {line : List Char} {h h' : Data T} {L : List (List Char)} (o : Origin E h L)
    (hs : step E line h (keyOf line) = .ok (.go 0 h')) : (∃ k, keyOf line = some k) ∧ Origin E h' (L ++ [line]) := by
  cases hk : keyOf line with
  | none => rw [hk] at hs; cases hs
  | some k =>
    refine ⟨⟨k, rfl⟩, ?_⟩
    rw [hk] at hs
    cases k <;> simp only [step] at hs <;> first
      | (obtain ⟨a, rfl⟩ := setText_keeps hs; exact o.same line rfl rfl rfl rfl rfl rfl)
      | (obtain ⟨a, rfl⟩ := setFlag_keeps hs; exact o.same line rfl rfl rfl rfl rfl rfl)
      | (obtain ⟨a, rfl⟩ := setWave_keeps hs; exact o.same line rfl rfl rfl rfl rfl rfl)
      | (cases hs; exact o.same line rfl rfl rfl rfl rfl rfl)
      | (obtain ⟨n, rfl, hn⟩ := setInt_sound hs; exact o.same line rfl rfl rfl rfl rfl rfl)
      | (obtain ⟨n, rfl, hn⟩ := setNum_sound hs; exact o.same line rfl rfl rfl rfl rfl rfl)
      | skip
    · obtain ⟨s, _, hs⟩ := bind_eq_ok hs
      obtain ⟨v, _, hs⟩ := bind_eq_ok hs
      split at hs
      · cases hs
      · cases hs; exact o.same line rfl rfl rfl rfl rfl rfl
    · obtain ⟨t, rfl, hn⟩ := setEpoch_sound hs
      have e := hn "TIME FIRST OBS(SEC PAST EPOCH)".toList (key_prefix hk (by inkeys)) (by decide)
      have o' := o.same (h' := h) line rfl rfl rfl rfl rfl rfl
      exact ⟨o'.degree, o'.sets, o'.gm, o'.radius, .inr ⟨line, by simp, .inl e⟩, o'.last⟩
    · obtain ⟨t, rfl, hn⟩ := setYear_sound hs
      have e := hn "TIME FIRST OBS (YEAR START)".toList (key_prefix hk (by inkeys)) (by decide)
      have o' := o.same (h' := h) line rfl rfl rfl rfl rfl rfl
      exact ⟨o'.degree, o'.sets, o'.gm, o'.radius, .inr ⟨line, by simp, .inr e⟩, o'.last⟩
    · obtain ⟨t, rfl, hn⟩ := setEpoch_sound hs
      have e := hn "TIME LAST OBS(SEC PAST EPOCH)".toList (key_prefix hk (by inkeys)) (by decide)
      have o' := o.same (h' := h) line rfl rfl rfl rfl rfl rfl
      exact ⟨o'.degree, o'.sets, o'.gm, o'.radius, o'.first, .inr ⟨line, by simp, .inl e⟩⟩
    · obtain ⟨t, rfl, hn⟩ := setYear_sound hs
      have e := hn "TIME LAST OBS (YEAR END)".toList (key_prefix hk (by inkeys)) (by decide)
      have o' := o.same (h' := h) line rfl rfl rfl rfl rfl rfl
      exact ⟨o'.degree, o'.sets, o'.gm, o'.radius, o'.first, .inr ⟨line, by simp, .inr e⟩⟩
    · obtain ⟨n, rfl, hn⟩ := setInt_sound hs
      have e := hn "MAXIMUM DEGREE".toList (key_prefix hk (by inkeys)) (by decide)
      have o' := o.same (h' := h) line rfl rfl rfl rfl rfl rfl
      exact ⟨by rintro m ⟨⟩; exact ⟨line, by simp, e⟩, o'.sets, o'.gm, o'.radius, o'.first, o'.last⟩
    · obtain ⟨n, rfl, hn⟩ := setNum_sound hs
      have e := hn "CONSTANT GM [M^3/S^2]".toList (key_prefix hk (by inkeys)) (by decide)
      have o' := o.same (h' := h) line rfl rfl rfl rfl rfl rfl
      exact ⟨o'.degree, o'.sets, by rintro m ⟨⟩; exact ⟨line, by simp, e⟩, o'.radius, o'.first, o'.last⟩
    · obtain ⟨n, rfl, hn⟩ := setNum_sound hs
      have e := hn "CONSTANT A [M]".toList (key_prefix hk (by inkeys)) (by decide)
      have o' := o.same (h' := h) line rfl rfl rfl rfl rfl rfl
      exact ⟨o'.degree, o'.sets, o'.gm, by rintro m ⟨⟩; exact ⟨line, by simp, e⟩, o'.first, o'.last⟩
    · obtain ⟨n, rfl, hn⟩ := setInt_sound hs
      have e := hn "NUMBER OF DATA SETS".toList (key_prefix hk (by inkeys)) (by decide)
      have o' := o.same (h' := h) line rfl rfl rfl rfl rfl rfl
      exact ⟨o'.degree, by rintro m ⟨⟩; exact ⟨line, by simp, e⟩, o'.gm, o'.radius, o'.first, o'.last⟩

theorem loop_err [DecidableEq T] (E : Env T) (n : Nat) (fin : In) (h : Data T) (e : Nat) (he : e ≠ 0) :
    loop E n fin e h = .ok (1, h) := by
  unfold loop
  simp only [he, ne_eq, not_false_eq_true, decide_true, Bool.or_true, if_true]

theorem loop_sound [DecidableEq T] (E : Env T) : ∀ (n : Nat) (rest : List Char) (h h' : Data T) (L : List (List Char)),
    Origin E h L → loop E n ⟨rest, false, false⟩ 0 h = .ok (0, h') →
    ∃ lines tail data, rest = textOf lines ++ ("END OF HEADER".toList ++ tail ++ '\n' :: data) ∧ lines.length + 2 ≤ n ∧
      (∀ line ∈ lines, '\n' ∉ line ∧ ∃ key ∈ knownKeys, key <+: line) ∧ '\n' ∉ tail ∧ Origin E h' (L ++ lines) := by
  intro n
  induction n with
  | zero =>
    intro rest h h' L o hl
    unfold loop at hl
    simp only at hl
    split at hl <;> cases hl
  | succ n ih =>
    intro rest h h' L o hl
    unfold loop at hl
    rcases getline_cases 124 rest with ⟨l, r, hr, hn, hlen, hg⟩ | ⟨l, hg⟩ | hg
    · simp only [hg] at hl
      rw [if_neg (by simp)] at hl
      cases n with
      | zero => cases hl
      | succ n =>
        simp only at hl
        split at hl
        · rename_i hk
          obtain ⟨tail, rfl⟩ := key_prefix hk (kw := "END OF HEADER".toList) (by inkeys)
          cases hl
          refine ⟨[], tail, r, by rw [hr]; rfl, by simp, by simp, fun h => hn (by simp [h]), by simpa using o⟩
        · rename_i hk
          obtain ⟨st, hst, hl⟩ := bind_eq_ok hl
          cases st with
          | stop h1 => cases hl
          | go e h1 =>
            by_cases he : e = 0
            · subst he
              simp only at hl
              obtain ⟨⟨k, hk'⟩, o'⟩ := step_origin o hst
              obtain ⟨lines, tail, data, e1, e2, e3, e4, e5⟩ := ih r h1 h' (L ++ [l]) o' hl
              refine ⟨l :: lines, tail, data, ?_, by simp; omega, ?_, e4, by simpa using e5⟩
              · rw [hr, e1]; simp [textOf]
              · intro line hline
                rcases List.mem_cons.mp hline with rfl | hline
                · exact ⟨hn, key_known hk' (by rintro rfl; exact hk hk')⟩
                · exact e3 line hline
            · simp only at hl
              rw [loop_err E _ _ _ _ he] at hl
              cases hl
    · simp only [hg] at hl
      rw [if_neg (by simp)] at hl
      cases n with
      | zero => cases hl
      | succ n =>
        simp only at hl
        split at hl
        · simp [In.good] at hl
        · obtain ⟨st, hst, hl⟩ := bind_eq_ok hl
          cases st with
          | stop h1 => cases hl
          | go e h1 =>
            simp only at hl
            unfold loop at hl
            simp only [In.getline, Bool.or_false, if_true] at hl
            rw [if_pos (by simp)] at hl
            cases hl
    · simp only at hl
      rw [if_pos (by simp [hg])] at hl
      cases hl

/-- C82: a file whose header is accepted has at most 98 lines, each beginning with a key of the format, and then a complete line
`END OF HEADER`. The maximum degree, the number of data sets, GM and the radius are unset or stand, behind a colon, in a line with
their key. The first and the last epoch are unset or the date (or the year) that stands in a line with their key. -/
theorem header_sound [DecidableEq T] (E : Env T) (file : Option (List Char)) (h : Data T) (hc : construct E file = .ok h) :
    ∃ lines tail data, file = some (textOf lines ++ ("END OF HEADER".toList ++ tail ++ '\n' :: data)) ∧ lines.length ≤ 98 ∧
      (∀ line ∈ lines, '\n' ∉ line ∧ ∃ key ∈ knownKeys, key <+: line) ∧ '\n' ∉ tail ∧
      (∀ n, h.maxDegree = some n → ∃ line ∈ lines, SaysInt "MAXIMUM DEGREE".toList n line) ∧
      (∀ n, h.dataSets = some n → ∃ line ∈ lines, SaysInt "NUMBER OF DATA SETS".toList n line) ∧
      (∀ v, h.gm = some v → ∃ line ∈ lines, SaysNum "CONSTANT GM [M^3/S^2]".toList v line) ∧
      (∀ v, h.re = some v → ∃ line ∈ lines, SaysNum "CONSTANT A [M]".toList v line) ∧
      (h.first = E.unset ∨ ∃ line ∈ lines, SaysDate E.date "TIME FIRST OBS(SEC PAST EPOCH)".toList h.first line ∨
        SaysYear E.newYear "TIME FIRST OBS (YEAR START)".toList h.first line) ∧
      (h.last = E.unset ∨ ∃ line ∈ lines, SaysDate E.date "TIME LAST OBS(SEC PAST EPOCH)".toList h.last line ∨
        SaysYear E.newYear "TIME LAST OBS (YEAR END)".toList h.last line) := by
  unfold construct at hc
  obtain ⟨⟨st, h1⟩, hr, hc⟩ := bind_eq_ok hc
  simp only at hc
  split at hc
  · cases hc
  · rename_i hst
    cases hc
    have hst : st = 0 := by omega
    subst hst
    cases file with
    | none => cases hr
    | some text =>
      obtain ⟨lines, tail, data, e1, e2, e3, e4, e5⟩ := loop_sound E 100 text _ h []
        ⟨by rintro n ⟨⟩, by rintro n ⟨⟩, by rintro n ⟨⟩, by rintro n ⟨⟩, .inl rfl, .inl rfl⟩ hr
      exact ⟨lines, tail, data, by rw [e1], by omega, e3, e4, e5.degree, e5.sets, e5.gm, e5.radius, e5.first, e5.last⟩

/-! ### Examples -/

/-- Dates of the example: nanoseconds after 2000-01-01 12:00:00. -/
def exDates : List (List Char × Int) :=
  [("2000-01-01 12:00:00".toList, 0), ("2006-01-01 00:00:00".toList, 189345600000000000),
    ("2006-01-01 18:00:00".toList, 189410400000000000)]

def exEnv : Env Int where
  date s := (exDates.find? fun p => p.1.isPrefixOf s).map (·.2)
  addNs t n := t + n
  newYear y := (y - 2000) * 31557600000000000
  unset := -1

/-- A header as in the files of the producer. -/
def exLines : List (List Char) := [
  "PRODUCER AGENCY               : GFZ".toList,
  "PRODUCER INSTITUTION          : GFZ".toList,
  "FILE TYPE ipAOD1BF            : 999".toList,
  "FILE FORMAT 0=BINARY 1=ASCII  : 1".toList,
  "NUMBER OF HEADER RECORDS      : 29".toList,
  "SOFTWARE VERSION              : atm_ocean_dealise.06".toList,
  "SOFTWARE LINK TIME            : Not Applicable".toList,
  "REFERENCE DOCUMENTATION       : GRACE De-aliasing ADD".toList,
  "SATELLITE NAME                : GRACE".toList,
  "SENSOR NAME                   : Not Applicable".toList,
  "TIME EPOCH (GPS TIME)         : 2000-01-01 12:00:00".toList,
  "TIME FIRST OBS(SEC PAST EPOCH): 189345600.000000 (2006-01-01 00:00:00)".toList,
  "TIME LAST OBS(SEC PAST EPOCH) : 189410400.000000 (2006-01-01 18:00:00)".toList,
  "NUMBER OF DATA RECORDS        : 526368".toList,
  "PRODUCT START CREATE TIME(UTC): 2017-06-30 09:45:55.000".toList,
  "FILESIZE (BYTES)              : 23163904".toList,
  "FILENAME                      : AOD1B_2006-01-01_X_06.asc".toList,
  "PROCESS LEVEL (1A OR 1B)      : 1B".toList,
  "PRESSURE TYPE (SP OR VI)      : VI".toList,
  "MAXIMUM DEGREE                : 180".toList,
  "COEFFICIENTS ERRORS (YES/NO)  : NO".toList,
  "COEFF. NORMALIZED (YES/NO)    : YES".toList,
  "CONSTANT GM [M^3/S^2]         : 0.39860044180000E+15".toList,
  "CONSTANT A [M]                : 0.63781366000000E+07".toList,
  "CONSTANT FLAT [-]             : 0.29825642000000E+03".toList,
  "CONSTANT OMEGA [RAD/S]        : 0.72921150000000E-04".toList,
  "NUMBER OF DATA SETS           : 32".toList,
  "DATA FORMAT (N,M,C,S)         : (2(I3,x),E15.9,x,E15.9)".toList]

/-- The header of the example is accepted and its members are as written. -/
theorem sample_read : (match construct exEnv (some (textOf exLines ++ ("END OF HEADER".toList ++ [] ++ '\n' :: []))) with
    | .ok h => h.agency == .ok "GFZ".toList && h.satellite == .ok "GRACE".toList && h.sensor == .ok "Not Applicable".toList &&
        h.level == .ok "1B".toList && h.pressure == .ok "VI".toList && h.fileType == some 999 && h.fileFormat == some 1 &&
        h.headerRecords == some 29 && h.dataRecords == some 526368 && h.maxDegree == some 180 && h.errors == some false &&
        h.normalized == some true && h.gm == some 398600441800000 && h.re == some 6378136.6 && h.flat == some 298.25642 &&
        h.omega == some 0.000072921150 && h.dataSets == some 32 && h.epoch == 0 && h.first == 189345600000000000 &&
        h.last == 189410400000000000
    | _ => false) = true := by decide +kernel

theorem dec_num {arg : List Char} {v : ℚ} (d : Dec) (rest : List Char) (hd : d.okb = true) (ht : arg = d.text ++ rest)
    (hv : d.value = v) (he : Ends rest) : NumIs arg v := ⟨d, rest, Dec.ok_of hd, hv, ht, he⟩

/-- Five lines of the example meet the hypotheses of `header_read_partial`. -/
theorem exHolds : Holds exEnv.date exEnv.addNs exEnv.newYear exEnv.unset
    [exLines[0], exLines[10], exLines[11], exLines[19], exLines[23]]
    [.agency "GFZ".toList, .epoch 0, .first 189345600000000000, .maxDegree 180, .radius 6378136.6] := by
  refine .cons (by decide) (by decide) ?_ (.cons (by decide) (by decide) ?_ (.cons (by decide) (by decide) ?_ (.cons (by decide)
    (by decide) ?_ (.cons (by decide) (by decide) ?_ .nil))))
  · exact ⟨"GFZ".toList, ⟨15, 1, by decide, by decide⟩, ⟨0, by decide, by decide, by decide, by decide, by decide⟩, by decide⟩
  · exact ⟨"2000-01-01 12:00:00".toList, ⟨9, 1, by decide, by decide⟩, by decide⟩
  · refine ⟨"189345600.000000 (2006-01-01 00:00:00)".toList, .inl ⟨⟨0, 1, by decide, by decide⟩, ?_⟩⟩
    exact ⟨⟨false, "189345600".toList, some "000000".toList, none⟩, 189345600000000000, " (".toList, "2006-01-01 00:00:00)".toList,
      Dec.ok_of (by decide), by decide +kernel, by decide, by decide, by intro c hc; simp at hc; subst hc; decide, by decide,
      ⟨'2', by decide, by decide⟩, by decide, by decide⟩
  · refine ⟨"180".toList, ⟨16, 1, by decide, by decide⟩, [], 0, ⟨false, "180".toList⟩, ⟨by decide, by decide⟩, by decide, by decide,
      by simp, by decide, by decide⟩
  · refine ⟨"0.63781366000000E+07".toList, ⟨8, 1, by decide, by decide⟩, ?_⟩
    exact dec_num ⟨false, "0".toList, some "63781366000000".toList, some ('E', some false, "07".toList)⟩ [] (by decide) (by decide)
      (by decide +kernel) (by simp [Ends])

example (data : List Char) : ∃ h, construct exEnv (some (textOf [exLines[0], exLines[10], exLines[11], exLines[19], exLines[23]] ++
      ("END OF HEADER".toList ++ [] ++ '\n' :: data))) = .ok h ∧ h.agency = .ok "GFZ".toList ∧ h.maxDegree = some 180 ∧
      h.re = some 6378136.6 ∧ h.epoch = 0 ∧ h.first = 189345600000000000 := by
  obtain ⟨h, h1, h2, _, _, _, _, _, _, _, _, h3, _, _, _, _, h4, _, _, h5, h6, _⟩ := header_read_partial exEnv exHolds (by decide)
    (by unfold Once; decide) (by unfold Once; decide) (by unfold Once; decide) (by unfold Once; decide) (by unfold Once; decide) [] data (by decide) (by decide)
  exact ⟨h, h1, h2, h3, h4, h5, h6⟩

theorem exHolds2 : Holds exEnv.date exEnv.addNs exEnv.newYear exEnv.unset [exLines[19], exLines[26]]
    [.maxDegree 180, .dataSets 32] := by
  refine .cons (by decide) (by decide) ?_ (.cons (by decide) (by decide) ?_ .nil)
  · exact ⟨"180".toList, ⟨16, 1, by decide, by decide⟩, [], 0, ⟨false, "180".toList⟩, ⟨by decide, by decide⟩, by decide, by decide,
      by simp, by decide, by decide⟩
  · exact ⟨"32".toList, ⟨11, 1, by decide, by decide⟩, [], 0, ⟨false, "32".toList⟩, ⟨by decide, by decide⟩, by decide, by decide,
      by simp, by decide, by decide⟩

/-- A whole tidal file. -/
example (name : List Char) (x : Nat → Nat → ℝ) : ∃ text h a cc' cs', construct exEnv (some text) = .ok h ∧ h.aod name text = .ok a ∧
    getTidal a ⟨3, 3, 4, x, x, 1, 1, true⟩ ⟨3, 3, 4, x, x, 1, 1, true⟩ 0 0 = .ok (0, cc', cs') ∧ cc'.C 0 0 = 3 / 2 ∧ cs'.C 0 0 = 2 := by
  obtain ⟨hd, lc, ls, _, _, h3, h4, h5, _⟩ := exTidal_file [] (by unfold ShortLine; decide)
  obtain ⟨h, a, cc', cs', e1, e2, e3, e4, e5⟩ := tidal_file_read_partial exEnv exHolds2 (by decide) (by unfold Once; decide) (by unfold Once; decide)
    (by unfold Once; decide) (by unfold Once; decide) (by unfold Once; decide) 180 32 rfl rfl 0 0 (by simp) (by simp) (by simp) h3 h4 h5
    name ⟨3, 3, 4, x, x, 1, 1, true⟩ ⟨3, 3, 4, x, x, 1, 1, true⟩ (by simp) (by simp) (by simp [Row.Triangle]) (by simp [Row.Triangle]) _ rfl
  refine ⟨_, h, a, cc', cs', e1, e2, e3, ?_, ?_⟩
  · rw [(e4 0 0 (by omega) (by simp)).1]; simp [lastValue, Row.In]
  · rw [(e5 0 0 (by omega) (by simp)).1]; simp [lastValue, Row.In]

/-! ### Failures -/

/-- The first line of a header decides the outcome when reading it is undefined or ends the program. -/
theorem first_line [DecidableEq T] (E : Env T) (line rest : List Char) (k : Key) (hk : keyOf line = some k) (hend : k ≠ .theEnd)
    (hl : line.length < 124) (hn : '\n' ∉ line) (h0 : Data T) (hh : h0 = { epoch := E.unset, first := E.unset, last := E.unset }) :
    (step E line h0 (some k) = .ub → construct E (some (line ++ '\n' :: rest)) = .ub) ∧
    (step E line h0 (some k) = .abort → construct E (some (line ++ '\n' :: rest)) = .abort) := by
  subst hh
  have e := getline_line 124 line rest hl hn
  constructor <;>
  · intro h
    unfold construct read
    simp only [In.start]
    unfold loop
    simp only [e]
    rw [if_neg (by simp), if_neg (by rw [hk]; simpa using hend), hk, h]
    rfl

/-- C82 fails for an empty text: a line such as `SATELLITE NAME   :  ` with blanks behind the colon gives a negative length
to `memcpy`: undefined behaviour, whatever the number of blanks. -/
theorem text_empty_fails [DecidableEq T] (E : Env T) (a b : Nat) (h : a + b < 100) (rest : List Char) :
    construct E (some (("SATELLITE NAME".toList ++ (blanks a ++ ':' :: blanks (b + 1))) ++ '\n' :: rest)) = .ub := by
  refine (first_line E _ rest .satellite (keyOf_key _ (by inkeys)) (by decide) (by simp [blanks]; omega) ?_ _ rfl).1 ?_
  · simp only [List.mem_append, List.mem_cons, blanks, List.mem_replicate, not_or]
    refine ⟨by decide, ?_, by decide, ?_⟩ <;> · rintro ⟨_, h⟩; revert h; decide
  · simp only [step, setText, at_ok 14 "SATELLITE NAME".toList _ rfl, Res.bind]
    have ht : ((blanks a ++ ':' :: blanks (b + 1)).reverse.takeWhile (fun c => c != ':')).reverse = blanks (b + 1) := by
      have e : (blanks a ++ ':' :: blanks (b + 1)).reverse = blanks (b + 1) ++ ':' :: blanks a := by simp [blanks]
      rw [e, List.takeWhile_append_of_pos (by
        intro c hc; simp only [bne_iff_ne, ne_eq]; rintro rfl; exact colon_blanks _ hc)]
      simp [blanks]
    unfold fieldSized
    rw [if_pos (by simp)]
    have hd := dropWhile_blanks (b + 1) [] (by simp)
    rw [List.append_nil] at hd
    simp only [ht, hd, if_true]
    unfold memcpyArena
    rw [if_pos (.inl (by simp [blanks]; omega))]

/-- C82 fails for long texts: the members have 20 bytes each and nothing checks the length. With the agency
`GeoForschungsZentrum` (20 letters) and the satellite `GRACE` the agency reads `GeoForschungsZentrumGRACE`. -/
theorem text_long_fails : (match construct exEnv (some (textOf ["PRODUCER AGENCY               : GeoForschungsZentrum".toList,
      "SATELLITE NAME                : GRACE".toList, "END OF HEADER".toList])) with
    | .ok h => h.agency == .ok "GeoForschungsZentrumGRACE".toList && h.satellite == .ok "GRACE".toList
    | _ => false) = true := by decide +kernel

/-- C82 fails for a radius whose colon is close to its key: `CONSTANT A [M] : 6378136.6` is searched for a colon from
column 22 on, and the search runs behind the end of the line. -/
theorem radius_column_fails : (match construct exEnv (some (textOf ["CONSTANT A [M] : 6378136.6".toList, "END OF HEADER".toList])) with
    | .ub => true
    | _ => false) = true := by decide +kernel

/-- C82 fails for a line without a colon: `MAXIMUM DEGREE 180` is searched for a colon behind the end of the line. -/
theorem colon_missing_fails : (match construct exEnv (some (textOf ["MAXIMUM DEGREE 180".toList, "END OF HEADER".toList])) with
    | .ub => true
    | _ => false) = true := by decide +kernel

/-- C82 fails for a tide that is not in the table: after the message the null pointer is used. -/
theorem wave_unknown_fails [DecidableEq T] (E : Env T) (name rest : List Char) (h0 : name ≠ []) (h1 : name.head? ≠ some ' ')
    (h2 : name.getLast? ≠ some ' ') (h3 : ':' ∉ name ∧ '\n' ∉ name) (h4 : name.length < 8)
    (hw : ∀ w ∈ Doodson.atmospheric, w.name ≠ String.ofList name) :
    construct E (some (("PARTIAL TIDE".toList ++ ([] ++ ':' :: (blanks 1 ++ (name ++ blanks 0)))) ++ '\n' :: rest)) = .ub := by
  refine (first_line E _ rest .wave (keyOf_key _ (by inkeys)) (by decide) (by simp [blanks]; omega) ?_ _ rfl).1 ?_
  · simp only [List.mem_append, List.mem_cons, not_or]
    exact ⟨by decide, by decide, by decide, by decide, h3.2, by decide⟩
  · simp only [step, setWave, at_ok 12 "PARTIAL TIDE".toList _ rfl, Res.bind]
    rw [fieldSized_ok _ _ 1 0 h0 h1 h2 h3.1]
    simp only []
    rw [if_neg (by push Not; constructor <;> omega), take_text]
    have : Doodson.findWaveEntry (String.ofList name) = none := by
      unfold Doodson.findWaveEntry
      rw [List.find?_eq_none]
      intro w hwm
      simpa using hw w hwm
    rw [this]

example (rest : List Char) : construct exEnv (some (("PARTIAL TIDE".toList ++ ([] ++ ':' :: (blanks 1 ++ ("Q1".toList ++ blanks 0)))) ++
    '\n' :: rest)) = .ub :=
  wave_unknown_fails exEnv "Q1".toList rest (by decide) (by decide) (by decide) (by decide) (by decide) (by decide +kernel)

/-- C82 fails for incomplete headers: a file that consists of `END OF HEADER` alone is accepted; the maximum degree, the number
of data sets, GM and the radius are uninitialised. -/
theorem header_incomplete_fails [DecidableEq T] (E : Env T) (data : List Char) :
    ∃ h, construct E (some ("END OF HEADER".toList ++ [] ++ '\n' :: data)) = .ok h ∧ h.maxDegree = none ∧ h.dataSets = none ∧
      h.gm = none ∧ h.re = none := by
  obtain ⟨h, h1, _, _, _, _, _, _, _, _, _, h2, h3, _, _, h4, h5, _⟩ := header_read_partial E (lines := []) (ss := []) .nil
    (by simp) (by simp [Once]) (by simp [Once]) (by simp [Once]) (by simp [Once]) (by simp [Once]) [] data (by simp) (by simp)
  exact ⟨h, h1, h2, h3, h4, h5⟩

/-- C82 fails for files with carriage returns: `COEFFICIENTS ERRORS (YES/NO)  : NO` followed by one counts three characters and
fails the assertion that they are `YES`. -/
theorem header_crlf_fails : (match construct exEnv (some (textOf ["COEFFICIENTS ERRORS (YES/NO)  : NO\r".toList, "END OF HEADER\r".toList])) with
    | .abort => true
    | _ => false) = true := by decide +kernel

/-- C82 fails for a date that cannot be read: instead of an error status the program ends, because the date library throws inside
a function that is `noexcept`. -/
theorem date_bad_fails [DecidableEq T] (E : Env T) (arg rest : List Char) (h1 : arg.head? ≠ some ' ') (h2 : '\n' ∉ arg)
    (hl : arg.length < 100) (hd : E.date arg = none) :
    construct E (some (("TIME EPOCH (GPS TIME)".toList ++ ([] ++ ':' :: (blanks 1 ++ arg))) ++ '\n' :: rest)) = .abort := by
  refine (first_line E _ rest .epoch (keyOf_key _ (by inkeys)) (by decide) (by simp [blanks]; omega) ?_ _ rfl).2 ?_
  · simp only [List.mem_append, List.mem_cons, not_or]
    exact ⟨by decide, by decide, by decide, by decide, h2⟩
  · simp only [step, at_ok 21 "TIME EPOCH (GPS TIME)".toList _ rfl, Res.bind]
    rw [field_ok _ _ 1 (by decide) h1]
    simp only [hd]

example (rest : List Char) : construct exEnv (some (("TIME EPOCH (GPS TIME)".toList ++ ([] ++ ':' :: (blanks 1 ++ "soon".toList))) ++
    '\n' :: rest)) = .abort :=
  date_bad_fails exEnv "soon".toList rest (by decide) (by decide) (by decide) (by decide)

end Verif.Aod1b.Head
