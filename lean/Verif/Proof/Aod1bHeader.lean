import Verif.Model.Aod1bHeader
import Verif.Spec.Aod1bHeader
import Verif.Proof.Chars
import Mathlib.Tactic.Linarith
/-
Lemmas about reading AOD1B headers.
-/
namespace Verif.Aod1b.Head
open Verif Verif.Chars

variable {T : Type}

/-! ### Keys -/

theorem not_prefix_append : ∀ {a b : List Char} (x : List Char), ¬ a <+: b → ¬ b <+: a → ¬ a <+: b ++ x := by
  intro a b x h1 h2 h3
  rcases List.prefix_or_prefix_of_prefix h3 (List.prefix_append b x) with h | h
  · exact h1 h
  · exact h2 h

theorem keys_apart : keys.Pairwise (fun p q => ¬ p.1 <+: q.1 ∧ ¬ q.1 <+: p.1) := by
  unfold keys
  decide +kernel

theorem find_apart : ∀ (l : List (List Char × Key)) (p : List Char × Key) (x : List Char),
    l.Pairwise (fun p q => ¬ p.1 <+: q.1 ∧ ¬ q.1 <+: p.1) → p ∈ l →
    l.find? (fun q => q.1.isPrefixOf (p.1 ++ x)) = some p := by
  intro l
  induction l with
  | nil => intro p x _ h; cases h
  | cons a l ih =>
    intro p x hp hm
    rw [List.pairwise_cons] at hp
    rcases List.mem_cons.mp hm with rfl | hm
    · rw [List.find?_cons_of_pos]
      exact List.isPrefixOf_iff_prefix.mpr ⟨x, rfl⟩
    · rw [List.find?_cons_of_neg]
      · exact ih p x hp.2 hm
      · rw [List.isPrefixOf_iff_prefix]
        exact not_prefix_append x (hp.1 p hm).1 (hp.1 p hm).2

theorem keyOf_key {kw : List Char} {k : Key} (x : List Char) (h : (kw, k) ∈ keys) : keyOf (kw ++ x) = some k := by
  unfold keyOf
  rw [find_apart keys (kw, k) x keys_apart h]
  rfl

/-! ### Fields -/

theorem dropWhile_blanks (b : Nat) (s : List Char) (h : s.head? ≠ some ' ') : (blanks b ++ s).dropWhile (fun c => c == ' ') = s := by
  induction b with
  | zero =>
    cases s with
    | nil => rfl
    | cons c s =>
      have : c ≠ ' ' := by rintro rfl; exact h rfl
      simp [blanks, this]
  | succ b ih =>
    simp only [blanks, List.replicate_succ, List.cons_append] at ih ⊢
    rw [List.dropWhile_cons_of_pos (by rfl)]
    exact ih

theorem colon_blanks (a : Nat) : ':' ∉ blanks a := by
  intro h
  have := (List.mem_replicate.mp h).2
  revert this; decide

theorem field_ok (p arg : List Char) (b : Nat) (hp : ':' ∉ p) (h : arg.head? ≠ some ' ') :
    field (p ++ ':' :: (blanks b ++ arg)) = .ok arg := by
  unfold field
  rw [List.dropWhile_append_of_pos (by intro c hc; simp only [bne_iff_ne, ne_eq]; rintro rfl; exact hp hc)]
  simp only [List.dropWhile, bne_self_eq_false, dropWhile_blanks b arg h]

theorem at_ok (k : Nat) (kw x : List Char) (h : kw.length = k) : at' k (kw ++ x) = .ok x := by
  unfold at'
  subst h
  rw [if_pos (by simp)]
  simp

theorem trim_blanks (v : List Char) (k : Nat) (h : v.getLast? ≠ some ' ') :
    ((v ++ blanks k).reverse.dropWhile (fun c => c == ' ')).length = v.length := by
  have e : (v ++ blanks k).reverse = blanks k ++ v.reverse := by simp [blanks]
  rw [e, dropWhile_blanks k _ (by rw [List.head?_reverse]; exact h)]
  simp

theorem fieldSized_ok (p v : List Char) (b k : Nat) (h0 : v ≠ []) (h1 : v.head? ≠ some ' ') (h2 : v.getLast? ≠ some ' ')
    (h3 : ':' ∉ v) : fieldSized (p ++ ':' :: (blanks b ++ (v ++ blanks k))) = .ok (v ++ blanks k, (v.length : Int)) := by
  have hno : ':' ∉ blanks b ++ (v ++ blanks k) := by
    simp only [List.mem_append, not_or]
    exact ⟨colon_blanks b, h3, colon_blanks k⟩
  have ht : ((p ++ ':' :: (blanks b ++ (v ++ blanks k))).reverse.takeWhile (fun c => c != ':')).reverse
      = blanks b ++ (v ++ blanks k) := by
    have e : (p ++ ':' :: (blanks b ++ (v ++ blanks k))).reverse
        = (blanks b ++ (v ++ blanks k)).reverse ++ ':' :: p.reverse := by simp
    rw [e, List.takeWhile_append_of_pos (by
      intro c hc; rw [List.mem_reverse] at hc; simp only [bne_iff_ne, ne_eq]; rintro rfl; exact hno hc)]
    simp
  unfold fieldSized
  rw [if_pos (by simp)]
  simp only [ht]
  have hv : (v ++ blanks k).head? ≠ some ' ' := by
    cases v with
    | nil => exact absurd rfl h0
    | cons c v => exact h1
  rw [dropWhile_blanks b _ hv, if_neg (by simp [h0]), trim_blanks v k h2]

theorem take_text (v x : List Char) : (v ++ x).take (v.length : Int).toNat = v := by simp

/-! ### Text members -/

/-- What the memory of the texts is after writing `v` at `off`. -/
def over (a : List Char) (off : Nat) (v : List Char) : List Char := a.take off ++ (v ++ a.drop (off + v.length))

theorem memcpy_ok (a : List Char) (off : Nat) (v x : List Char) (h : off + v.length ≤ a.length) :
    memcpyArena a off (v ++ x) v.length = .ok (over a off v) := by
  unfold memcpyArena
  rw [if_neg (by push Not; constructor <;> omega), take_text]
  simp [over]

theorem setText_ok {k off : Nat} {kw line arg v : List Char} (hk : HasKey kw line arg) (hkw : kw.length = k)
    (ht : TextIs arg v) (h : Data T) (ha : off + v.length ≤ h.arena.length) :
    setText k off line h = .ok (.go 0 { h with arena := over h.arena off v }) := by
  obtain ⟨a, b, rfl, hh⟩ := hk
  obtain ⟨n, rfl, h0, h2, h3, h4⟩ := ht
  have hv : v.head? ≠ some ' ' := by
    cases v with
    | nil => exact absurd rfl h0
    | cons c v => exact hh
  unfold setText
  rw [at_ok k kw _ hkw]
  simp only [Res.bind]
  rw [fieldSized_ok _ v b n h0 hv h2 h3]
  simp only [Res.bind]
  rw [memcpy_ok _ _ _ _ ha]

theorem setFlag_ok {k : Nat} {kw line arg : List Char} {b : Bool} (hk : HasKey kw line arg) (hkw : kw.length = k)
    (ht : TextIs arg (if b then "YES".toList else "NO".toList)) (put : Bool → Data T) (h : Data T) :
    setFlag k line put h = .ok (.go 0 (put b)) := by
  obtain ⟨a, b', rfl, hh⟩ := hk
  obtain ⟨n, rfl, h0, h2, h3, h4⟩ := ht
  unfold setFlag
  rw [at_ok k kw _ hkw]
  simp only [Res.bind]
  rw [fieldSized_ok _ _ b' n h0 (by cases b <;> decide) h2 h3]
  simp only [Res.bind]
  cases b
  · rw [if_pos (by decide)]
    exact if_pos (List.isPrefixOf_iff_prefix.mpr ⟨blanks n, rfl⟩)
  · rw [if_neg (by decide), if_pos (by decide)]
    exact if_pos (List.isPrefixOf_iff_prefix.mpr ⟨blanks n, rfl⟩)

/-! ### Numbers -/

/-- The pointer passed to `header_field` is in front of the colon. -/
theorem at_field {k : Nat} {kw line arg : List Char} (hk : HasKey kw line arg) (hkw : k ≤ kw.length) (hc : ':' ∉ kw) :
    (at' k line).bind field = .ok arg := by
  obtain ⟨a, b, rfl, hh⟩ := hk
  unfold at'
  rw [if_pos (by simp; omega)]
  simp only [Res.bind]
  rw [List.drop_append_of_le_length hkw, ← List.append_assoc]
  refine field_ok _ _ _ ?_ hh
  simp only [List.mem_append, not_or]
  exact ⟨fun h => hc (List.mem_of_mem_drop h), colon_blanks a⟩

theorem bind_assoc' {α β γ : Type} (x : Res α) (f : α → Res β) (g : β → Res γ) :
    (x.bind fun a => (f a).bind g) = (x.bind f).bind g := by cases x <;> rfl

theorem setInt_ok {k : Nat} {kw line arg : List Char} {n : Int} (hk : HasKey kw line arg) (hkw : k ≤ kw.length)
    (hc : ':' ∉ kw) (ht : IntIs arg n) (put : Int → Data T) (h : Data T) :
    setInt k line put h = .ok (.go 0 (put n)) := by
  have e := at_field hk hkw hc
  obtain ⟨a, b, rfl, hh⟩ := hk
  obtain ⟨rest, hb⟩ := ht
  unfold setInt
  rw [bind_assoc', e]
  have := fromCharsInt_text hb
  obtain ⟨m, d, h1, h2, h3, h4, h5⟩ := hb
  have hs : skipWs arg = arg := by
    have := skipWs_blanks 0 arg hh
    simpa using this
  rw [hs] at this
  simp only [Res.bind, this]

theorem num_from {arg : List Char} {v : ℚ} (hn : NumIs arg v) : ∃ rest, fromCharsDouble arg = some (v, rest) := by
  obtain ⟨d, rest, h1, rfl, rfl, h4⟩ := hn
  exact ⟨_, fromCharsDouble_text d h1 rest h4⟩

theorem setNum_ok {k : Nat} {kw line arg : List Char} {v : ℚ} (hk : HasKey kw line arg) (hkw : k ≤ kw.length)
    (hc : ':' ∉ kw) (ht : NumIs arg v) (put : ℚ → Data T) (h : Data T) :
    setNum k line put h = .ok (.go 0 (put v)) := by
  have e := at_field hk hkw hc
  obtain ⟨rest, hb⟩ := num_from ht
  unfold setNum
  rw [bind_assoc', e]
  simp only [Res.bind, hb]

theorem nanos_ok {sec : ℚ} {ns : Int} (h : sec * 1000000000 = ns) (hb : |ns| < 9223372036854775808) : nanos sec = .ok ns := by
  unfold nanos
  simp only [h, Int.ceil_intCast, Int.floor_intCast, ite_self]
  rw [abs_lt] at hb
  rw [if_pos (by omega)]

theorem setEpoch_ok [DecidableEq T] (E : Env T) {k : Nat} {kw line arg : List Char} {t : T} (hk : HasKey kw line arg) (hkw : k ≤ kw.length)
    (hc : ':' ∉ kw) (put : T → Data T) (h : Data T) (ht : TimeIs E.date E.addNs h.epoch arg t) :
    setEpoch E k line put h = .ok (.go 0 (put t)) := by
  have e := at_field hk hkw hc
  obtain ⟨d, ns, mid, text, h1, h2, h3, rfl, h5, h6, h7, h8, h9⟩ := ht
  unfold setEpoch
  rw [bind_assoc', e]
  simp only [Res.bind, fromCharsDouble_text d h1 _ h5, nanos_ok h2 h3]
  have hd : (mid ++ text).dropWhile (fun c => !isDig c) = text := by
    rw [List.dropWhile_append_of_pos (by intro c hc; simp [h6 c hc])]
    obtain ⟨c, hc, hcd⟩ := h7
    cases text with
    | nil => cases hc
    | cons c' r =>
      simp only [List.head?_cons, Option.some.injEq] at hc
      subst hc
      rw [List.dropWhile_cons_of_neg (by simp [hcd])]
  obtain ⟨c, hc, hcd⟩ := h7
  cases text with
  | nil => cases hc
  | cons c' r => simp only [hd, h8, h9]; simp

theorem setYear_ok (E : Env T) {k : Nat} {kw line arg : List Char} {y : Int} (hk : HasKey kw line arg) (hkw : k ≤ kw.length)
    (hc : ':' ∉ kw) (ht : IntIs arg y) (put : T → Data T) :
    setYear E k line put = .ok (.go 0 (put (E.newYear y))) := by
  have e := at_field hk hkw hc
  obtain ⟨a, b, rfl, hh⟩ := hk
  obtain ⟨rest, hb⟩ := ht
  unfold setYear
  rw [bind_assoc', e]
  have := fromCharsInt_text hb
  have hs : skipWs arg = arg := by
    have := skipWs_blanks 0 arg hh
    simpa using this
  rw [hs] at this
  simp only [Res.bind, this]

/-! ### The tide -/

theorem find_wave (w : Doodson.Wave) (h : w ∈ Doodson.atmospheric) : Doodson.findWaveEntry w.name = some w := by
  have : ∀ w ∈ Doodson.atmospheric, Doodson.findWaveEntry w.name = some w := by decide +kernel
  exact this w h

theorem setWave_ok {line arg : List Char} {w : Doodson.Wave} (hk : HasKey "PARTIAL TIDE".toList line arg)
    (ht : TextIs arg w.name.toList) (hl : w.name.toList.length < 8) (hw : w ∈ Doodson.atmospheric) (h : Data T) :
    setWave line h = .ok (.go 0 { h with wave := some w }) := by
  obtain ⟨a, b, rfl, hh⟩ := hk
  obtain ⟨n, rfl, h0, h2, h3, h4⟩ := ht
  have hv : w.name.toList.head? ≠ some ' ' := by
    cases hn : w.name.toList with
    | nil => exact absurd hn h0
    | cons c v => rw [hn] at hh; exact hh
  unfold setWave
  rw [at_ok 12 "PARTIAL TIDE".toList _ rfl]
  simp only [Res.bind]
  rw [fieldSized_ok _ _ b n h0 hv h2 h3]
  simp only [Res.bind]
  rw [if_neg (by push Not; constructor <;> omega), take_text, String.ofList_toList, find_wave w hw]

/-! ### A line -/

/-- The members after a setting. -/
def put (h : Data T) : Setting T → Data T
  | .agency v => { h with arena := over h.arena 0 v }
  | .satellite v => { h with arena := over h.arena 20 v }
  | .sensor v => { h with arena := over h.arena 40 v }
  | .level v => { h with arena := over h.arena 60 v }
  | .pressure v => { h with arena := over h.arena 64 v }
  | .fileType n => { h with fileType := some n }
  | .fileFormat n => { h with fileFormat := some n }
  | .headerRecords n => { h with headerRecords := some n }
  | .dataRecords n => { h with dataRecords := some n }
  | .maxDegree n => { h with maxDegree := some n }
  | .dataSets n => { h with dataSets := some n }
  | .errors b => { h with errors := some b }
  | .normalized b => { h with normalized := some b }
  | .gm v => { h with gm := some v }
  | .radius v => { h with re := some v }
  | .flat v => { h with flat := some v }
  | .omega v => { h with omega := some v }
  | .epoch t => { h with epoch := t }
  | .first t => { h with first := t }
  | .last t => { h with last := t }
  | .wave w => { h with wave := some w }
  | .other => h

theorem HasKey.keyOf {kw line arg : List Char} {k : Key} (h : HasKey kw line arg) (hk : (kw, k) ∈ keys) :
    Head.keyOf line = some k := by
  obtain ⟨a, b, rfl, _⟩ := h
  exact keyOf_key _ hk

macro "inkeys" : tactic => `(tactic| (unfold keys; simp only [List.mem_cons, true_or, or_true]))

theorem over_length (a : List Char) (off : Nat) (v : List Char) (h : off + v.length ≤ a.length) :
    (over a off v).length = a.length := by
  unfold over
  simp only [List.length_append, List.length_take, List.length_drop]
  omega

theorem put_length (h : Data T) (s : Setting T) (e : T) (E : Env T) (line : List Char)
    (hg : Gives E.date E.addNs E.newYear e line s) (hl : h.arena.length = 80) : (put h s).arena.length = 80 := by
  cases s <;> simp only [put, Gives] at * <;> first
    | exact hl
    | (obtain ⟨arg, _, _, hv⟩ := hg
       rw [over_length _ _ _ (by omega), hl])

/-- C82, one line: it does what it gives, and it is not the end of the header. -/
theorem step_gives [DecidableEq T] (E : Env T) (h : Data T) {line : List Char} {s : Setting T}
    (hg : Gives E.date E.addNs E.newYear h.epoch line s) (hl : h.arena.length = 80) :
    keyOf line ≠ some .theEnd ∧ step E line h (keyOf line) = .ok (.go 0 (put h s)) := by
  cases s with
  | agency v =>
    obtain ⟨arg, hk, ht, hv⟩ := hg
    rw [hk.keyOf (k := .agency) (by inkeys)]
    exact ⟨by simp, setText_ok hk rfl ht h (by omega)⟩
  | satellite v =>
    obtain ⟨arg, hk, ht, hv⟩ := hg
    rw [hk.keyOf (k := .satellite) (by inkeys)]
    exact ⟨by simp, setText_ok hk rfl ht h (by omega)⟩
  | sensor v =>
    obtain ⟨arg, hk, ht, hv⟩ := hg
    rw [hk.keyOf (k := .sensor) (by inkeys)]
    exact ⟨by simp, setText_ok hk rfl ht h (by omega)⟩
  | level v =>
    obtain ⟨arg, hk, ht, hv⟩ := hg
    rw [hk.keyOf (k := .level) (by inkeys)]
    exact ⟨by simp, setText_ok hk rfl ht h (by omega)⟩
  | pressure v =>
    obtain ⟨arg, hk | hk, ht, hv⟩ := hg
    · rw [hk.keyOf (k := .pressure) (by inkeys)]
      exact ⟨by simp, setText_ok hk rfl ht h (by omega)⟩
    · rw [hk.keyOf (k := .pressureTidal) (by inkeys)]
      exact ⟨by simp, setText_ok hk rfl ht h (by omega)⟩
  | fileType n =>
    obtain ⟨arg, hk, ht⟩ := hg
    rw [hk.keyOf (k := .fileType) (by inkeys)]
    exact ⟨by simp, setInt_ok hk (by decide) (by decide) ht _ h⟩
  | fileFormat n =>
    obtain ⟨arg, hk, ht⟩ := hg
    rw [hk.keyOf (k := .fileFormat) (by inkeys)]
    exact ⟨by simp, setInt_ok hk (by decide) (by decide) ht _ h⟩
  | headerRecords n =>
    obtain ⟨arg, hk, ht⟩ := hg
    rw [hk.keyOf (k := .headerRecords) (by inkeys)]
    exact ⟨by simp, setInt_ok hk (by decide) (by decide) ht _ h⟩
  | dataRecords n =>
    obtain ⟨arg, hk, ht⟩ := hg
    rw [hk.keyOf (k := .dataRecords) (by inkeys)]
    exact ⟨by simp, setInt_ok hk (by decide) (by decide) ht _ h⟩
  | maxDegree n =>
    obtain ⟨arg, hk, ht⟩ := hg
    rw [hk.keyOf (k := .maxDegree) (by inkeys)]
    exact ⟨by simp, setInt_ok hk (by decide) (by decide) ht _ h⟩
  | dataSets n =>
    obtain ⟨arg, hk, ht⟩ := hg
    rw [hk.keyOf (k := .dataSets) (by inkeys)]
    exact ⟨by simp, setInt_ok hk (by decide) (by decide) ht _ h⟩
  | errors b =>
    obtain ⟨arg, hk, ht⟩ := hg
    rw [hk.keyOf (k := .errors) (by inkeys)]
    exact ⟨by simp, setFlag_ok hk rfl ht (fun b => { h with errors := some b }) h⟩
  | normalized b =>
    obtain ⟨arg, hk, ht⟩ := hg
    rw [hk.keyOf (k := .normalized) (by inkeys)]
    exact ⟨by simp, setFlag_ok hk rfl ht (fun b => { h with normalized := some b }) h⟩
  | gm v =>
    obtain ⟨arg, hk, ht⟩ := hg
    rw [hk.keyOf (k := .gm) (by inkeys)]
    exact ⟨by simp, setNum_ok hk (by decide) (by decide) ht _ h⟩
  | radius v =>
    obtain ⟨arg, hk, ht⟩ := hg
    have hk' : keyOf line = some .radius := by
      obtain ⟨a, b, rfl, _⟩ := hk
      rw [List.append_assoc]
      exact keyOf_key _ (by inkeys)
    rw [hk']
    exact ⟨by simp, setNum_ok hk (by decide) (by decide) ht _ h⟩
  | flat v =>
    obtain ⟨arg, hk, ht⟩ := hg
    rw [hk.keyOf (k := .flat) (by inkeys)]
    exact ⟨by simp, setNum_ok hk (by decide) (by decide) ht _ h⟩
  | omega v =>
    obtain ⟨arg, hk, ht⟩ := hg
    rw [hk.keyOf (k := .omega) (by inkeys)]
    exact ⟨by simp, setNum_ok hk (by decide) (by decide) ht _ h⟩
  | epoch t =>
    obtain ⟨arg, hk, ht⟩ := hg
    rw [hk.keyOf (k := .epoch) (by inkeys)]
    refine ⟨by simp, ?_⟩
    simp only [step]
    rw [bind_assoc', at_field hk (by decide) (by decide)]
    simp only [Res.bind, ht]
    rfl
  | first t =>
    obtain ⟨arg, ⟨hk, ht⟩ | ⟨y, hk, ht, rfl⟩⟩ := hg
    · rw [hk.keyOf (k := .first) (by inkeys)]
      exact ⟨by simp, setEpoch_ok E (k := 30) hk (by decide) (by decide) (fun t => { h with first := t }) h ht⟩
    · rw [hk.keyOf (k := .firstYear) (by inkeys)]
      exact ⟨by simp, setYear_ok E (k := 27) hk (by decide) (by decide) ht (fun t => { h with first := t })⟩
  | last t =>
    obtain ⟨arg, ⟨hk, ht⟩ | ⟨y, hk, ht, rfl⟩⟩ := hg
    · rw [hk.keyOf (k := .last) (by inkeys)]
      exact ⟨by simp, setEpoch_ok E (k := 29) hk (by decide) (by decide) (fun t => { h with last := t }) h ht⟩
    · rw [hk.keyOf (k := .lastYear) (by inkeys)]
      exact ⟨by simp, setYear_ok E (k := 24) hk (by decide) (by decide) ht (fun t => { h with last := t })⟩
  | wave w =>
    obtain ⟨arg, hk, ht, hl, hw⟩ := hg
    rw [hk.keyOf (k := .wave) (by inkeys)]
    exact ⟨by simp, setWave_ok hk ht hl hw h⟩
  | other =>
    obtain ⟨key, hk, rest, rfl⟩ := hg
    unfold ignored at hk
    simp only [List.mem_cons, List.not_mem_nil, or_false] at hk
    rcases hk with rfl | rfl | rfl | rfl | rfl | rfl | rfl | rfl | rfl
    · rw [keyOf_key (k := .institution) _ (by inkeys)]; exact ⟨by simp, rfl⟩
    · rw [keyOf_key (k := .version) _ (by inkeys)]; exact ⟨by simp, rfl⟩
    · rw [keyOf_key (k := .linkTime) _ (by inkeys)]; exact ⟨by simp, rfl⟩
    · rw [keyOf_key (k := .reference) _ (by inkeys)]; exact ⟨by simp, rfl⟩
    · rw [keyOf_key (k := .startCreate) _ (by inkeys)]; exact ⟨by simp, rfl⟩
    · rw [keyOf_key (k := .endCreate) _ (by inkeys)]; exact ⟨by simp, rfl⟩
    · rw [keyOf_key (k := .fileSize) _ (by inkeys)]; exact ⟨by simp, rfl⟩
    · rw [keyOf_key (k := .fileName) _ (by inkeys)]; exact ⟨by simp, rfl⟩
    · rw [keyOf_key (k := .format) _ (by inkeys)]; exact ⟨by simp, rfl⟩

/-! ### The texts -/

def pad (n : Nat) (v : List Char) : List Char := v ++ List.replicate (n - v.length) '\x00'

/-- The memory of the texts. -/
def arenaOf (a b c d e : List Char) : List Char := pad 20 a ++ (pad 20 b ++ (pad 20 c ++ (pad 4 d ++ pad 16 e)))

theorem pad_length {n : Nat} {v : List Char} (h : v.length ≤ n) : (pad n v).length = n := by
  unfold pad; simp; omega

theorem over_append_right (p q : List Char) (off : Nat) (v : List Char) : over (p ++ q) (p.length + off) v = p ++ over q off v := by
  unfold over
  rw [List.take_length_add_append, show p.length + off + v.length = p.length + (off + v.length) by omega,
    List.drop_length_add_append]
  simp

theorem over_pad (n : Nat) (v q : List Char) (h : v.length ≤ n) : over (pad n [] ++ q) 0 v = pad n v ++ q := by
  unfold over pad
  simp only [List.take_zero, List.nil_append, List.length_nil, Nat.sub_zero, Nat.zero_add, List.append_assoc]
  rw [List.drop_append_of_le_length (by simpa using h), List.drop_replicate]

theorem over_a {b c d e v : List Char} (h : v.length < 20) :
    over (arenaOf [] b c d e) 0 v = arenaOf v b c d e := over_pad 20 v _ (by omega)

theorem over_b {a c d e v : List Char} (ha : a.length < 20) (h : v.length < 20) :
    over (arenaOf a [] c d e) 20 v = arenaOf a v c d e := by
  have := over_append_right (pad 20 a) (pad 20 [] ++ (pad 20 c ++ (pad 4 d ++ pad 16 e))) 0 v
  rw [pad_length (by omega), over_pad 20 v _ (by omega)] at this
  exact this

theorem over_c {a b d e v : List Char} (ha : a.length < 20) (hb : b.length < 20) (h : v.length < 20) :
    over (arenaOf a b [] d e) 40 v = arenaOf a b v d e := by
  have := over_append_right (pad 20 a ++ pad 20 b) (pad 20 [] ++ (pad 4 d ++ pad 16 e)) 0 v
  rw [List.length_append, pad_length (by omega), pad_length (by omega), over_pad 20 v _ (by omega)] at this
  unfold arenaOf
  rw [← List.append_assoc, this, List.append_assoc]

theorem over_d {a b c e v : List Char} (ha : a.length < 20) (hb : b.length < 20) (hc : c.length < 20) (h : v.length < 4) :
    over (arenaOf a b c [] e) 60 v = arenaOf a b c v e := by
  have := over_append_right (pad 20 a ++ (pad 20 b ++ pad 20 c)) (pad 4 [] ++ pad 16 e) 0 v
  simp only [List.length_append] at this
  rw [pad_length (by omega), pad_length (by omega), pad_length (by omega), over_pad 4 v _ (by omega)] at this
  simpa [arenaOf, List.append_assoc] using this

theorem over_e {a b c d v : List Char} (ha : a.length < 20) (hb : b.length < 20) (hc : c.length < 20) (hd : d.length < 4)
    (h : v.length < 16) : over (arenaOf a b c d []) 64 v = arenaOf a b c d v := by
  have := over_append_right (pad 20 a ++ (pad 20 b ++ (pad 20 c ++ pad 4 d))) (pad 16 [] ++ []) 0 v
  simp only [List.length_append] at this
  rw [pad_length (by omega), pad_length (by omega), pad_length (by omega), pad_length (by omega), over_pad 16 v _ (by omega)] at this
  simpa [arenaOf, List.append_assoc] using this

theorem cstr_pad (p q v : List Char) (n : Nat) (h : v.length < n) (hz : '\x00' ∉ v) :
    cstrAt (p ++ (pad n v ++ q)) p.length = .ok v := by
  unfold cstrAt
  simp only [List.drop_left]
  obtain ⟨k, hk⟩ : ∃ k, n - v.length = k + 1 := ⟨n - v.length - 1, by omega⟩
  unfold pad
  rw [hk, List.replicate_succ, if_pos (by simp), List.append_assoc, List.takeWhile_append_of_pos (by
    intro c hc; simp only [bne_iff_ne, ne_eq]; rintro rfl; exact hz hc)]
  simp

/-! ### Reading lines -/

theorem getline_line (max : Nat) (line : List Char) (rest : List Char) (hl : line.length < max) (hn : '\n' ∉ line) :
    (⟨line ++ '\n' :: rest, false, false⟩ : In).getline max = (line, true, ⟨rest, false, false⟩) := by
  have h1 : (line ++ '\n' :: rest).takeWhile (fun c => decide (c ≠ '\n')) = line := by
    rw [List.takeWhile_append_of_pos]
    · simp
    · intro c hc; simp only [ne_eq, decide_eq_true_eq]; rintro rfl; exact hn hc
  have h2 : (line ++ '\n' :: rest).dropWhile (fun c => decide (c ≠ '\n')) = '\n' :: rest := by
    rw [List.dropWhile_append_of_pos]
    · simp
    · intro c hc; simp only [ne_eq, decide_eq_true_eq]; rintro rfl; exact hn hc
  unfold In.getline
  simp only [Bool.false_eq_true, if_false, Bool.or_self, h1, h2, hl, if_true]

theorem getline_cases (max : Nat) (rest : List Char) :
    (∃ l r, rest = l ++ '\n' :: r ∧ '\n' ∉ l ∧ l.length < max ∧ (⟨rest, false, false⟩ : In).getline max = (l, true, ⟨r, false, false⟩)) ∨
    (∃ l, (⟨rest, false, false⟩ : In).getline max = (l, true, ⟨[], true, false⟩)) ∨
    ((⟨rest, false, false⟩ : In).getline max).2.1 = false := by
  have hsplit : rest = rest.takeWhile (fun c => decide (c ≠ '\n')) ++ rest.dropWhile (fun c => decide (c ≠ '\n')) :=
    (List.takeWhile_append_dropWhile).symm
  have hno : '\n' ∉ rest.takeWhile (fun c => decide (c ≠ '\n')) := by
    intro h
    have := takeWhile_all rest _ h
    simp at this
  have hhead : ∀ c r, rest.dropWhile (fun c => decide (c ≠ '\n')) = c :: r → c = '\n' := by
    intro c r h
    have := List.head?_dropWhile_not (fun c => decide (c ≠ '\n')) rest
    rw [h] at this
    simpa using this
  unfold In.getline
  simp only [Bool.or_self, Bool.false_eq_true, if_false]
  generalize hL : rest.takeWhile (fun c => decide (c ≠ '\n')) = L at *
  generalize hD : rest.dropWhile (fun c => decide (c ≠ '\n')) = D at *
  by_cases hlen : L.length < max
  · rw [if_pos hlen]
    cases D with
    | nil =>
      right
      by_cases hl : L = []
      · rw [if_pos hl]; exact .inr rfl
      · rw [if_neg hl]; exact .inl ⟨L, rfl⟩
    | cons c r =>
      left
      refine ⟨L, r, ?_, hno, hlen, rfl⟩
      rw [← hhead c r rfl]; exact hsplit
  · rw [if_neg hlen]; exact .inr (.inr rfl)

end Verif.Aod1b.Head
