import Verif.Proof.Doodson
/-
C13, C14, C16, C17, C70: Doodson constituents as text, and the built-in wave tables.
-/
namespace Verif.Doodson
open Verif

/-! ### C13 -/

/-- C13: a constituent in range is written as its text form, followed by a NUL, in a buffer of at least 8
bytes. -/
theorem doodson_str_renders {d : DC} (h : InRange d) {size : Nat} (hs : 8 ≤ size) :
    ∃ s, str d size true = .ok (s ++ [0]) ∧ Renders s d := by
  obtain ⟨h0, h1, h2, h3, h4, h5⟩ := h
  refine ⟨[int2char d.i0, int2char (d.i1 + 5), int2char (d.i2 + 5), 46, int2char (d.i3 + 5),
    int2char (d.i4 + 5), int2char (d.i5 + 5)], ?_, ?_⟩
  · unfold str
    rw [if_neg (by omega)]
    rfl
  · exact ⟨_, _, _, _, _, _, rfl, denotes_int2char h0, denotes_int2char h1, denotes_int2char h2,
      denotes_int2char h3, denotes_int2char h4, denotes_int2char h5⟩

/-- C13: parsing a text form (whatever follows it in memory) gives the multipliers it denotes. -/
theorem doodson_parse_renders {s : List Int} {d : DC} (h : Renders s d) (rest : List Int) :
    ∃ d', fromChars (s ++ rest) = .ok d' ∧ SameMultipliers d' d ∧ d'.pifac = 0 := by
  obtain ⟨c0, c1, c2, c3, c4, c5, rfl, h0, h1, h2, h3, h4, h5⟩ := h
  have key : ∀ {c v : Int}, Denotes c v → char2int c = .ok v := by
    intro c v hd
    rw [denotes_eq hd]
    exact char2int_int2char (denotes_digit hd)
  refine ⟨_, fromChars_of (key h0) (key h1) (key h2) (key h3) (key h4) (key h5), ?_, rfl⟩
  simp [SameMultipliers]

/-- C13: writing a constituent in range and parsing the text gives back its multipliers. -/
theorem doodson_roundtrip {d : DC} (h : InRange d) {size : Nat} (hs : 8 ≤ size) :
    ∃ s d', str d size true = .ok s ∧ fromChars s = .ok d' ∧ SameMultipliers d' d := by
  obtain ⟨s, h1, h2⟩ := doodson_str_renders h hs
  obtain ⟨d', h3, h4, _⟩ := doodson_parse_renders h2 [0]
  exact ⟨_, d', h1, h3, h4⟩

/-- C13: whatever the parser accepts is, upper case folded to lower, the text form of the result, and
the result is written as exactly this text. -/
theorem doodson_parse_accepts {mem : List Int} {d : DC} (h : fromChars mem = .ok d) :
    InRange d ∧ Renders (fold (mem.take 7)) d ∧
      ∀ size, 8 ≤ size → str d size true = .ok (fold (mem.take 7) ++ [0]) := by
  obtain ⟨c0, c1, c2, c3, c4, c5, rest, rfl, h0, h1, h2, h3, h4, h5, _⟩ := fromChars_inv h
  have e : fold ((c0 :: c1 :: c2 :: 46 :: c3 :: c4 :: c5 :: rest).take 7) =
      [toLower c0, toLower c1, toLower c2, 46, toLower c3, toLower c4, toLower c5] := rfl
  refine ⟨⟨char2int_digit h0, char2int_digit h1, char2int_digit h2, char2int_digit h3,
    char2int_digit h4, char2int_digit h5⟩, ?_, ?_⟩
  · rw [e]
    exact ⟨_, _, _, _, _, _, rfl, char2int_ok h0, char2int_ok h1, char2int_ok h2, char2int_ok h3,
      char2int_ok h4, char2int_ok h5⟩
  · intro size hs
    unfold str
    rw [if_neg (by omega), e]
    simp only [if_true, toLower]
    rw [denotes_eq (char2int_ok h0), denotes_eq (char2int_ok h1), denotes_eq (char2int_ok h2),
      denotes_eq (char2int_ok h3), denotes_eq (char2int_ok h4), denotes_eq (char2int_ok h5)]
    rfl

/-- C13: on seven readable characters the parser either returns or throws. -/
theorem doodson_parse_defined {mem : List Int} (h : 7 ≤ mem.length) :
    (∃ d, fromChars mem = .ok d) ∨ fromChars mem = .throw := by
  match mem, h with
  | c0 :: c1 :: c2 :: c3 :: c4 :: c5 :: c6 :: rest, _ =>
    rw [fromChars_cons]
    rcases char2int_cases c0 with ⟨_, e⟩ | e <;> rw [e] <;> simp only [Res.bind_ok, Res.bind_throw]
    · rcases char2int_cases c1 with ⟨_, e⟩ | e <;> rw [e] <;> simp only [Res.bind_ok, Res.bind_throw]
      · rcases char2int_cases c2 with ⟨_, e⟩ | e <;> rw [e] <;> simp only [Res.bind_ok, Res.bind_throw]
        · rcases char2int_cases c4 with ⟨_, e⟩ | e <;> rw [e] <;> simp only [Res.bind_ok, Res.bind_throw]
          · rcases char2int_cases c5 with ⟨_, e⟩ | e <;> rw [e] <;> simp only [Res.bind_ok, Res.bind_throw]
            · rcases char2int_cases c6 with ⟨_, e⟩ | e <;> rw [e] <;> simp only [Res.bind_ok, Res.bind_throw]
              · split_ifs <;> simp
              · simp
            · simp
          · simp
        · simp
      · simp
    · simp

/-- C13 on a concrete case: T2 is "272.556"; S5 is "5a0.555". -/
example : InRange ⟨2, 2, -3, 0, 0, 1, 0⟩ ∧ str ⟨2, 2, -3, 0, 0, 1, 0⟩ 8 true = .ok (cstr "272.556") ∧
    fromChars (cstr "272.556") = .ok ⟨2, 2, -3, 0, 0, 1, 0⟩ ∧
    str ⟨5, 5, -5, 0, 0, 0, 0⟩ 8 true = .ok (cstr "5a0.555") ∧
    fromChars (cstr "5A0.555") = .ok ⟨5, 5, -5, 0, 0, 0, 0⟩ := by
  refine ⟨?_, by decide +kernel, by decide +kernel, by decide +kernel, by decide +kernel⟩
  simp [InRange, Digit]

/-! ### C14 -/

/-- C14 (partial): writing and parsing back restores the multipliers exactly for the constituents in
range. The full property asks that no text is produced outside this range; see `doodson_range_fails`. -/
theorem doodson_roundtrip_iff_partial (d : DC) {size : Nat} (hs : 8 ≤ size) :
    (∃ s d', str d size true = .ok s ∧ fromChars s = .ok d' ∧ SameMultipliers d' d) ↔ InRange d := by
  constructor
  · rintro ⟨s, d', _, h2, h3⟩
    obtain ⟨h4, _⟩ := doodson_parse_accepts h2
    obtain ⟨e0, e1, e2, e3, e4, e5⟩ := h3
    unfold InRange at h4 ⊢
    rw [e0, e1, e2, e3, e4, e5] at h4
    exact h4
  · intro h; exact doodson_roundtrip h hs

/-- C14: inside the range two different sets of multipliers never share a text. -/
theorem doodson_str_injective {d d' : DC} (h : InRange d) (h' : InRange d') {size : Nat} (hs : 8 ≤ size)
    (e : str d size true = str d' size true) : SameMultipliers d d' := by
  obtain ⟨s, x, h1, h2, h3⟩ := doodson_roundtrip h hs
  obtain ⟨s', x', h1', h2', h3'⟩ := doodson_roundtrip h' hs
  rw [e, h1'] at h1
  injection h1 with h1
  subst h1
  rw [h2'] at h2
  injection h2 with h2
  subst h2
  unfold SameMultipliers at *
  omega

/-- C14 fails: multiplier 23 is written as `n`, the character of -13, so two different constituents have
the same text and the parser returns the wrong one. -/
theorem doodson_range_fails : ∃ d d' : DC, ¬ SameMultipliers d d' ∧
    ∃ s, str d 8 true = .ok s ∧ str d' 8 true = .ok s ∧ fromChars s = .ok d' :=
  ⟨⟨23, 0, 0, 0, 0, 0, 0⟩, ⟨-13, 0, 0, 0, 0, 0, 0⟩, by simp [SameMultipliers], _, rfl,
    by decide +kernel, by decide +kernel⟩

/-- C14: with the documented minimum buffer size of 7 the terminating NUL is written out of bounds. -/
theorem doodson_str_overflow_fails (d : DC) (b : Bool) : str d 7 b = .ub := rfl

/-! ### C17 -/

/-- C17: leading blanks and then `ddd.ddd` with decimal digits decodes digit by digit. -/
theorem iers10_digits {n : Nat} {c0 c1 c2 c3 c4 c5 : Int} {rest : List Int} (h0 : IsDigit c0)
    (h1 : IsDigit c1) (h2 : IsDigit c2) (h3 : IsDigit c3) (h4 : IsDigit c4) (h5 : IsDigit c5) :
    resolveIers10 (List.replicate n 32 ++ c0 :: c1 :: c2 :: 46 :: c3 :: c4 :: c5 :: rest) =
      .ok ⟨c0 - 48, c1 - 48 - 5, c2 - 48 - 5, c3 - 48 - 5, c4 - 48 - 5, c5 - 48 - 5, 0⟩ := by
  unfold IsDigit at *
  unfold resolveIers10
  rw [skipBlanks_replicate _ _ (by omega)]
  simp only [charAt, List.getElem?_cons_zero, List.getElem?_cons_succ, Res.bind_ok]
  rw [if_neg]
  rw [List.filter_eq_nil_iff.mpr]
  · simp
  · intro a ha
    simp only [List.mem_cons, List.not_mem_nil, or_false] at ha
    simp only [Bool.or_eq_true, decide_eq_true_eq]
    omega

/-- C17: the two parsers agree on `ddd.ddd`. -/
theorem iers10_agrees {c0 c1 c2 c3 c4 c5 : Int} {rest : List Int} (h0 : IsDigit c0)
    (h1 : IsDigit c1) (h2 : IsDigit c2) (h3 : IsDigit c3) (h4 : IsDigit c4) (h5 : IsDigit c5) :
    resolveIers10 (c0 :: c1 :: c2 :: 46 :: c3 :: c4 :: c5 :: rest) =
      fromChars (c0 :: c1 :: c2 :: 46 :: c3 :: c4 :: c5 :: rest) := by
  have := iers10_digits (n := 0) (rest := rest) h0 h1 h2 h3 h4 h5
  simp only [List.replicate_zero, List.nil_append] at this
  rw [this]
  have key : ∀ {c : Int}, IsDigit c → char2int c = .ok (c - 48) := by
    intro c hc
    unfold char2int
    exact if_pos hc
  rw [fromChars_of (key h0) (key h1) (key h2) (key h3) (key h4) (key h5)]

/-- C17: what is accepted, exactly: a dot in the middle and characters close to the digits. -/
theorem iers10_accepts_partial {c0 c1 c2 c3 c4 c5 c6 : Int} {rest : List Int} (hb : c0 ≠ 32) :
    (∃ d, resolveIers10 (c0 :: c1 :: c2 :: c3 :: c4 :: c5 :: c6 :: rest) = .ok d) ↔
      c3 = 46 ∧ (39 ≤ c0 ∧ c0 ≤ 57) ∧ ∀ c ∈ [c1, c2, c4, c5, c6], 44 ≤ c ∧ c ≤ 62 := by
  unfold resolveIers10
  have := skipBlanks_replicate 0 (c1 :: c2 :: c3 :: c4 :: c5 :: c6 :: rest) hb
  simp only [List.replicate_zero, List.nil_append] at this
  rw [this]
  simp only [charAt, List.getElem?_cons_zero, List.getElem?_cons_succ, Res.bind_ok]
  constructor
  · rintro ⟨d, h⟩
    by_contra hc
    rw [if_pos] at h
    · cases h
    · intro he
      apply hc
      have h1 : c3 = 46 := by by_contra h3; rw [if_pos h3] at he; omega
      rw [if_neg (by simpa using h1), Nat.zero_add, List.length_eq_zero_iff,
        List.filter_eq_nil_iff] at he
      have h2 := he
      simp only [List.mem_cons, List.not_mem_nil, or_false, Bool.or_eq_true, decide_eq_true_eq] at h2
      refine ⟨h1, ?_, ?_⟩
      · have := h2 (c0 - 48) (Or.inl rfl); omega
      · intro c hc
        simp only [List.mem_cons, List.not_mem_nil, or_false] at hc
        have := h2 (c - 48 - 5) (by rcases hc with rfl | rfl | rfl | rfl | rfl <;> simp)
        omega
  · rintro ⟨h1, h2, h3⟩
    refine ⟨_, if_neg ?_⟩
    rw [List.filter_eq_nil_iff.mpr]
    · simp [h1]
    · intro a ha
      simp only [List.mem_cons, List.not_mem_nil, or_false] at ha h3
      simp only [Bool.or_eq_true, decide_eq_true_eq]
      have e1 := h3 c1 (by simp)
      have e2 := h3 c2 (by simp)
      have e4 := h3 c4 (by simp)
      have e5 := h3 c5 (by simp)
      have e6 := h3 c6 (by simp)
      omega

/-- C17 fails: a character that is no digit is accepted and decoded (`/` as -1, i.e. multiplier -6). -/
theorem iers10_fails : ∃ mem d, mem = cstr "1/5.555" ∧ resolveIers10 mem = .ok d ∧
    d = ⟨1, -6, 0, 0, 0, 0, 0⟩ :=
  ⟨_, _, rfl, by decide +kernel, rfl⟩

/-- C17 fails: a string shorter than seven characters is read past its NUL. -/
theorem iers10_short_fails : resolveIers10 (cstr "255") = .ub := by decide +kernel

example : IsDigit 50 ∧ resolveIers10 (cstr "  272.556") = .ok ⟨2, 2, -3, 0, 0, 1, 0⟩ :=
  ⟨by simp [IsDigit], by decide +kernel⟩

/-! ### C16 -/

instance (a b : DC) : Decidable (SameMultipliers a b) := by unfold SameMultipliers; infer_instance

/-- C16: no two rows of the atmospheric table share their multipliers or their name. -/
theorem atmospheric_unambiguous :
    atmospheric.Pairwise fun a b => ¬ SameMultipliers a.d b.d ∧ a.name ≠ b.name := by decide +kernel

/-- C16: no two rows of the oceanic table share their multipliers or, case ignored, their name. -/
theorem oceanic_unambiguous :
    oceanic.Pairwise fun a b => ¬ SameMultipliers a.d b.d ∧
      a.name.toList.map Char.toLower ≠ b.name.toList.map Char.toLower := by decide +kernel

theorem pairwise_unique {β : Type} {R : β → β → Prop} {l : List β}
    (h : l.Pairwise fun a b => ¬ R a b) (hs : ∀ a b, R a b → R b a) {a b : β} (ha : a ∈ l) (hb : b ∈ l)
    (hr : R a b) : a = b := by
  induction l with
  | nil => cases ha
  | cons c l ih =>
    rw [List.pairwise_cons] at h
    rcases List.mem_cons.mp ha with ea | ha'
    · rcases List.mem_cons.mp hb with eb | hb'
      · rw [ea, eb]
      · subst ea; exact absurd hr (h.1 _ hb')
    · rcases List.mem_cons.mp hb with eb | hb'
      · subst eb; exact absurd (hs _ _ hr) (h.1 _ ha')
      · exact ih h.2 ha' hb'

/-- C16: lookup by name in the atmospheric table returns the row of that name, and fails exactly when
there is none. -/
theorem find_wave_entry_iff (name : String) :
    (∀ w, findWaveEntry name = some w ↔ w ∈ atmospheric ∧ w.name = name) ∧
    (findWaveEntry name = none ↔ ∀ w ∈ atmospheric, w.name ≠ name) := by
  constructor
  · intro w
    constructor
    · intro h
      exact ⟨List.mem_of_find?_eq_some h, by simpa using List.find?_some h⟩
    · rintro ⟨h1, h2⟩
      apply find_unique h1 (by simpa using h2)
      intro w' hw' he
      apply pairwise_unique (R := fun a b : Wave => a.name = b.name)
        (atmospheric_unambiguous.imp fun h => h.2) (fun _ _ h => h.symm) hw' h1
      rw [h2]; simpa using he
  · unfold findWaveEntry
    rw [List.find?_eq_none]
    simp

/-- C16: lookup by name in the oceanic table ignores case. -/
theorem match_ocean_name_iff (name : String) :
    (∀ w, matchOceanName name = some w ↔
      w ∈ oceanic ∧ w.name.toList.map Char.toLower = name.toList.map Char.toLower) ∧
    (matchOceanName name = none ↔
      ∀ w ∈ oceanic, w.name.toList.map Char.toLower ≠ name.toList.map Char.toLower) := by
  constructor
  · intro w
    constructor
    · intro h
      have := List.find?_some h
      exact ⟨List.mem_of_find?_eq_some h, by simpa only [caseEq, beq_iff_eq] using this⟩
    · rintro ⟨h1, h2⟩
      apply find_unique h1 (by simpa only [caseEq, beq_iff_eq] using h2)
      intro w' hw' he
      apply pairwise_unique
        (R := fun a b : Wave => a.name.toList.map Char.toLower = b.name.toList.map Char.toLower)
        (oceanic_unambiguous.imp fun h => h.2) (fun _ _ h => h.symm) hw' h1
      simp only [caseEq, beq_iff_eq] at he
      rw [h2, he]
  · unfold matchOceanName
    rw [List.find?_eq_none]
    simp only [caseEq, beq_iff_eq, ne_eq]

theorem DC.eq_iff (a b : DC) : a.eq b = true ↔ a = b := by
  cases a; cases b
  simp [DC.eq, and_assoc]

/-- C16 (partial): lookup by Doodson number in the oceanic table returns the row with this number *and
π factor*, and fails exactly when there is none. The property asks for the row with this number. -/
theorem match_ocean_doodson_iff_partial (d : DC) :
    (∀ w, matchOceanDoodson d = some w ↔ w ∈ oceanic ∧ w.d = d) ∧
    (matchOceanDoodson d = none ↔ ∀ w ∈ oceanic, w.d ≠ d) := by
  constructor
  · intro w
    constructor
    · intro h
      have := List.find?_some h
      rw [DC.eq_iff] at this
      exact ⟨List.mem_of_find?_eq_some h, this.symm⟩
    · rintro ⟨h1, h2⟩
      apply find_unique h1 ((DC.eq_iff _ _).mpr h2.symm)
      intro w' hw' he
      rw [DC.eq_iff] at he
      apply pairwise_unique (R := fun a b : Wave => SameMultipliers a.d b.d)
        (oceanic_unambiguous.imp fun h => h.1)
        (fun _ _ h => by unfold SameMultipliers at *; omega) hw' h1
      rw [h2, ← he]; simp [SameMultipliers]
  · unfold matchOceanDoodson
    rw [List.find?_eq_none]
    simp only [DC.eq_iff]
    constructor
    · intro h w hw e; exact h w hw e.symm
    · intro h w hw e; exact h w hw e.symm

/-- C16 fails: Q1 is in the table under 135.655, but looking up the constituent parsed from "135.655"
finds nothing, since the parsed constituent has π factor 0 and the row has -1. -/
theorem match_ocean_doodson_fails : ∃ d, fromChars (cstr "135.655") = .ok d ∧
    (∃ w ∈ oceanic, SameMultipliers w.d d) ∧ matchOceanDoodson d = none :=
  ⟨⟨1, -2, 0, 1, 0, 0, 0⟩, by decide +kernel, by decide +kernel, by decide +kernel⟩

example : findWaveEntry "S1" = some ⟨⟨1, 1, -1, 0, 0, 0, 2⟩, "S1"⟩ ∧ findWaveEntry "M1" = none ∧
    matchOceanName "mSQM" = some ⟨⟨0, 4, -2, 0, 0, 0, 0⟩, "Msqm"⟩ := by decide +kernel

/-! ### C70 -/

theorem readCStr_append {b : List Int} (hb : ∀ c ∈ b, c ≠ 0) (rest : List Int) :
    readCStr (b ++ 0 :: rest) = .ok b := by
  induction b with
  | nil => rfl
  | cons c b ih =>
    have hc := hb c (by simp)
    simp only [List.cons_append, readCStr, hc, if_false]
    rw [ih (fun c hc => hb c (by simp [hc]))]
    rfl

/-- C70: every wave found by name has that name and the row's constituent. -/
theorem get_wave_name (name : String) :
    (∀ t, getWave name = .ok t → t.name = .ok (bytes name) ∧ ∃ w ∈ atmospheric, w.name = name ∧ t.d = w.d) ∧
    (getWave name = .throw ↔ ∀ w ∈ atmospheric, w.name ≠ name) ∧ getWave name ≠ .ub ∧
    getWave name ≠ .abort := by
  have hall : ∀ w ∈ atmospheric, (bytes w.name).length ≤ 15 ∧ ∀ c ∈ bytes w.name, c ≠ 0 := by
    decide +kernel
  unfold getWave
  cases hf : findWaveEntry name with
  | none =>
    refine ⟨(fun t ht => nomatch ht), ⟨fun _ => (find_wave_entry_iff name).2.mp hf, fun _ => rfl⟩,
      by simp, by simp⟩
  | some w =>
    obtain ⟨h1, h2⟩ := ((find_wave_entry_iff name).1 w).mp hf
    obtain ⟨h3, h4⟩ := hall w h1
    have hl : (bytes w.name ++ [0]).length ≤ 16 := by simp; omega
    simp only [TW.ofEntry]
    rw [if_pos hl]
    refine ⟨?_, ?_, by simp, by simp⟩
    · intro t ht
      injection ht with ht
      subst ht
      refine ⟨?_, w, h1, h2, rfl⟩
      simp only [TW.name, List.append_assoc, List.singleton_append]
      rw [readCStr_append h4, h2]
    · simp only [reduceCtorEq, false_iff, not_forall]
      exact ⟨w, h1, fun h => h h2⟩

/-- C70 (partial): a wave constructed with a name of at most 15 bytes reports that name. Missing: longer
names (`wave_name_fails`). -/
theorem wave_name_partial (d : DC) (name : String) (h : (bytes name).length ≤ 15)
    (h0 : ∀ c ∈ bytes name, c ≠ 0) : (TW.make d name).name = .ok (bytes name) := by
  simp only [TW.make, TW.name]
  rw [List.take_of_length_le (by omega)]
  obtain ⟨k, hk⟩ : ∃ k, 16 - (bytes name).length = k + 1 := ⟨15 - (bytes name).length, by omega⟩
  rw [hk, List.replicate_succ, readCStr_append h0]

/-- C70 fails: a name of 16 bytes leaves the array without NUL, and reading the name runs past it. -/
theorem wave_name_fails : (TW.make ⟨2, 0, 0, 0, 0, 0, 0⟩ "PrincipalLunarM2").name = .ub := by
  decide +kernel

example : (bytes "Epsilon2").length ≤ 15 ∧ ∀ c ∈ bytes "Epsilon2", c ≠ 0 := by decide +kernel

end Verif.Doodson
