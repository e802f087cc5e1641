import Verif.Proof.Groops
/-
C41, C42: GROOPS file names and file lists.
-/
namespace Verif.Groops
open Verif Verif.Doodson Verif.Tide Verif.Chars

theorem bytes_us : bytes "_" = [95] := by decide +kernel
theorem bytes_gfc : bytes ".gfc" = gfcText := by decide +kernel
theorem trig_text (t : Trig) : t.text = if t = .sin then sinText else cosText := by cases t <;> decide +kernel
theorem trig_length (t : Trig) : t.text.length = 3 := by cases t <;> decide +kernel

/-- A file name with the parts nested to the right. -/
theorem fileName_eq (m s w : List Int) (t : Trig) :
    m ++ bytes "_" ++ s ++ bytes "_" ++ w ++ bytes "_" ++ t.text ++ bytes ".gfc" =
      m ++ 95 :: (s ++ 95 :: (w ++ 95 :: (t.text ++ gfcText))) := by
  rw [bytes_us, bytes_gfc]
  simp

/-- C41 (parsing): a name of the documented form whose parts fit the buffers is read back: model, Doodson number, name and
sine or cosine. -/
theorem parse_complete {fn m w : List Int} {d : DC} {t : Trig} (h : FileName fn m d w t) (hm : m.length ≤ 48) (hw : w.length ≤ 16) :
    parse fn = .ok ⟨m, { d with pifac := 0 }, w, t.letter⟩ := by
  obtain ⟨s, hs, hu, rfl⟩ := h
  obtain ⟨hp, hsu, -, hl⟩ := fromChars_fold hs (95 :: (w ++ 95 :: (t.text ++ gfcText)) ++ [0])
  rw [fileName_eq]
  have ht := trig_length t
  have hsz : (m ++ 95 :: (s ++ 95 :: (w ++ 95 :: (t.text ++ gfcText)))).length = m.length + w.length + 17 := by
    simp [hl, ht, gfcText]; omega
  have h1 : scanBack (m ++ 95 :: (s ++ 95 :: (w ++ 95 :: (t.text ++ gfcText)))) (m.length + w.length + 17 - 9) = some (m.length + 8) := by
    have := scanBack_found (m ++ 95 :: s) w (95 :: (t.text ++ gfcText)) hu
    simp only [List.length_append, List.length_cons, hl] at this
    rw [show m.length + (7 + 1) + w.length = m.length + w.length + 17 - 9 from by omega] at this
    rw [← this]
    simp
  have h2 : scanBack (m ++ 95 :: (s ++ 95 :: (w ++ 95 :: (t.text ++ gfcText)))) (m.length + 8 - 1) = some m.length := by
    have := scanBack_found m s (95 :: (w ++ 95 :: (t.text ++ gfcText))) hsu
    rw [hl] at this
    exact this
  have e1 : (m ++ 95 :: (s ++ 95 :: (w ++ 95 :: (t.text ++ gfcText)))).drop (m.length + w.length + 17 - 4) = gfcText := by
    rw [show m ++ 95 :: (s ++ 95 :: (w ++ 95 :: (t.text ++ gfcText))) = (m ++ 95 :: (s ++ 95 :: (w ++ 95 :: t.text))) ++ gfcText from by simp]
    rw [List.drop_left']
    simp [hl, ht]; omega
  have e2 : ((m ++ 95 :: (s ++ 95 :: (w ++ 95 :: (t.text ++ gfcText)))).drop (m.length + w.length + 17 - 7)).take 3 = t.text := by
    rw [show m ++ 95 :: (s ++ 95 :: (w ++ 95 :: (t.text ++ gfcText))) = (m ++ 95 :: (s ++ 95 :: (w ++ [95]))) ++ (t.text ++ gfcText) from by simp]
    rw [List.drop_left', List.take_left' ht]
    simp [hl]; omega
  have e3 : (m ++ 95 :: (s ++ 95 :: (w ++ 95 :: (t.text ++ gfcText)))).drop (m.length + 1) ++ [0] =
      s ++ (95 :: (w ++ 95 :: (t.text ++ gfcText)) ++ [0]) := by
    rw [show m ++ 95 :: (s ++ 95 :: (w ++ 95 :: (t.text ++ gfcText))) = (m ++ [95]) ++ (s ++ 95 :: (w ++ 95 :: (t.text ++ gfcText))) from by simp]
    rw [List.drop_left' (by simp)]
    simp
  have e4 : ((m ++ 95 :: (s ++ 95 :: (w ++ 95 :: (t.text ++ gfcText)))).drop (m.length + 8 + 1)).take (m.length + w.length + 17 - 9 - (m.length + 8)) = w := by
    rw [show m ++ 95 :: (s ++ 95 :: (w ++ 95 :: (t.text ++ gfcText))) = (m ++ 95 :: (s ++ [95])) ++ (w ++ 95 :: (t.text ++ gfcText)) from by simp]
    rw [List.drop_left' (by simp [hl]), show m.length + w.length + 17 - 9 - (m.length + 8) = w.length from by omega, List.take_left]
  unfold parse
  simp only [hsz]
  rw [if_neg (by omega)]
  simp only [h1, h2, e1, e2, e3, e4, hp, Res.bind]
  rw [if_neg (by omega), if_neg (by omega), if_neg]
  · rw [List.take_left]
    cases t
    · rw [if_pos (by decide +kernel)]; rfl
    · rw [if_neg (by decide +kernel)]; rfl
  · rw [trig_text]
    cases t <;> simp

/-- C41 (parsing, converse): whatever is accepted is `<model>_<doodson...>_<name>?<sin|cos>.gfc` and the result holds these parts.
(The parser does not look at the character before `sin` or `cos`, nor at what follows the Doodson number.) -/
theorem parse_sound {fn : List Int} {n : Name} (h : parse fn = .ok n) :
    ∃ (s : List Int) (c : Int) (t : Trig), fn = n.model ++ [95] ++ s ++ [95] ++ n.name ++ [c] ++ t.text ++ bytes ".gfc" ∧
      95 ∉ s ∧ 95 ∉ n.name ∧ n.sinCos = t.letter ∧ n.model.length ≤ 48 ∧ n.name.length ≤ 16 ∧ 7 ≤ s.length ∧
      Renders (fold (s.take 7)) n.d ∧ n.d.pifac = 0 := by
  unfold parse at h
  dsimp only at h
  by_cases h9 : fn.length < 9
  · rw [if_pos h9] at h; cases h
  rw [if_neg h9] at h
  cases hi : scanBack fn (fn.length - 9) with
  | none => rw [hi] at h; cases h
  | some i =>
    rw [hi] at h
    dsimp only at h
    by_cases h16 : fn.length - 9 - i > 16 ∨ i = 0
    · rw [if_pos h16] at h; cases h
    rw [if_neg h16] at h
    cases hj : scanBack fn (i - 1) with
    | none => rw [hj] at h; cases h
    | some j =>
      rw [hj] at h
      dsimp only at h
      cases hd : fromChars (fn.drop (j + 1) ++ [0]) with
      | ok d =>
        rw [hd] at h
        simp only [Res.bind] at h
        by_cases h48 : j > 48
        · rw [if_pos h48] at h; cases h
        rw [if_neg h48] at h
        by_cases hbad : fn.drop (fn.length - 4) ≠ gfcText ∨
            (fn.drop (fn.length - 7)).take 3 ≠ sinText ∧ (fn.drop (fn.length - 7)).take 3 ≠ cosText
        · rw [if_pos hbad] at h; cases h
        rw [if_neg hbad, Res.ok.injEq] at h
        subst h
        obtain ⟨a1, a2, a3⟩ := scanBack_some fn _ _ hi
        obtain ⟨b1, b2, b3⟩ := scanBack_some fn _ _ hj
        obtain ⟨c1, c2, -⟩ := doodson_parse_accepts hd
        obtain ⟨x0, x1, x2, x3, x4, x5, rest, hx, y0, y1, y2, y3, y4, y5, hp⟩ := fromChars_inv hd
        obtain ⟨c, hc⟩ := cut (by omega) a2 b2 (by omega) a1
        have h95 : ∀ {v}, char2int 95 ≠ .ok v := by intro v; simp [char2int, toLower]
        have hlen : 7 ≤ i - (j + 1) := by
          have hg : (fn.drop (j + 1) ++ [0])[i - (j + 1)]? = some 95 := by
            rw [List.getElem?_append_left (by rw [List.length_drop]; omega), List.getElem?_drop, show j + 1 + (i - (j + 1)) = i from by omega]
            exact a2
          rw [hx] at hg
          by_contra hlt
          have : i - (j + 1) < 7 := by omega
          generalize i - (j + 1) = k at hg this
          match k, this with
          | 0, _ => cases hg; exact h95 y0
          | 1, _ => cases hg; exact h95 y1
          | 2, _ => cases hg; exact h95 y2
          | 3, _ => cases hg
          | 4, _ => cases hg; exact h95 y3
          | 5, _ => cases hg; exact h95 y4
          | 6, _ => cases hg; exact h95 y5
        have no95 : ∀ (p q : Nat), (∀ l, p ≤ l → l < p + q → fn[l]? ≠ some 95) → 95 ∉ (fn.drop p).take q := by
          intro p q hno hm
          obtain ⟨l, hl, e⟩ := List.getElem_of_mem hm
          have hl' := hl
          rw [List.length_take, List.length_drop] at hl'
          refine hno (p + l) (by omega) (by omega) ?_
          rw [← List.getElem?_drop, ← List.getElem?_take_of_lt (j := q) (by omega), List.getElem?_eq_getElem hl, e]
        have htr : ∃ t : Trig, (fn.drop (fn.length - 7)).take 3 = t.text ∧
            (if (fn.drop (fn.length - 7)).take 3 = sinText then (115 : Int) else 99) = t.letter := by
          by_cases hsin : (fn.drop (fn.length - 7)).take 3 = sinText
          · exact ⟨.sin, by rw [hsin]; decide +kernel, by rw [if_pos hsin]; rfl⟩
          · refine ⟨.cos, ?_, by rw [if_neg hsin]; rfl⟩
            rw [trig_text]
            by_contra hcos
            exact hbad (Or.inr ⟨hsin, hcos⟩)
        obtain ⟨t, ht, htl⟩ := htr
        have hgfc : fn.drop (fn.length - 4) = bytes ".gfc" := by
          rw [bytes_gfc]
          by_contra hn
          exact hbad (Or.inl hn)
        refine ⟨(fn.drop (j + 1)).take (i - (j + 1)), c, t, ?_, ?_, ?_, htl, ?_, ?_, ?_, ?_, hp⟩
        · rw [ht, hgfc] at hc
          exact hc
        · exact no95 _ _ fun l l1 l2 => b3 l (by omega) (by omega)
        · exact no95 _ _ fun l l1 l2 => a3 l (by omega) (by omega)
        · simp; omega
        · simp; omega
        · simp; omega
        · have : (((fn.drop (j + 1)).take (i - (j + 1))).take 7) = (fn.drop (j + 1) ++ [0]).take 7 := by
            rw [List.take_take, Nat.min_eq_left hlen, List.take_append_of_le_length (by rw [List.length_drop]; omega)]
          rw [this]
          exact c2
      | ub => rw [hd] at h; cases h
      | abort => rw [hd] at h; cases h
      | throw => rw [hd] at h; cases h

theorem toUpper_fold (s : List Int) (h : ∀ c ∈ s, ¬ (65 ≤ c ∧ c ≤ 90)) : fold (s.map toUpper) = s := by
  unfold fold
  rw [List.map_map]
  conv_rhs => rw [← List.map_id s]
  refine List.map_congr_left fun c hc => ?_
  have := h c hc
  simp only [Function.comp, toUpper, id]
  split_ifs <;> omega

theorem renders_mem {s : List Int} {d : DC} (h : Renders s d) : ∀ c ∈ s, c = 46 ∨ (48 ≤ c ∧ c ≤ 57) ∨ (97 ≤ c ∧ c ≤ 122) := by
  obtain ⟨c0, c1, c2, c3, c4, c5, rfl, h0, h1, h2, h3, h4, h5⟩ := h
  have r0 := denotes_range h0
  have r1 := denotes_range h1
  have r2 := denotes_range h2
  have r3 := denotes_range h3
  have r4 := denotes_range h4
  have r5 := denotes_range h5
  intro c hc
  simp only [List.mem_cons, List.not_mem_nil, or_false] at hc
  omega

/-- What the code calls 's' is written "cos", and anything else but 'c' too. -/
def written (sincos : Int) : Trig := if sincos = 99 then .sin else .cos

/-- The name the code writes is a canonical one, with the sine and the cosine exchanged. -/
theorem compile_ok (m w : List Int) (d : DC) (sincos : Int) (hd : InRange d) (hw : 95 ∉ w) (hl : m.length + w.length + 17 ≤ 123) :
    ∃ fn, compile m d w sincos = .ok fn ∧ Canonical fn m d w (written sincos) := by
  obtain ⟨s, h1, h2⟩ := doodson_str_renders hd (size := 16) (by omega)
  have hm := renders_mem h2
  have hlen : s.length = 7 := by obtain ⟨_, _, _, _, _, _, rfl, _⟩ := h2; rfl
  have htw : (s ++ [0]).takeWhile (· ≠ 0) = s := by
    rw [List.takeWhile_append_of_pos (by
      intro c hc
      have := hm c hc
      simp; omega)]
    simp
  have ht : (if sincos = 99 then sinText else cosText) = (written sincos).text := by
    unfold written
    split_ifs <;> decide +kernel
  have hf : fold (s.map toUpper) = s := toUpper_fold s fun c hc => by have := hm c hc; omega
  unfold compile
  rw [h1]
  simp only [Res.bind, htw, ht]
  rw [if_neg]
  · refine ⟨_, rfl, s.map toUpper, by rw [hf]; exact h2, ?_, hw, ?_⟩
    · intro c hc
      obtain ⟨x, hx, rfl⟩ := List.mem_map.mp hc
      have := hm x hx
      unfold toUpper
      split_ifs <;> omega
    · rw [fileName_eq]
  · simp [hlen, trig_length, gfcText]
    omega

theorem canonical_fileName {fn m w : List Int} {d : DC} {t : Trig} (h : Canonical fn m d w t) : FileName fn m d w t := by
  obtain ⟨s, h1, -, h2, h3⟩ := h
  exact ⟨s, h1, h2, h3⟩

theorem denotes_unique {a b v : Int} (ha : Denotes a v) (hb : Denotes b v) : a = b := by
  rw [denotes_eq ha, denotes_eq hb]

theorem renders_unique {a b : List Int} {d : DC} (ha : Renders a d) (hb : Renders b d) : a = b := by
  obtain ⟨c0, c1, c2, c3, c4, c5, rfl, h0, h1, h2, h3, h4, h5⟩ := ha
  obtain ⟨e0, e1, e2, e3, e4, e5, rfl, k0, k1, k2, k3, k4, k5⟩ := hb
  rw [denotes_unique h0 k0, denotes_unique h1 k1, denotes_unique h2 k2, denotes_unique h3 k3, denotes_unique h4 k4, denotes_unique h5 k5]

/-- There is one canonical name for given parts. -/
theorem canonical_unique {fn fn' m w : List Int} {d : DC} {t : Trig} (h : Canonical fn m d w t) (h' : Canonical fn' m d w t) : fn = fn' := by
  obtain ⟨s, h1, h2, -, rfl⟩ := h
  obtain ⟨s', h1', h2', -, rfl⟩ := h'
  have e := renders_unique h1 h1'
  have up : ∀ s : List Int, (∀ c ∈ s, ¬ (97 ≤ c ∧ c ≤ 122)) → (fold s).map toUpper = s := by
    intro s hs
    unfold fold
    rw [List.map_map]
    conv_rhs => rw [← List.map_id s]
    refine List.map_congr_left fun c hc => ?_
    have := hs c hc
    simp only [Function.comp, toUpper, id]
    split_ifs <;> omega
  have : s = s' := by rw [← up s h2, ← up s' h2', e]
  rw [this]

/-- C41, partial: for every model, Doodson number and wave name that fit the buffers, the name made for them is read back: model,
Doodson number and wave name. Missing: sine or cosine, which is exchanged (`names_sincos_fails`). -/
theorem names_partial (m w : List Int) (d : DC) (t : Trig) (hd : InRange d) (hw : 95 ∉ w) (hm : m.length ≤ 48) (hwl : w.length ≤ 16)
    (hl : m.length + w.length + 17 ≤ 123) :
    ∃ fn n, compile m d w t.letter = .ok fn ∧ parse fn = .ok n ∧ n.model = m ∧ n.name = w ∧ SameMultipliers n.d d := by
  obtain ⟨fn, h1, h2⟩ := compile_ok m w d t.letter hd hw hl
  exact ⟨fn, _, h1, parse_complete (canonical_fileName h2) hm hwl, rfl, rfl, rfl, rfl, rfl, rfl, rfl, rfl⟩

/-- C41 fails: the name made for the sine part is that of the cosine part and the other way round, always. -/
theorem names_sincos_fails (m w : List Int) (d : DC) (t : Trig) (hd : InRange d) (hw : 95 ∉ w) (hm : m.length ≤ 48) (hwl : w.length ≤ 16)
    (hl : m.length + w.length + 17 ≤ 123) :
    ∃ fn n, compile m d w t.letter = .ok fn ∧ parse fn = .ok n ∧ n.sinCos = t.other.letter ∧ n.sinCos ≠ t.letter := by
  obtain ⟨fn, h1, h2⟩ := compile_ok m w d t.letter hd hw hl
  refine ⟨fn, _, h1, parse_complete (canonical_fileName h2) hm hwl, ?_, ?_⟩
  · show (written t.letter).letter = t.other.letter
    clear h1 h2; cases t <;> decide
  · show (written t.letter).letter ≠ t.letter
    clear h1 h2; cases t <;> decide

/-- C41 fails: a model name that is too long overruns the buffer. -/
theorem names_long_fails (d : DC) (t : Int) : compile (List.replicate 124 65) d [] t = .ub := by
  unfold compile str
  rw [if_neg (by decide)]
  simp only [Res.bind]
  rw [if_pos]
  simp [gfcText]

example : InRange ⟨1, 1, -3, 0, 0, 1, 0⟩ ∧ 95 ∉ bytes "pi1" ∧
    compile (bytes "TiME22_ATM") ⟨1, 1, -3, 0, 0, 1, 0⟩ (bytes "pi1") 99 = .ok (bytes "TiME22_ATM_162.556_pi1_sin.gfc") ∧
    parse (bytes "TiME22_ATM_162.556_pi1_sin.gfc") = .ok ⟨bytes "TiME22_ATM", ⟨1, 1, -3, 0, 0, 1, 0⟩, bytes "pi1", 115⟩ ∧
    parse (bytes "TiME22_ATM_5A0.555_s5_cos.gfc") = .ok ⟨bytes "TiME22_ATM", ⟨5, 5, -5, 0, 0, 0, 0⟩, bytes "s5", 99⟩ := by
  refine ⟨by simp [InRange, Digit], by decide +kernel, by decide +kernel, by decide +kernel, by decide +kernel⟩

/-! ### C42 -/

/-- A canonical name whose parts leave room for the terminating zeros, for in-range Doodson numbers. -/
def Regular (fn m : List Int) (d : DC) (w : List Int) (t : Trig) : Prop :=
  Canonical fn m d w t ∧ m.length < 48 ∧ w.length < 16

theorem renders_inRange {s : List Int} {d : DC} (h : Renders s d) : InRange d := by
  obtain ⟨c0, c1, c2, c3, c4, c5, rfl, h0, h1, h2, h3, h4, h5⟩ := h
  exact ⟨denotes_digit h0, denotes_digit h1, denotes_digit h2, denotes_digit h3, denotes_digit h4, denotes_digit h5⟩

/-- The check of a regular file looks for the file itself. -/
theorem validate_step {f m w : List Int} {d : DC} {t : Trig} (h : Regular f m d w t) :
    ∃ n, parse f = .ok n ∧ n.compile (if n.sinCos = 115 then 99 else 115) = .ok f := by
  obtain ⟨hc, hm, hw⟩ := h
  refine ⟨_, parse_complete (canonical_fileName hc) (by omega) (by omega), ?_⟩
  have hc' := hc
  obtain ⟨s, h1, -, hu, -⟩ := hc'
  have hr : InRange { d with pifac := 0 } := renders_inRange h1
  obtain ⟨fn, e1, e2⟩ := compile_ok m w { d with pifac := 0 } (if t.letter = 115 then 99 else 115) hr hu (by omega)
  have hd : Canonical fn m d w t := by
    have ht : written (if t.letter = 115 then 99 else 115) = t := by cases t <;> decide
    rw [ht] at e2
    obtain ⟨s', k1, k2, k3, k4⟩ := e2
    exact ⟨s', k1, k2, k3, k4⟩
  unfold Name.compile
  simp only
  rw [if_neg (by omega), e1, canonical_unique hd hc]

/-- C42 fails: a file the name of which has a model of 48 characters or a wave of 16 characters, which the parser accepts, makes the
check of any list that begins with it read behind an array. -/
theorem validate_full_fails {f m w : List Int} {d : DC} {t : Trig} (h : Canonical f m d w t) (hm : m.length ≤ 48) (hw : w.length ≤ 16)
    (hf : m.length = 48 ∨ w.length = 16) (l : List (List Int)) (hn : (f :: l).Nodup) :
    (∃ n, parse f = .ok n) ∧ validate (f :: l) = .ub := by
  have hp := parse_complete (canonical_fileName h) hm hw
  refine ⟨⟨_, hp⟩, ?_⟩
  unfold validate
  rw [if_pos hn]
  unfold validateLoop
  rw [hp]
  simp only
  have : ∀ n : Name, n.model = m → n.name = w → ∀ k, n.compile k = .ub := by
    intro n h1 h2 k
    unfold Name.compile
    rw [if_pos (by rw [h1, h2]; omega)]
  rw [this _ rfl rfl]
  rfl

example : validate [List.replicate 48 65 ++ bytes "_162.556_pi1_sin.gfc"] = .ub ∧
    validate [bytes "A_162.556_abcdefghijklmnop_sin.gfc"] = .ub := by decide +kernel

theorem validateLoop_ok (all l : List (List Int)) (hsub : ∀ f ∈ l, f ∈ all) (h : ∀ f ∈ l, ∃ m d w t, Regular f m d w t) :
    validateLoop all l = .ok 0 := by
  induction l with
  | nil => rfl
  | cons f l ih =>
    obtain ⟨m, d, w, t, hr⟩ := h f (by simp)
    obtain ⟨n, e1, e2⟩ := validate_step hr
    unfold validateLoop
    simp only [e1, e2, Res.bind]
    rw [if_pos (hsub f (by simp))]
    exact ih (fun g hg => hsub g (by simp [hg])) (fun g hg => h g (by simp [hg]))

/-- C42: a list with a file twice is rejected, and only such a list gets this status. -/
theorem validate_duplicates (l : List (List Int)) : validate l = .ok 1 ↔ ¬ l.Nodup := by
  unfold validate
  constructor
  · intro h hn
    rw [if_pos hn] at h
    have key : ∀ l', validateLoop l l' ≠ .ok 1 := by
      intro l'
      induction l' with
      | nil => simp [validateLoop]
      | cons f l' ih =>
        unfold validateLoop
        cases parse f with
        | ok n =>
          simp only
          cases n.compile (if n.sinCos = 115 then 99 else 115) with
          | ok fr =>
            simp only [Res.bind]
            split_ifs
            · exact ih
            · simp
          | ub => simp [Res.bind]
          | abort => simp [Res.bind]
          | throw => simp [Res.bind]
        | ub => simp
        | abort => simp
        | throw => simp
    exact key l h
  · intro h
    rw [if_neg h]

/-- C42, partial: a list of regular names is accepted if there are no duplicates and every file's partner (same model and wave, the
other of sine and cosine) is in the list; a list that is accepted has no duplicates. Missing: that the partners are in the list when it
is accepted (`validate_alone_fails`), and names whose Doodson number has lower case letters (`validate_case_fails`). -/
theorem validate_partial (l : List (List Int)) :
    ((∀ f ∈ l, ∃ m d w t, Regular f m d w t ∧ ∃ g ∈ l, Regular g m d w t.other) → l.Nodup → validate l = .ok 0) ∧
    (validate l = .ok 0 → l.Nodup ∧ ∀ f ∈ l, ∃ n, parse f = .ok n) := by
  constructor
  · intro h hn
    unfold validate
    rw [if_pos hn]
    exact validateLoop_ok l l (fun _ h => h) fun f hf => by
      obtain ⟨m, d, w, t, hr, -⟩ := h f hf
      exact ⟨m, d, w, t, hr⟩
  · intro h
    have hn : l.Nodup := by
      by_contra hn
      rw [(validate_duplicates l).mpr hn] at h
      cases h
    refine ⟨hn, ?_⟩
    unfold validate at h
    rw [if_pos hn] at h
    have key : ∀ l', validateLoop l l' = .ok 0 → ∀ f ∈ l', ∃ n, parse f = .ok n := by
      intro l'
      induction l' with
      | nil => intro _ f hf; cases hf
      | cons g l' ih =>
        intro h f hf
        unfold validateLoop at h
        cases hp : parse g with
        | ok n =>
          rw [hp] at h
          simp only at h
          cases hc : n.compile (if n.sinCos = 115 then 99 else 115) with
          | ok fr =>
            rw [hc] at h
            simp only [Res.bind] at h
            split_ifs at h
            · rcases List.mem_cons.mp hf with rfl | hf
              · exact ⟨n, hp⟩
              · exact ih h f hf
            · cases h
          | ub => rw [hc] at h; cases h
          | abort => rw [hc] at h; cases h
          | throw => rw [hc] at h; cases h
        | ub => rw [hp] at h; cases h
        | abort => rw [hp] at h; cases h
        | throw => rw [hp] at h; cases h
    exact key l h

/-- The files of two waves. -/
def exList : List (List Int) := [bytes "TiME22_162.556_pi1_cos.gfc", bytes "TiME22_162.556_pi1_sin.gfc",
  bytes "TiME22_5A0.555_s5_cos.gfc", bytes "TiME22_5A0.555_s5_sin.gfc"]

/-- The list meets the hypotheses. -/
example : exList.Nodup ∧ (∀ f ∈ exList, ∃ m d w t, Regular f m d w t ∧ ∃ g ∈ exList, Regular g m d w t.other) ∧ validate exList = .ok 0 := by
  have D : ∀ (n : Fin 36), Denotes (glyphs.getD n.val 0) ((n.val : Int) - 13) := by
    intro n
    refine ⟨by omega, ?_⟩
    rw [show ((n.val : Int) - 13 + 13).toNat = n.val from by omega]
    revert n
    decide +kernel
  have r1 : Renders (fold (bytes "162.556")) ⟨1, 1, -3, 0, 0, 1, 0⟩ :=
    ⟨49, 54, 50, 53, 53, 54, by decide +kernel, D 14, D 19, D 15, D 18, D 18, D 19⟩
  have r2 : Renders (fold (bytes "5A0.555")) ⟨5, 5, -5, 0, 0, 0, 0⟩ :=
    ⟨53, 97, 48, 53, 53, 53, by decide +kernel, D 18, D 23, D 13, D 18, D 18, D 18⟩
  have c1 : ∀ t, Regular (bytes "TiME22" ++ bytes "_" ++ bytes "162.556" ++ bytes "_" ++ bytes "pi1" ++ bytes "_" ++ t.text ++ bytes ".gfc")
      (bytes "TiME22") ⟨1, 1, -3, 0, 0, 1, 0⟩ (bytes "pi1") t := fun t =>
    ⟨⟨_, r1, by decide +kernel, by decide +kernel, rfl⟩, by decide +kernel, by decide +kernel⟩
  have c2 : ∀ t, Regular (bytes "TiME22" ++ bytes "_" ++ bytes "5A0.555" ++ bytes "_" ++ bytes "s5" ++ bytes "_" ++ t.text ++ bytes ".gfc")
      (bytes "TiME22") ⟨5, 5, -5, 0, 0, 0, 0⟩ (bytes "s5") t := fun t =>
    ⟨⟨_, r2, by decide +kernel, by decide +kernel, rfl⟩, by decide +kernel, by decide +kernel⟩
  refine ⟨by decide +kernel, ?_, by decide +kernel⟩
  intro f hf
  simp only [exList, List.mem_cons, List.not_mem_nil, or_false] at hf
  rcases hf with rfl | rfl | rfl | rfl
  · refine ⟨_, _, _, .cos, ?_, _, ?_, c1 .sin⟩
    · convert c1 .cos using 1; decide +kernel
    · decide +kernel
  · refine ⟨_, _, _, .sin, ?_, _, ?_, c1 .cos⟩
    · convert c1 .sin using 1; decide +kernel
    · decide +kernel
  · refine ⟨_, _, _, .cos, ?_, _, ?_, c2 .sin⟩
    · convert c2 .cos using 1; decide +kernel
    · decide +kernel
  · refine ⟨_, _, _, .sin, ?_, _, ?_, c2 .cos⟩
    · convert c2 .sin using 1; decide +kernel
    · decide +kernel

/-- C42 fails: the sine files of two waves without their cosine files are accepted. -/
theorem validate_alone_fails : validate [bytes "TiME22_162.556_pi1_sin.gfc", bytes "TiME22_163.555_p1_sin.gfc"] = .ok 0 := by
  decide +kernel

/-- C42 fails: both files of a wave are there, with a Doodson number in lower case; the list is rejected. -/
theorem validate_case_fails : validate [bytes "TiME22_5a0.555_s5_cos.gfc", bytes "TiME22_5a0.555_s5_sin.gfc"] = .ok 2 := by
  decide +kernel

/-- C42 fails: a name without underscores is read before its start. -/
theorem validate_text_fails : validate [bytes "README.txt"] = .ub := by decide +kernel

end Verif.Groops
