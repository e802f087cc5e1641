import Verif.Model.MergeAod1b
import Verif.Spec.MergeAod1b
import Verif.Proof.Chars
import Mathlib.Data.List.TakeWhile
namespace Verif.Merge
open Verif Verif.Chars

theorem Py.bind_ok {α β : Type} {x : Py α} {f : α → Py β} {b : β} (h : x.bind f = .ok b) : ∃ a, x = .ok a ∧ f a = .ok b := by
  cases x with
  | ok a => exact ⟨a, rfl, h⟩
  | raise => exact absurd h (by simp [Py.bind])
  | loops => exact absurd h (by simp [Py.bind])

/-! ### White space -/

theorem mem_rstrip {c : Char} {s : List Char} (h : c ∈ s) (hc : isWs c = false) : c ∈ rstrip s := by
  unfold rstrip
  rw [List.mem_reverse]
  have h' : c ∈ s.reverse := List.mem_reverse.mpr h
  rw [← List.takeWhile_append_dropWhile (p := isWs) (l := s.reverse)] at h'
  rcases List.mem_append.mp h' with h' | h'
  · exact absurd (List.mem_takeWhile_imp h') (by simp [hc])
  · exact h'

theorem mem_strip {c : Char} {s : List Char} (h : c ∈ s) (hc : isWs c = false) : c ∈ strip s := by
  unfold strip
  apply mem_rstrip _ hc
  rw [← List.takeWhile_append_dropWhile (p := isWs) (l := s)] at h
  rcases List.mem_append.mp h with h' | h'
  · exact absurd (List.mem_takeWhile_imp h') (by simp [hc])
  · exact h'

theorem not_ws {c : Char} (h : 32 ≤ c.toNat) (hne : c ≠ ' ') : isWs c = false := by
  have hn : ∀ d : Char, d.toNat < 32 → c ≠ d := fun d hd he => by subst he; omega
  simp only [isWs, Bool.or_eq_false_iff, beq_eq_false_iff_ne]
  exact ⟨⟨⟨⟨⟨⟨⟨⟨⟨hne, hn _ (by decide)⟩, hn _ (by decide)⟩, hn _ (by decide)⟩, hn _ (by decide)⟩, hn _ (by decide)⟩,
    hn _ (by decide)⟩, hn _ (by decide)⟩, hn _ (by decide)⟩, hn _ (by decide)⟩

theorem dropWhile_blanks (p : Char → Bool) (hp : p ' ' = true) (n : Nat) (s : List Char) :
    (List.replicate n ' ' ++ s).dropWhile p = s.dropWhile p := by
  induction n with
  | zero => rfl
  | succ n ih => rw [List.replicate_succ, List.cons_append, List.dropWhile_cons, if_pos hp, ih]

theorem dropWhile_head {p : Char → Bool} {s : List Char} (h : ∀ c, s.head? = some c → p c = false) : s.dropWhile p = s := by
  cases s with
  | nil => rfl
  | cons c s => rw [List.dropWhile_cons, if_neg]; rw [h c rfl]; simp

theorem tight_head {s : List Char} (h : Tight s) : ∀ c, s.head? = some c → isWs c = false := by
  intro c hc
  refine not_ws (h.1 c (List.mem_of_mem_head? (by rw [hc]; rfl))).1 fun he => h.2.1 (by rw [hc, he])

theorem tight_last {s : List Char} (h : Tight s) : ∀ c, s.reverse.head? = some c → isWs c = false := by
  intro c hc
  rw [List.head?_reverse] at hc
  refine not_ws (h.1 c (List.mem_of_getLast? hc)).1 fun he => h.2.2 (by rw [hc, he])

theorem rstrip_tight {s : List Char} (h : Tight s) (n : Nat) : rstrip (s ++ List.replicate n ' ') = s := by
  unfold rstrip
  rw [List.reverse_append, List.reverse_replicate, dropWhile_blanks _ (by decide), dropWhile_head (tight_last h), List.reverse_reverse]

theorem strip_tight {s : List Char} (h : Tight s) (m n : Nat) : strip (List.replicate m ' ' ++ s ++ List.replicate n ' ') = s := by
  unfold strip
  rw [List.append_assoc, dropWhile_blanks _ (by decide)]
  cases s with
  | nil =>
    have hr : (List.replicate n ' ').dropWhile isWs = [] := by
      have := dropWhile_blanks isWs (by decide) n []
      simpa using this
    rw [List.nil_append, hr]; rfl
  | cons c s =>
    rw [List.cons_append, List.dropWhile_cons, if_neg (by rw [tight_head h c rfl]; simp)]
    exact rstrip_tight h n

/-! ### Reading a file -/

theorem readLine_app {l t : List Char} (h : '\n' ∉ l) : readLine (l ++ '\n' :: t) = (l, t) := by
  unfold readLine
  have hl : ∀ c ∈ l, (decide (c ≠ '\n')) = true := fun c hc => decide_eq_true (fun he => h (he ▸ hc))
  have e1 : (l ++ '\n' :: t).takeWhile (· ≠ '\n') = l := by
    rw [List.takeWhile_append_of_pos hl]; simp
  have e2 : (l ++ '\n' :: t).dropWhile (· ≠ '\n') = '\n' :: t := by
    rw [List.dropWhile_append_of_pos hl]; simp
  rw [e1, e2]; rfl

theorem Dict.set_new {d : Dict} {k : List Char} (v : List Char) (h : k ∉ d.map (·.1)) : d.set k v = d ++ [(k, v)] := by
  induction d with
  | nil => rfl
  | cons p d ih =>
    obtain ⟨k', v'⟩ := p
    simp only [List.map_cons, List.mem_cons, not_or] at h
    rw [Dict.set, if_neg (fun he => h.1 he.symm), ih h.2, List.cons_append]

theorem tight_no_nl {s : List Char} (h : ∀ c ∈ s, 32 ≤ c.toNat ∧ c.toNat < 127) : '\n' ∉ s := fun hc =>
  absurd (h _ hc).1 (by decide)

theorem headerLine_no_nl {k v l : List Char} (h : HeaderLine k v l) (hk : Tight k) (hv : Tight v) : '\n' ∉ l := by
  obtain ⟨a, b, c, rfl⟩ := h
  have := tight_no_nl hk.1
  have := tight_no_nl hv.1
  simp [List.mem_replicate, *]

theorem readHeader_field {k v l : List Char} (h : HeaderLine k v l) (hk : Tight k) (hc : ':' ∉ k) (hv : Tight v) (t : List Char)
    (d : Dict) : readHeader (l ++ '\n' :: t) d = readHeader t (d.set k v) := by
  have hnl := headerLine_no_nl h hk hv
  have hr := readLine_app (t := t) hnl
  obtain ⟨a, b, c, hl⟩ := h
  have hcol : ':' ∈ l := by rw [hl]; simp
  obtain ⟨x, xs, hx⟩ : ∃ x xs, l ++ '\n' :: t = x :: xs := by cases l with
    | nil => exact ⟨_, _, rfl⟩
    | cons y ys => exact ⟨_, _, rfl⟩
  rw [hx] at hr ⊢
  rw [readHeader, hr]
  have hne : strip l ≠ theEnd := by
    intro he
    have := mem_strip hcol (by decide)
    rw [he] at this
    exact absurd this (by decide)
  simp only
  rw [if_neg hne]
  have hpre : ∀ c ∈ k ++ List.replicate a ' ', decide (c ≠ ':') = true := by
    intro y hy
    apply decide_eq_true
    rintro rfl
    rcases List.mem_append.mp hy with h' | h'
    · exact hc h'
    · exact absurd (List.eq_of_mem_replicate h') (by decide)
  have e1 : l.dropWhile (· ≠ ':') = ':' :: (List.replicate b ' ' ++ v ++ List.replicate c ' ') := by
    rw [hl, List.dropWhile_append_of_pos hpre]; simp
  have e2 : l.takeWhile (· ≠ ':') = k ++ List.replicate a ' ' := by
    rw [hl, List.takeWhile_append_of_pos hpre]; simp
  rw [e1, e2]
  simp only
  rw [rstrip_tight hk, strip_tight hv]

theorem strip_end (n : Nat) : strip ("END OF HEADER".toList ++ List.replicate n ' ') = theEnd := by
  have h : Tight "END OF HEADER".toList := by unfold Tight; decide +kernel
  exact strip_tight h 0 n

theorem end_no_nl (n : Nat) : '\n' ∉ "END OF HEADER".toList ++ List.replicate n ' ' := by
  intro h
  rcases List.mem_append.mp h with h | h
  · exact absurd h (by decide)
  · exact absurd (List.eq_of_mem_replicate h) (by decide)

theorem readHeader_written {fs : List (List Char × List Char)} {data t : List Char} (h : Written fs data t) :
    ∀ d : Dict, (d.map (·.1) ++ fs.map (·.1)).Nodup → (∀ p ∈ fs, Tight p.1 ∧ ':' ∉ p.1) → (∀ p ∈ fs, Tight p.2) →
    readHeader t d = .ok (d ++ fs) := by
  induction h with
  | theEnd n data =>
    intro d _ _ _
    have hr := readLine_app (t := data) (end_no_nl n)
    obtain ⟨x, xs, hx⟩ : ∃ x xs, "END OF HEADER".toList ++ List.replicate n ' ' ++ '\n' :: data = x :: xs := ⟨_, _, rfl⟩
    rw [hx] at hr ⊢
    rw [readHeader, hr]
    simp only
    rw [if_pos (strip_end n), List.append_nil]
  | field hl _ ih =>
    intro d hn hk hv
    rename_i k v _ fs _ _ _
    have hk' := hk (k, v) (List.mem_cons_self ..)
    rw [readHeader_field hl hk'.1 hk'.2 (hv (k, v) (List.mem_cons_self ..)), Dict.set_new]
    · rw [ih]
      · simp
      · simpa using hn
      · exact fun p hp => hk p (List.mem_cons_of_mem _ hp)
      · exact fun p hp => hv p (List.mem_cons_of_mem _ hp)
    · intro hm
      exact (List.nodup_append.mp hn).2.2 _ hm _ (List.mem_cons_self ..) rfl

theorem dataOf_written {fs : List (List Char × List Char)} {data t : List Char} (h : Written fs data t) :
    (∀ p ∈ fs, Tight p.1 ∧ ':' ∉ p.1) → (∀ p ∈ fs, Tight p.2) → dataOf t = .ok data := by
  induction h with
  | theEnd n data =>
    intro _ _
    have hr := readLine_app (t := data) (end_no_nl n)
    obtain ⟨x, xs, hx⟩ : ∃ x xs, "END OF HEADER".toList ++ List.replicate n ' ' ++ '\n' :: data = x :: xs := ⟨_, _, rfl⟩
    rw [hx] at hr ⊢
    rw [dataOf, hr]
    simp only
    rw [if_pos (strip_end n)]
  | field hl _ ih =>
    intro hk hv
    rename_i k v l fs _ t _
    have hk' := hk (k, v) (List.mem_cons_self ..)
    have hr := readLine_app (t := t) (headerLine_no_nl hl hk'.1 (hv (k, v) (List.mem_cons_self ..)))
    have hcol : ':' ∈ l := by obtain ⟨a, b, c, rfl⟩ := hl; simp
    have hne : strip l ≠ theEnd := by
      intro he
      have := mem_strip hcol (by decide)
      rw [he] at this
      exact absurd this (by decide)
    obtain ⟨x, xs, hx⟩ : ∃ x xs, l ++ '\n' :: t = x :: xs := by cases l with
      | nil => exact ⟨_, _, rfl⟩
      | cons y ys => exact ⟨_, _, rfl⟩
    rw [hx] at hr ⊢
    rw [dataOf, hr]
    simp only
    rw [if_neg hne]
    exact ih (fun p hp => hk p (List.mem_cons_of_mem _ hp)) (fun p hp => hv p (List.mem_cons_of_mem _ hp))

/-! ### Fields -/

theorem Dict.get_mem {d : Dict} {k v : List Char} (hn : (d.map (·.1)).Nodup) (h : (k, v) ∈ d) : d.get k = some v := by
  unfold Dict.get
  induction d with
  | nil => exact absurd h (by simp)
  | cons p d ih =>
    rw [List.map_cons, List.nodup_cons] at hn
    rw [List.find?_cons]
    by_cases hp : p.1 = k
    · rw [show (p.1 == k) = true from by simp [hp]]
      rcases List.mem_cons.mp h with h | h
      · rw [← h]; rfl
      · exact absurd (List.mem_map.mpr ⟨_, h, rfl⟩) (hp ▸ hn.1)
    · rw [show (p.1 == k) = false from by simp [hp]]
      rcases List.mem_cons.mp h with h | h
      · exact absurd (by rw [← h]) hp
      · exact ih hn.2 h

theorem digits4 {s : List Char} (h : Digits 4 s) :
    ∃ a b c d, s = [a, b, c, d] ∧ isDig a = true ∧ isDig b = true ∧ isDig c = true ∧ isDig d = true := by
  obtain ⟨hl, hd⟩ := h
  match s, hl with
  | [a, b, c, d], _ => exact ⟨a, b, c, d, rfl, hd _ (by simp), hd _ (by simp), hd _ (by simp), hd _ (by simp)⟩

theorem digits2 {s : List Char} (h : Digits 2 s) : ∃ a b, s = [a, b] ∧ isDig a = true ∧ isDig b = true := by
  obtain ⟨hl, hd⟩ := h
  match s, hl with
  | [a, b], _ => exact ⟨a, b, rfl, hd _ (by simp), hd _ (by simp)⟩

theorem dateAt_date {s : List Char} (h : DateText s) (rest : List Char) : dateAt (s ++ rest) = some s := by
  obtain ⟨Y, M, D, h, m, sec, hY, hM, hD, hh, hm, hs, rfl⟩ := h
  obtain ⟨a, b, c, d, rfl, ha, hb, hc, hd⟩ := digits4 hY
  obtain ⟨e, f, rfl, he, hf⟩ := digits2 hM
  obtain ⟨g, i, rfl, hg, hi⟩ := digits2 hD
  obtain ⟨j, k, rfl, hj, hk⟩ := digits2 hh
  obtain ⟨l, n, rfl, hl, hn⟩ := digits2 hm
  obtain ⟨o, q, rfl, ho, hq⟩ := digits2 hs
  simp [dateAt, *]

theorem matchDate_skip (s r pre : List Char) (h : '(' ∉ s) :
    matchDate pre (s ++ '(' :: r) = matchDate (s.reverse ++ pre) ('(' :: r) := by
  induction s generalizing pre with
  | nil => rfl
  | cons c s ih =>
    simp only [List.mem_cons, not_or] at h
    rw [List.cons_append, matchDate, if_neg (fun hc => h.1 hc.1.symm), ih _ h.2]
    simp

theorem matchDate_epoch {read : List Char → Option Int} {v : List Char} {t : Int} (h : EpochText read v t) :
    ∃ d, matchDate [] v = some d ∧ read d = some t := by
  obtain ⟨ip, fp, date, rest, hi, hf, hd, hr, rfl⟩ := h
  refine ⟨date, ?_, hr⟩
  have e : ip ++ '.' :: (fp ++ ' ' :: '(' :: (date ++ rest)) = (ip ++ '.' :: (fp ++ [' '])) ++ '(' :: (date ++ rest) := by simp
  have hno : ∀ s : List Char, (∀ c ∈ s, c.isDigit = true) → '(' ∉ s := fun s hs hc => absurd (hs _ hc) (by decide)
  have hp : '(' ∉ ip ++ '.' :: (fp ++ [' ']) := by
    simp [hno ip hi, hno fp hf]
  have hs : isSeconds (ip ++ '.' :: (fp ++ [' '])) = true := by
    have e1 : (ip ++ '.' :: (fp ++ [' '])).dropWhile isDig = '.' :: (fp ++ [' ']) := by
      rw [List.dropWhile_append_of_pos (p := isDig) hi]; rfl
    have e2 : (fp ++ [' ']).dropWhile isDig = [' '] := by
      rw [List.dropWhile_append_of_pos (p := isDig) hf]; rfl
    unfold isSeconds
    rw [e1]
    simp only
    rw [e2]; rfl
  rw [e, matchDate_skip _ _ _ hp, matchDate, if_pos]
  · exact dateAt_date hd rest
  · refine ⟨rfl, ?_, ?_⟩
    · simpa using hs
    · rw [dateAt_date hd rest]; rfl

theorem obs_says {E : Env} {k : List Char} {o : Obj} {v : List Char} {t : Int} (hn : (o.dct.map (·.1)).Nodup) (h : (k, v) ∈ o.dct)
    (ht : EpochText E.strptime v t) : obs E k o = .ok t := by
  obtain ⟨d, hd, hr⟩ := matchDate_epoch ht
  unfold obs
  rw [Dict.get_mem hn h]
  show (Py.of (matchDate [] v)).bind _ = _
  rw [hd]
  show Py.of (E.strptime d) = _
  rw [hr]; rfl

theorem strip_noWs {s : List Char} (h : ∀ c ∈ s, isWs c = false) : strip s = s := by
  have e1 : s.dropWhile isWs = s := dropWhile_head fun c hc => h c (List.mem_of_mem_head? (by rw [hc]; rfl))
  unfold strip
  rw [e1]
  unfold rstrip
  rw [dropWhile_head (fun c hc => h c (List.mem_reverse.mp (List.mem_of_mem_head? (by rw [hc]; rfl)))), List.reverse_reverse]

theorem dig_noWs {c : Char} (h : isDig c = true) : isWs c = false := by
  have h2 : 48 ≤ c.toNat := by
    unfold isDig Char.isDigit at h
    simp only [Bool.and_eq_true, decide_eq_true_eq] at h
    exact h.1
  exact not_ws (by omega) (by rintro rfl; exact absurd h2 (by decide))

theorem pyInt_count {v : List Char} {n : Int} (h : CountText v n) : pyInt v = some n := by
  obtain ⟨⟨neg, ds⟩, ⟨hne, hd⟩, hv, rfl⟩ := h
  simp only at hne hd
  have hall : ds.all isDig = true := List.all_eq_true.mpr hd
  have hst : strip (IntText.text ⟨neg, ds⟩) = IntText.text ⟨neg, ds⟩ := by
    apply strip_noWs
    intro c hc
    unfold IntText.text at hc
    rcases List.mem_append.mp hc with hc | hc
    · cases neg with
      | false => exact absurd hc (by simp)
      | true => rw [show c = '-' from by simpa using hc]; decide
    · exact dig_noWs (hd c hc)
  unfold pyInt
  rw [hst]
  cases neg with
  | true =>
    show (if ds ≠ [] ∧ ds.all isDig = true then some (-(digitsVal ds : Int)) else none) = some n
    rw [if_pos ⟨hne, hall⟩, ← hv, digitsVal_eq]; rfl
  | false =>
    match ds, hne with
    | c :: ds, _ =>
      have hc := hd c (List.mem_cons_self ..)
      have h1 : c ≠ '-' := by rintro rfl; exact absurd hc (by decide)
      have h2 : c ≠ '+' := by rintro rfl; exact absurd hc (by decide)
      show (match c :: ds with
        | '-' :: ds => if ds ≠ [] ∧ ds.all isDig = true then some (-(digitsVal ds : Int)) else none
        | '+' :: ds => if ds ≠ [] ∧ ds.all isDig = true then some (digitsVal ds : Int) else none
        | ds => if ds ≠ [] ∧ ds.all isDig = true then some (digitsVal ds : Int) else none) = some n
      split
      · rename_i heq; exact absurd (List.cons.inj heq).1 h1
      · rename_i heq; exact absurd (List.cons.inj heq).1 h2
      · rw [if_pos ⟨by simp, hall⟩, ← hv, digitsVal_eq]; rfl

theorem num_says {k : List Char} {o : Obj} {v : List Char} {n : Int} (hn : (o.dct.map (·.1)).Nodup) (h : (k, v) ∈ o.dct)
    (ht : CountText v n) : num k o = .ok n := by
  unfold num
  rw [Dict.get_mem hn h]
  show Py.of (pyInt v) = _
  rw [pyInt_count ht]; rfl

theorem headersMatch_agree {d e : Dict} (hn : (e.map (·.1)).Nodup) (h : ∀ p ∈ d, p.1 ∉ exempt → p ∈ e) : headersMatch d e = .ok true := by
  induction d with
  | nil => rfl
  | cons p d ih =>
    obtain ⟨k, v⟩ := p
    have ih := ih fun p hp => h p (List.mem_cons_of_mem _ hp)
    rw [headersMatch]
    by_cases hk : k ∈ exempt
    · rw [if_pos hk, ih]
    · rw [if_neg hk, Dict.get_mem hn (h (k, v) (List.mem_cons_self ..) hk)]
      show (if v ≠ v then Py.ok false else headersMatch d e) = _
      rw [if_neg (by simp), ih]

theorem Dict.set_map {d : Dict} {k : List Char} (v : List Char) (hn : (d.map (·.1)).Nodup) (hk : k ∈ d.map (·.1)) :
    d.set k v = d.map fun p => if p.1 = k then (p.1, v) else p := by
  induction d with
  | nil => exact absurd hk (by simp)
  | cons p d ih =>
    obtain ⟨k', v'⟩ := p
    rw [List.map_cons, List.nodup_cons] at hn
    rw [Dict.set]
    by_cases he : k' = k
    · subst he
      rw [if_pos rfl, List.map_cons, if_pos rfl]
      have : d.map (fun p => if p.1 = k' then (p.1, v) else p) = d := by
        rw [List.map_congr_left (g := id)]
        · simp
        · intro p hp
          rw [if_neg]
          · rfl
          · intro h; exact hn.1 (List.mem_map.mpr ⟨p, hp, h⟩)
      rw [this]
    · rw [if_neg he, List.map_cons, if_neg he, ih hn.2]
      simpa [Ne.symm he] using hk

theorem keys_map (d : Dict) (k v : List Char) : (d.map fun p => if p.1 = k then (p.1, v) else p).map (·.1) = d.map (·.1) := by
  rw [List.map_map]
  apply List.map_congr_left
  intro p _
  show (if p.1 = k then (p.1, v) else p).1 = p.1
  split <;> rfl

theorem showInt_count (n : Int) : CountText (showInt n) n := by
  have hv : (natOf (Nat.toDigits 10 n.natAbs)) = n.natAbs := by
    rw [← digitsVal_eq]
    exact Nat.ofDigitChars_toDigits (by decide) (by decide)
  have hd : ∀ c ∈ Nat.toDigits 10 n.natAbs, isDig c = true := fun c hc => Nat.isDigit_of_mem_toDigits (by decide) (by decide) hc
  have hne : Nat.toDigits 10 n.natAbs ≠ [] := by
    rw [Nat.toDigits_eq_if (by decide)]
    split <;> simp
  refine ⟨⟨decide (n < 0), Nat.toDigits 10 n.natAbs⟩, ⟨hne, hd⟩, ?_, ?_⟩
  · unfold IntText.value
    simp only [hv, decide_eq_true_eq]
    split <;> omega
  · unfold showInt IntText.text
    by_cases h : n < 0 <;> simp [h]

/-! ### Two files -/

theorem load_holds {d : Disk} {cwd fn : List Char} {a : Day} (hr : fn.head? ≠ some '/') (h : Holds (d (path cwd fn)) a) :
    load d cwd fn = .ok ⟨fn, a.fields⟩ := by
  obtain ⟨ok, t, ht, hw⟩ := h
  unfold load
  rw [show resolve cwd fn = path cwd fn from if_neg hr, ht]
  show (readHeader t []).bind _ = _
  rw [readHeader_written hw [] (by simpa using ok.nodup) ok.key ok.value]
  rfl

theorem cat_holds {d : Disk} {cwd fn : List Char} {a : Day} (hr : fn.head? ≠ some '/') (h : Holds (d (path cwd fn)) a) :
    cat d cwd fn = .ok a.data := by
  obtain ⟨ok, t, ht, hw⟩ := h
  unfold cat
  rw [show resolve cwd fn = path cwd fn from if_neg hr, ht]
  exact dataOf_written hw ok.key ok.value

theorem set_merged {a : Day} (ha : a.Ok) {ua ra' sa' : List Char} (hua : (kLast, ua) ∈ a.fields) (hra : (kRecords, ra') ∈ a.fields)
    (hsa' : (kSets, sa') ∈ a.fields) (L R S : List Char) :
    Dict.set (Dict.set (Dict.set a.fields kLast L) kRecords R) kSets S = mergedFields a L R S := by
  have k1 : kLast ∈ a.fields.map (·.1) := List.mem_map.mpr ⟨_, hua, rfl⟩
  have k2 : kRecords ∈ a.fields.map (·.1) := List.mem_map.mpr ⟨_, hra, rfl⟩
  have k3 : kSets ∈ a.fields.map (·.1) := List.mem_map.mpr ⟨_, hsa', rfl⟩
  rw [Dict.set_map L ha.nodup k1, Dict.set_map R (by rw [keys_map]; exact ha.nodup) (by rw [keys_map]; exact k2),
    Dict.set_map S (by rw [keys_map, keys_map]; exact ha.nodup) (by rw [keys_map, keys_map]; exact k3), List.map_map, List.map_map]
  have e : (List.map (((fun p : List Char × List Char => if p.1 = kSets then (p.1, S) else p) ∘
      (fun p : List Char × List Char => if p.1 = kRecords then (p.1, R) else p)) ∘
      fun p : List Char × List Char => if p.1 = kLast then (p.1, L) else p) a.fields) = mergedFields a L R S := by
    unfold mergedFields
    apply List.map_congr_left
    rintro ⟨k, v⟩ _
    have d1 : kLast ≠ kRecords := by decide
    have d2 : kLast ≠ kSets := by decide
    have d3 : kRecords ≠ kSets := by decide
    show (if ((if ((if k = kLast then (k, L) else (k, v)) : List Char × List Char).1 = kRecords then _ else _) :
      List Char × List Char).1 = kSets then _ else _) = (if k = kLast then (k, L) else if k = kRecords then (k, R) else if k = kSets
        then (k, S) else (k, v))
    by_cases h1 : k = kLast
    · subst h1; simp [d1, d2]
    · by_cases h2 : k = kRecords
      · subst h2; simp [h1, d3]
      · by_cases h3 : k = kSets
        · subst h3; simp [h1, h2]
        · simp [h1, h2, h3]
  exact e

theorem merge_days {E : Env} {a b : Day} (ha : a.Ok) (hb : b.Ok) (hab : Agree a b) {fa fb : List Char} {ea ta la ra sa eb tb lb rb sb : Int}
    (hsa : Says E.strptime a ea ta la ra sa) (hsb : Says E.strptime b eb tb lb rb sb) (h1 : ta ≤ la) (h2 : la < tb) :
    merge E ⟨fa, a.fields⟩ ⟨fb, b.fields⟩ = .ok (some ⟨fa, mergedFields a
      (showInt (lb - ea) ++ ".000000 (".toList ++ E.strftime lb ++ ")".toList) (' ' :: showInt (ra + rb)) (' ' :: showInt (sa + sb))⟩) := by
  obtain ⟨va, hva, wa⟩ := hsa.first
  obtain ⟨vb, hvb, wb⟩ := hsb.first
  obtain ⟨ua, hua, xa⟩ := hsa.last
  obtain ⟨ub, hub, xb⟩ := hsb.last
  obtain ⟨ra', hra, ya⟩ := hsa.records
  obtain ⟨rb', hrb, yb⟩ := hsb.records
  obtain ⟨sa', hsa', za⟩ := hsa.sets
  obtain ⟨sb', hsb', zb⟩ := hsb.sets
  obtain ⟨ea', hea, he⟩ := hsa.epoch
  have o1 : obs E kFirst ⟨fa, a.fields⟩ = .ok ta := obs_says ha.nodup hva wa
  have o2 : obs E kFirst ⟨fb, b.fields⟩ = .ok tb := obs_says hb.nodup hvb wb
  have o3 : obs E kLast ⟨fa, a.fields⟩ = .ok la := obs_says ha.nodup hua xa
  have o4 : obs E kLast ⟨fb, b.fields⟩ = .ok lb := obs_says hb.nodup hub xb
  have n1 : num kRecords ⟨fa, a.fields⟩ = .ok ra := num_says ha.nodup hra ya
  have n2 : num kRecords ⟨fb, b.fields⟩ = .ok rb := num_says hb.nodup hrb yb
  have n3 : num kSets ⟨fa, a.fields⟩ = .ok sa := num_says ha.nodup hsa' za
  have n4 : num kSets ⟨fb, b.fields⟩ = .ok sb := num_says hb.nodup hsb' zb
  have ep : timeEpoch E ⟨fa, a.fields⟩ = .ok ea := by
    unfold timeEpoch
    rw [show Dict.get a.fields kEpoch = some ea' from Dict.get_mem ha.nodup hea]
    show Py.of (E.strptime ea') = _
    rw [he]; rfl
  have hm : headersMatch a.fields b.fields = .ok true := headersMatch_agree hb.nodup hab
  have hlt : ¬ tb < ta := by omega
  unfold merge
  rw [hm]
  simp only [Py.bind, o1, o2, if_neg hlt, o3, o4, n1, n2, n3, n4, ep, if_pos h2, Bool.not_true, Bool.false_eq_true, if_false]
  rw [set_merged ha hua hra hsa']

/-- The later object asked to merge the earlier one. -/
theorem merge_days_reversed {E : Env} {a b : Day} (ha : a.Ok) (hb : b.Ok) (hba : Agree b a) {fa fb : List Char} {ea ta la ra sa eb tb lb rb sb : Int}
    (hsa : Says E.strptime a ea ta la ra sa) (hsb : Says E.strptime b eb tb lb rb sb) (h1 : ta ≤ la) (h2 : la < tb) :
    merge E ⟨fb, b.fields⟩ ⟨fa, a.fields⟩ = .ok (some ⟨fb, mergedFields b
      (showInt (lb - ea) ++ ".000000 (".toList ++ E.strftime lb ++ ")".toList) (' ' :: showInt (ra + rb)) (' ' :: showInt (sa + sb))⟩) := by
  obtain ⟨va, hva, wa⟩ := hsa.first
  obtain ⟨vb, hvb, wb⟩ := hsb.first
  obtain ⟨ua, hua, xa⟩ := hsa.last
  obtain ⟨ub, hub, xb⟩ := hsb.last
  obtain ⟨ra', hra, ya⟩ := hsa.records
  obtain ⟨rb', hrb, yb⟩ := hsb.records
  obtain ⟨sa', hsa', za⟩ := hsa.sets
  obtain ⟨sb', hsb', zb⟩ := hsb.sets
  obtain ⟨ea', hea, he⟩ := hsa.epoch
  have o1 : obs E kFirst ⟨fa, a.fields⟩ = .ok ta := obs_says ha.nodup hva wa
  have o2 : obs E kFirst ⟨fb, b.fields⟩ = .ok tb := obs_says hb.nodup hvb wb
  have o3 : obs E kLast ⟨fa, a.fields⟩ = .ok la := obs_says ha.nodup hua xa
  have o4 : obs E kLast ⟨fb, b.fields⟩ = .ok lb := obs_says hb.nodup hub xb
  have n1 : num kRecords ⟨fa, a.fields⟩ = .ok ra := num_says ha.nodup hra ya
  have n2 : num kRecords ⟨fb, b.fields⟩ = .ok rb := num_says hb.nodup hrb yb
  have n3 : num kSets ⟨fa, a.fields⟩ = .ok sa := num_says ha.nodup hsa' za
  have n4 : num kSets ⟨fb, b.fields⟩ = .ok sb := num_says hb.nodup hsb' zb
  have ep : timeEpoch E ⟨fa, a.fields⟩ = .ok ea := by
    unfold timeEpoch
    rw [show Dict.get a.fields kEpoch = some ea' from Dict.get_mem ha.nodup hea]
    show Py.of (E.strptime ea') = _
    rw [he]; rfl
  have hm : headersMatch b.fields a.fields = .ok true := headersMatch_agree ha.nodup hba
  have hlt : ta < tb := by omega
  unfold merge
  rw [hm]
  simp only [Py.bind, o1, o2, if_pos hlt, o3, o4, n1, n2, n3, n4, ep, if_pos h2, Bool.not_true, Bool.false_eq_true, if_false]
  rw [set_merged hb hub hrb hsb']

theorem dump_eq (d : Dict) : dump d = d.flatMap lineOf := by
  unfold dump lineOf
  congr 1
  funext p
  simp

/-- The run on two files, in either order. -/
theorem run_two {E : Env} {d : Disk} {cwd dir fa fb : List Char} {a b : Day} (hra : fa.head? ≠ some '/') (hrb : fb.head? ≠ some '/')
    (hta : fa ≠ tmpName) (htb : fb ≠ tmpName) (ha : Holds (d (path cwd fa)) a) (hb : Holds (d (path cwd fb)) b) (hab : Agree a b)
    {ea ta la ra sa eb tb lb rb sb : Int} (hsa : Says E.strptime a ea ta la ra sa) (hsb : Says E.strptime b eb tb lb rb sb)
    (h1 : ta ≤ la) (h2 : la < tb) (h3 : tb ≤ lb) (hout : resolve cwd (join dir (rename fa)) ≠ path cwd tmpName) :
    let out := resolve cwd (join dir (rename fa))
    let d' := (d.write (path cwd tmpName) (a.data ++ b.data)).write out ((mergedFields a
      (showInt (lb - ea) ++ ".000000 (".toList ++ E.strftime lb ++ ")".toList) (' ' :: showInt (ra + rb))
      (' ' :: showInt (sa + sb))).flatMap lineOf ++ (a.data ++ b.data))
    run E d cwd [fa, fb] dir = .ok d' ∧ run E d cwd [fb, fa] dir = .ok d' := by
  intro out d'
  obtain ⟨va, hva, wa⟩ := hsa.first
  obtain ⟨vb, hvb, wb⟩ := hsb.first
  obtain ⟨ua, hua, xa⟩ := hsa.last
  obtain ⟨ub, hub, xb⟩ := hsb.last
  have o1 : obs E kFirst ⟨fa, a.fields⟩ = .ok ta := obs_says ha.1.nodup hva wa
  have o2 : obs E kFirst ⟨fb, b.fields⟩ = .ok tb := obs_says hb.1.nodup hvb wb
  have o3 : obs E kLast ⟨fa, a.fields⟩ = .ok la := obs_says ha.1.nodup hua xa
  have o4 : obs E kLast ⟨fb, b.fields⟩ = .ok lb := obs_says hb.1.nodup hub xb
  have l1 := load_holds hra ha
  have l2 := load_holds hrb hb
  have tmpEq : resolve cwd tmpName = path cwd tmpName := if_neg (by decide)
  have hpa : path cwd fa ≠ path cwd tmpName := fun h => hta (by simpa [path] using h)
  have hpb : path cwd fb ≠ path cwd tmpName := fun h => htb (by simpa [path] using h)
  have ha' : Holds (d.write (path cwd tmpName) [] (path cwd fa)) a := by
    rw [show d.write (path cwd tmpName) [] (path cwd fa) = d (path cwd fa) from if_neg hpa]; exact ha
  have hb' : Holds (d.write (path cwd tmpName) [] (path cwd fb)) b := by
    rw [show d.write (path cwd tmpName) [] (path cwd fb) = d (path cwd fb) from if_neg hpb]; exact hb
  have hs1 : sort E [⟨fa, a.fields⟩, ⟨fb, b.fields⟩] [] = .ok [⟨fa, a.fields⟩, ⟨fb, b.fields⟩] := by
    have hp : prior E ⟨fb, b.fields⟩ ⟨fa, a.fields⟩ = .ok false := by
      unfold prior
      rw [o4, o1]
      show Py.ok (decide (lb < ta)) = _
      rw [decide_eq_false (by omega)]
    show (insert E ⟨fb, b.fields⟩ [⟨fa, a.fields⟩]).bind (sort E []) = _
    unfold insert
    rw [hp]; rfl
  have hs2 : sort E [⟨fb, b.fields⟩, ⟨fa, a.fields⟩] [] = .ok [⟨fa, a.fields⟩, ⟨fb, b.fields⟩] := by
    have hp : prior E ⟨fa, a.fields⟩ ⟨fb, b.fields⟩ = .ok true := by
      unfold prior
      rw [o3, o2]
      show Py.ok (decide (la < tb)) = _
      rw [decide_eq_true (by omega)]
    show (insert E ⟨fa, a.fields⟩ [⟨fb, b.fields⟩]).bind (sort E []) = _
    unfold insert
    rw [hp]; rfl
  have a1 : loadAll d cwd [fa, fb] = .ok [⟨fa, a.fields⟩, ⟨fb, b.fields⟩] := by
    unfold loadAll
    rw [l1]
    show (loadAll d cwd [fb]).bind _ = _
    unfold loadAll
    rw [l2]; rfl
  have a2 : loadAll d cwd [fb, fa] = .ok [⟨fb, b.fields⟩, ⟨fa, a.fields⟩] := by
    unfold loadAll
    rw [l2]
    show (loadAll d cwd [fa]).bind _ = _
    unfold loadAll
    rw [l1]; rfl
  have hread : ((d.write (path cwd tmpName) (a.data ++ b.data)).write out []) (path cwd tmpName) = some (a.data ++ b.data) := by
    unfold Disk.write
    rw [if_neg (Ne.symm hout), if_pos rfl]
  have hloop : mergeLoop E (d.write (path cwd tmpName) []) cwd [fb] (some ⟨fa, a.fields⟩) a.data = .ok (some ⟨fa, mergedFields a
      (showInt (lb - ea) ++ ".000000 (".toList ++ E.strftime lb ++ ")".toList) (' ' :: showInt (ra + rb))
      (' ' :: showInt (sa + sb))⟩, a.data ++ b.data) := by
    unfold mergeLoop
    rw [load_holds hrb hb']
    show (merge E _ _).bind _ = _
    rw [merge_days ha.1 hb.1 hab hsa hsb h1 h2]
    show (cat _ cwd fb).bind _ = _
    rw [cat_holds hrb hb']
    rfl
  constructor
  · unfold run
    rw [a1]
    show (sort E _ []).bind _ = _
    rw [hs1]
    show (load _ cwd fa).bind _ = _
    rw [tmpEq, load_holds hra ha']
    show (cat _ cwd fa).bind _ = _
    rw [cat_holds hra ha']
    show (mergeLoop _ _ _ [fb] _ _).bind _ = _
    rw [hloop]
    show (Py.of (((d.write (path cwd tmpName) (a.data ++ b.data)).write out []) (path cwd tmpName))).bind _ = _
    rw [hread, dump_eq]; rfl
  · unfold run
    rw [a2]
    show (sort E _ []).bind _ = _
    rw [hs2]
    show (load _ cwd fa).bind _ = _
    rw [tmpEq, load_holds hra ha']
    show (cat _ cwd fa).bind _ = _
    rw [cat_holds hra ha']
    show (mergeLoop _ _ _ [fb] _ _).bind _ = _
    rw [hloop]
    show (Py.of (((d.write (path cwd tmpName) (a.data ++ b.data)).write out []) (path cwd tmpName))).bind _ = _
    rw [hread, dump_eq]; rfl

end Verif.Merge
