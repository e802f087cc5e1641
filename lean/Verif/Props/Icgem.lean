import Verif.Proof.Icgem
/-
C27 - C31: ICGEM gravity models.
-/
namespace Verif.Icgem
open Verif.Chars

variable {T : Type}

/-! ### Lemmas -/

theorem loop_step {resolve : List Char → Entry T → Res (Nat × Entry T)} {use : St T → Entry T → Res (St T)} {line : List Char}
    {lines : List (List Char)} {st : St T} (hl : line.length < 256) :
    loop resolve use (line :: lines) st 0 =
      (resolve line st.entry).bind fun (error, e) => (use st e).bind fun st => loop resolve use lines st error := by
  rw [loop, if_neg (by omega), if_neg (by simp)]

theorem loop_error {resolve : List Char → Entry T → Res (Nat × Entry T)} {use : St T → Entry T → Res (St T)}
    (lines : List (List Char)) (st : St T) {k : Nat} (hk : k ≠ 0) : loop resolve use lines st k = .ok (1, st) := by
  cases lines with
  | nil => rw [loop, if_pos hk]
  | cons l ls => rw [loop]; split <;> simp [hk]

theorem loop1_ok {cal : Cal T} {er : ErrorModel} {n m : Int} {t : T} {all : List (Record T)} (hg : Grouped n m all)
    (ht : ∀ r ∈ all, Within n m r → Triangle r) :
    ∀ {lines : List (List Char)} {rs' : List (Record T)} (_ : List.Forall₂ (GoodLine1 true cal er) lines rs')
      {rs : List (Record T)} {st : St T}, all = rs ++ rs' →
      Inv n m (factor1 cal.years t) (Within n m) rs st → Cur cal.years t n m rs st →
      ∃ st', loop (resolve1 cal er) (use1 cal n m t) lines st 0 = .ok (0, st') ∧
        Inv n m (factor1 cal.years t) (Within n m) all st' := by
  intro lines rs' hf
  induction hf with
  | nil =>
    intro rs st hall hi hc
    rw [List.append_nil] at hall
    subst hall
    exact ⟨st, by simp [loop], hi⟩
  | cons h hf ih =>
    rename_i line r lines rs'
    intro rs st hall hi hc
    obtain ⟨hl, line', h1, h2, h3⟩ := h
    obtain ⟨e, he, hr⟩ := resolve1_ok cal er h1 h2 hl h3 st.entry
    have hmem : r ∈ all := by rw [hall]; simp
    obtain ⟨st1, hu⟩ := use1_ok (e := e) hi hc (by rw [hr]; exact ht r hmem) (by
      rw [hr]
      intro hw k1 k2
      have := hg rs.length r (by rw [hall]; simp) hw k1 k2
      rw [hall] at this
      simpa [lastRef] using this)
    obtain ⟨hi1, hc1, _⟩ := use1_inv hi hc hu
    rw [hr] at hi1 hc1
    obtain ⟨st', h4, h5⟩ := ih (rs := rs ++ [r]) (st := st1) (by rw [hall]; simp) hi1 hc1
    refine ⟨st', ?_, h5⟩
    rw [loop_step (by omega), he]
    simp only [Res.bind, hu]
    exact h4

theorem loop1_sound {cal : Cal T} {er : ErrorModel} {n m : Int} {t : T} :
    ∀ {lines : List (List Char)} {rs : List (Record T)} {st st' : St T},
      Inv n m (factor1 cal.years t) (Within n m) rs st → Cur cal.years t n m rs st → Grouped n m rs →
      loop (resolve1 cal er) (use1 cal n m t) lines st 0 = .ok (0, st') →
      ∃ rs', List.Forall₂ (GoodLine1 false cal er) lines rs' ∧
        Inv n m (factor1 cal.years t) (Within n m) (rs ++ rs') st' ∧ Grouped n m (rs ++ rs') := by
  intro lines
  induction lines with
  | nil =>
    intro rs st st' hi hc hg h
    simp only [loop, Res.ok.injEq, Prod.mk.injEq] at h
    obtain ⟨_, rfl⟩ := h
    exact ⟨[], .nil, by rw [List.append_nil]; exact hi, by rw [List.append_nil]; exact hg⟩
  | cons line lines ih =>
    intro rs st st' hi hc hg h
    by_cases hl : line.length < 256
    swap
    · rw [loop, if_pos (by omega)] at h; cases h
    rw [loop_step hl] at h
    rcases hr : resolve1 cal er line st.entry with ⟨k, e⟩ | _ | _ | _ <;> rw [hr] at h
    · simp only [Res.bind] at h
      rcases hu : use1 cal n m t st e with st1 | _ | _ | _ <;> rw [hu] at h
      · simp only at h
        by_cases hk : k = 0
        swap
        · rw [loop_error lines st1 hk] at h; cases h
        subst hk
        obtain ⟨hi1, hc1, hg1⟩ := use1_inv hi hc hu
        have hg2 : Grouped n m (rs ++ [rec1 e]) := by
          intro i r hir hw k1 k2
          by_cases hlt : i < rs.length
          · rw [List.getElem?_append_left hlt] at hir
            rw [List.take_append_of_le_length (by omega)]
            exact hg i r hir hw k1 k2
          · rw [List.getElem?_append_right (by omega)] at hir
            have h0 : i - rs.length = 0 := by
              by_contra hne
              rw [List.getElem?_eq_none (by simp; omega)] at hir; cases hir
            have hi0 : i = rs.length := by omega
            rw [h0] at hir
            simp at hir
            subst hir
            subst hi0
            simpa [lastRef] using hg1 hw k1 k2
        obtain ⟨rs', hf, h5, h6⟩ := ih hi1 hc1 hg2 h
        refine ⟨rec1 e :: rs', .cons (resolve1_sound hr) hf, ?_, ?_⟩
        · rwa [List.append_cons]
        · rwa [List.append_cons]
      · cases h
      · cases h
      · cases h
    · cases h
    · cases h
    · cases h

theorem loop2_ok [LinearOrder T] {cal : Cal T} {er : ErrorModel} {n m : Int} {t : T} (hmin : cal.min ≤ t) (hmax : t < cal.max) :
    ∀ {lines : List (List Char)} {rs' : List (Record T)} (_ : List.Forall₂ (GoodLine2 true cal er) lines rs')
      {rs : List (Record T)} {st : St T}, (∀ r ∈ rs', Within n m r → Triangle r) →
      Inv n m (fun _ r => factor2 cal.years t r) (Used2 n m t) rs st →
      ∃ st', loop (resolve2 cal er) (use2 cal n m t) lines st 0 = .ok (0, st') ∧
        Inv n m (fun _ r => factor2 cal.years t r) (Used2 n m t) (rs ++ rs') st' := by
  intro lines rs' hf
  induction hf with
  | nil =>
    intro rs st _ hi
    exact ⟨st, by simp [loop], by rw [List.append_nil]; exact hi⟩
  | cons h hf ih =>
    rename_i line r lines rs'
    intro rs st ht hi
    obtain ⟨hl, h3⟩ := h
    obtain ⟨e, he, hr, hgfc⟩ := resolve2_ok cal er h3 st.entry
    obtain ⟨st1, hu⟩ := use2_ok (cal := cal) (t := t) (e := e) hi (by rw [hr]; exact ht r (by simp))
    have hi1 := use2_inv hmin hmax hi hgfc hu
    rw [hr] at hi1
    obtain ⟨st', h4, h5⟩ := ih (rs := rs ++ [r]) (st := st1) (fun x hx => ht x (by simp [hx])) hi1
    refine ⟨st', ?_, by rw [List.append_cons]; exact h5⟩
    rw [loop_step (by omega), he]
    simp only [Res.bind, hu]
    exact h4

theorem loop2_sound [LinearOrder T] {cal : Cal T} {er : ErrorModel} {n m : Int} {t : T} (hmin : cal.min ≤ t) (hmax : t < cal.max) :
    ∀ {lines : List (List Char)} {rs : List (Record T)} {st st' : St T},
      Inv n m (fun _ r => factor2 cal.years t r) (Used2 n m t) rs st →
      loop (resolve2 cal er) (use2 cal n m t) lines st 0 = .ok (0, st') →
      ∃ rs', List.Forall₂ (GoodLine2 false cal er) lines rs' ∧
        Inv n m (fun _ r => factor2 cal.years t r) (Used2 n m t) (rs ++ rs') st' := by
  intro lines
  induction lines with
  | nil =>
    intro rs st st' hi h
    simp only [loop, Res.ok.injEq, Prod.mk.injEq] at h
    obtain ⟨_, rfl⟩ := h
    exact ⟨[], .nil, by rw [List.append_nil]; exact hi⟩
  | cons line lines ih =>
    intro rs st st' hi h
    by_cases hl : line.length < 256
    swap
    · rw [loop, if_pos (by omega)] at h; cases h
    rw [loop_step hl] at h
    rcases hr : resolve2 cal er line st.entry with ⟨k, e⟩ | _ | _ | _ <;> rw [hr] at h
    · simp only [Res.bind] at h
      rcases hu : use2 cal n m t st e with st1 | _ | _ | _ <;> rw [hu] at h
      · simp only at h
        by_cases hk : k = 0
        swap
        · rw [loop_error lines st1 hk] at h; cases h
        subst hk
        obtain ⟨g1, g2⟩ := resolve2_sound hr
        obtain ⟨rs', hf, h5⟩ := ih (use2_inv hmin hmax hi g2 hu) h
        exact ⟨rec2 e :: rs', .cons ⟨hl, g1⟩ hf, by rwa [List.append_cons]⟩
      · cases h
      · cases h
      · cases h
    · cases h
    · cases h
    · cases h

theorem largest_of {used : Record T → Prop} {f : Record T → Int} {rs : List (Record T)} {d : Int} (h0 : 0 ≤ d)
    (h1 : ∀ r ∈ rs, used r → f r ≤ d) (h2 : d = 0 ∨ ∃ r ∈ rs, used r ∧ f r = d) (h3 : ∀ r ∈ rs, used r → 0 ≤ f r) :
    Largest used f rs d := by
  refine ⟨h1, ?_⟩
  by_cases he : ∃ r ∈ rs, used r
  · obtain ⟨r, hr, hu⟩ := he
    rcases h2 with h2 | h2
    · exact Or.inl ⟨r, hr, hu, by have := h1 r hr hu; have := h3 r hr hu; omega⟩
    · exact Or.inl h2
  · push Not at he
    rcases h2 with h2 | ⟨r, hr, hu, _⟩
    · exact Or.inr ⟨h2, he⟩
    · exact absurd hu (he r hr)

/-- The invariant at the end gives the result. -/
theorem result_of {h : Header} {n m : Int} {fac : List (Record T) → Record T → ℝ} {used : Record T → Prop} {rs : List (Record T)}
    {st : St T} (hn : 0 ≤ n) (hm : 0 ≤ m) (hi : Inv n m fac used rs st) :
    Result h n m fac used rs
      (({ st.co with gm := h.gm, re := h.re, normalized := h.normalized } : Coeffs ℝ).shrink st.maxN st.maxM) := by
  have hN := hi.maxN
  have hM := hi.maxM
  have c1 : st.maxN ≤ n := by
    rcases hN.2.2 with g | ⟨r, hr, hu, g⟩
    · omega
    · have := (hi.tri r hr hu).2.1; omega
  have c2 : st.maxM ≤ m := by
    rcases hM.2.2 with g | ⟨r, hr, hu, g⟩
    · omega
    · have := (hi.tri r hr hu).2.2; omega
  have c3 : st.maxM ≤ st.maxN := by
    rcases hM.2.2 with g | ⟨r, hr, hu, g⟩
    · omega
    · have h1 := (hi.tri r hr hu).1.2; have h2 := hN.2.1 r hr hu; omega
  have hs : (({ st.co with gm := h.gm, re := h.re, normalized := h.normalized } : Coeffs ℝ).shrink st.maxN st.maxM) =
      { st.co with gm := h.gm, re := h.re, normalized := h.normalized, deg := st.maxN, ord := st.maxM } := by
    unfold Coeffs.shrink
    rw [if_pos ⟨c3, by simp only [hi.deg]; exact c1, by simp only [hi.ord]; exact c2⟩]
  rw [hs]
  have has : ∀ a b : Nat, b ≤ a → (a : Int) ≤ n →
      Coeffs.Has ({ st.co with gm := h.gm, re := h.re, normalized := h.normalized, deg := st.maxN, ord := st.maxM } : Coeffs ℝ) a b := by
    intro a b hb ha
    refine ⟨by omega, by omega, ?_⟩
    simp only [hi.rows]; omega
  refine ⟨?_, ?_, ?_, largest_of hN.1 hN.2.1 hN.2.2 (fun r hr hu => by have := (hi.tri r hr hu).1; unfold Triangle at this; omega),
    largest_of hM.1 hM.2.1 hM.2.2 (fun r hr hu => (hi.tri r hr hu).1.1), rfl, rfl, rfl,
    by simp only [hi.rows]; omega⟩
  · intro a b hb ha hbm
    unfold Coeffs.getC
    rw [if_pos (has a b hb ha)]
    simp only [Int.toNat_natCast, hi.C]
    rw [if_pos ⟨ha, hbm⟩]
  · intro a b hb ha hbm
    unfold Coeffs.getS
    rw [if_pos (has a b hb ha)]
    simp only [Int.toNat_natCast, hi.S]
    rw [if_pos ⟨ha, hbm⟩]
  · intro a b hmb hb ha
    unfold Coeffs.getC Coeffs.getS
    rw [if_pos (has a b hb ha), if_pos (has a b hb ha)]
    simp only [Int.toNat_natCast, hi.C, hi.S]
    rw [if_neg (by omega), if_neg (by omega)]
    exact ⟨rfl, rfl⟩

/-- The state at the begin of the loop. -/
theorem inv_start (n m : Int) (fac : List (Record T) → Record T → ℝ) (used : Record T → Prop) (co : Coeffs ℝ)
    (hd : co.deg = n) (ho : co.ord = m) (hr : co.rows = (n + 1).toNat) (e : Entry T) :
    Inv n m fac used [] ⟨co.clear, 0, 0, -1, -1, 0, e⟩ :=
  ⟨hd, ho, hr, fun a b => by simp [Coeffs.clear, total_nil], fun a b => by simp [Coeffs.clear, total_nil],
    ⟨le_refl _, by simp, Or.inl rfl⟩, ⟨le_refl _, by simp, Or.inl rfl⟩, by simp⟩

theorem resize_ok (co : Coeffs ℝ) (junk : Nat → Nat → ℝ) {n : Int} (m : Int) (hn : 0 ≤ n) :
    co.resize junk n m = .ok { co with deg := n, ord := m, rows := (n + 1).toNat, C := junk, S := fun i j => junk j (i + 1) } := by
  unfold Coeffs.resize; rw [if_neg (by omega)]

/-! ### C27: the documented formula -/

section
variable [LinearOrder T] (cal : Cal T) (h : Header) (junk : Entry T × (Nat → Nat → ℝ)) (t : T) (co : Coeffs ℝ)
  {lines : List (List Char)} {rs : List (Record T)} {maxDegree maxOrder n m : Int}

/-- C27, C30 (version 1): a file whose lines hold the records `rs` is read, and every coefficient is the sum over its
records of value, trend and periodic terms. Not covered (`_partial`): files in which another `gfct` stands between a
`gfct` and its time dependent terms (`icgem_order_fails`). -/
theorem icgem1_read_partial (hv : h.v2 = false) (hreq : asked h maxDegree maxOrder = (n, m)) (h0 : 0 ≤ m) (h1 : m ≤ n)
    (h2 : n ≤ h.maxDegree) (hlines : List.Forall₂ (GoodLine1 true cal h.errors) lines rs)
    (htri : ∀ r ∈ rs, Within n m r → Triangle r) (_hper : ∀ r ∈ rs, PeriodOk r) (hgrp : Grouped n m rs) :
    ∃ co', parseData cal h junk (some lines) maxDegree maxOrder t co = .ok (0, co') ∧
      Result h n m (factor1 cal.years t) (Within n m) rs co' := by
  obtain ⟨st, hl, hi⟩ := loop1_ok (t := t) hgrp htri hlines (rs := []) rfl
    (inv_start n m _ _ { co with deg := n, ord := m, rows := (n + 1).toNat, C := junk.2, S := fun i j => junk.2 j (i + 1) } rfl rfl rfl junk.1)
    (by simp [Cur, lastRef])
  refine ⟨_, ?_, result_of (by omega) h0 hi⟩
  simp only [asked, Prod.mk.injEq] at hreq
  obtain ⟨r1, r2⟩ := hreq
  rw [r1] at r2
  unfold parseData
  simp only [r1, r2, hv, Bool.false_eq_true, if_false]
  unfold parseWith
  rw [resize_ok co junk.2 m (by omega)]
  simp only [Res.bind]
  rw [if_neg (by omega)]
  simp only [hl]
  rfl

/-- C27, C30 (version 1), the other direction: whenever the reader succeeds, the lines hold records with these sums. -/
theorem icgem1_sound (hv : h.v2 = false) (hreq : asked h maxDegree maxOrder = (n, m)) (h0 : 0 ≤ m) {file : Option (List (List Char))}
    {co' : Coeffs ℝ} (hp : parseData cal h junk file maxDegree maxOrder t co = .ok (0, co')) :
    m ≤ n ∧ n ≤ h.maxDegree ∧ ∃ lines rs, file = some lines ∧ List.Forall₂ (GoodLine1 false cal h.errors) lines rs ∧
      (∀ r ∈ rs, Within n m r → Triangle r) ∧ Grouped n m rs ∧
      ((∀ r ∈ rs, PeriodOk r) → Result h n m (factor1 cal.years t) (Within n m) rs co') := by
  simp only [asked, Prod.mk.injEq] at hreq
  obtain ⟨r1, r2⟩ := hreq
  rw [r1] at r2
  unfold parseData at hp
  simp only [r1, r2, hv, Bool.false_eq_true, if_false] at hp
  unfold parseWith at hp
  unfold Coeffs.resize at hp
  by_cases hn : n < -1
  · rw [if_pos hn] at hp; cases hp
  rw [if_neg hn] at hp
  simp only [Res.bind] at hp
  by_cases hbad : n > h.maxDegree ∨ m > n
  · rw [if_pos hbad] at hp; cases hp
  rw [if_neg hbad] at hp
  cases file with
  | none => cases hp
  | some lines =>
    simp only at hp
    rcases hl : loop (resolve1 cal h.errors) (use1 cal n m t) lines
      ⟨Coeffs.clear { co with deg := n, ord := m, rows := (n + 1).toNat, C := junk.2, S := fun i j => junk.2 j (i + 1) }, 0, 0, -1, -1, 0, junk.1⟩ 0
      with ⟨k, st⟩ | _ | _ | _ <;> rw [hl] at hp
    · simp only at hp
      by_cases hk : k = 0
      swap
      · rw [if_pos hk] at hp; cases hp
      subst hk
      rw [if_neg (by simp)] at hp
      simp only [Res.ok.injEq, Prod.mk.injEq, true_and] at hp
      obtain ⟨rs, hf, hi, hg⟩ := loop1_sound (rs := [])
        (inv_start n m _ _ { co with deg := n, ord := m, rows := (n + 1).toNat, C := junk.2, S := fun i j => junk.2 j (i + 1) } rfl rfl rfl junk.1)
        (by simp [Cur, lastRef]) (by intro i r hir; simp at hir) hl
      refine ⟨by omega, by omega, lines, rs, rfl, hf, fun r hr hw => (hi.tri r hr hw).1, hg, fun _ => ?_⟩
      rw [← hp]
      exact result_of (by omega) h0 hi
    · cases hp
    · cases hp
    · cases hp

/-! ### C28: validity intervals -/

/-- C27, C28, C30 (version 2): a file whose lines hold the records `rs` is read; a record counts iff it is static or
`t0 <= t < t1`. -/
theorem icgem2_read (hv : h.v2 = true) (hmin : cal.min ≤ t) (hmax : t < cal.max) (hreq : asked h maxDegree maxOrder = (n, m))
    (h0 : 0 ≤ m) (h1 : m ≤ n) (h2 : n ≤ h.maxDegree) (hlines : List.Forall₂ (GoodLine2 true cal h.errors) lines rs)
    (htri : ∀ r ∈ rs, Within n m r → Triangle r) (_hper : ∀ r ∈ rs, PeriodOk r) :
    ∃ co', parseData cal h junk (some lines) maxDegree maxOrder t co = .ok (0, co') ∧
      Result h n m (fun _ r => factor2 cal.years t r) (Used2 n m t) rs co' := by
  obtain ⟨st, hl, hi⟩ := loop2_ok hmin hmax hlines (rs := []) htri
    (inv_start n m _ _ { co with deg := n, ord := m, rows := (n + 1).toNat, C := junk.2, S := fun i j => junk.2 j (i + 1) } rfl rfl rfl junk.1)
  refine ⟨_, ?_, result_of (by omega) h0 hi⟩
  simp only [asked, Prod.mk.injEq] at hreq
  obtain ⟨r1, r2⟩ := hreq
  rw [r1] at r2
  unfold parseData
  simp only [r1, r2, hv, if_true]
  unfold parseWith
  rw [resize_ok co junk.2 m (by omega)]
  simp only [Res.bind]
  rw [if_neg (by omega)]
  simp only [hl]
  rfl

/-- C27, C28, C30 (version 2), the other direction. -/
theorem icgem2_sound (hv : h.v2 = true) (hmin : cal.min ≤ t) (hmax : t < cal.max) (hreq : asked h maxDegree maxOrder = (n, m))
    (h0 : 0 ≤ m) {file : Option (List (List Char))} {co' : Coeffs ℝ}
    (hp : parseData cal h junk file maxDegree maxOrder t co = .ok (0, co')) :
    m ≤ n ∧ n ≤ h.maxDegree ∧ ∃ lines rs, file = some lines ∧ List.Forall₂ (GoodLine2 false cal h.errors) lines rs ∧
      (∀ r ∈ rs, Used2 n m t r → Triangle r) ∧
      ((∀ r ∈ rs, PeriodOk r) → Result h n m (fun _ r => factor2 cal.years t r) (Used2 n m t) rs co') := by
  simp only [asked, Prod.mk.injEq] at hreq
  obtain ⟨r1, r2⟩ := hreq
  rw [r1] at r2
  unfold parseData at hp
  simp only [r1, r2, hv, if_true] at hp
  unfold parseWith at hp
  unfold Coeffs.resize at hp
  by_cases hn : n < -1
  · rw [if_pos hn] at hp; cases hp
  rw [if_neg hn] at hp
  simp only [Res.bind] at hp
  by_cases hbad : n > h.maxDegree ∨ m > n
  · rw [if_pos hbad] at hp; cases hp
  rw [if_neg hbad] at hp
  cases file with
  | none => cases hp
  | some lines =>
    simp only at hp
    rcases hl : loop (resolve2 cal h.errors) (use2 cal n m t) lines
      ⟨Coeffs.clear { co with deg := n, ord := m, rows := (n + 1).toNat, C := junk.2, S := fun i j => junk.2 j (i + 1) }, 0, 0, -1, -1, 0, junk.1⟩ 0
      with ⟨k, st⟩ | _ | _ | _ <;> rw [hl] at hp
    · simp only at hp
      by_cases hk : k = 0
      swap
      · rw [if_pos hk] at hp; cases hp
      subst hk
      rw [if_neg (by simp)] at hp
      simp only [Res.ok.injEq, Prod.mk.injEq, true_and] at hp
      obtain ⟨rs, hf, hi⟩ := loop2_sound hmin hmax (rs := [])
        (inv_start n m _ _ { co with deg := n, ord := m, rows := (n + 1).toNat, C := junk.2, S := fun i j => junk.2 j (i + 1) } rfl rfl rfl junk.1) hl
      refine ⟨by omega, by omega, lines, rs, rfl, hf, fun r hr hw => (hi.tri r hr hw).1, fun _ => ?_⟩
      rw [← hp]
      exact result_of (by omega) h0 hi
    · cases hp
    · cases hp
    · cases hp

/-! ### C29: nothing is written outside the matrices -/

omit [LinearOrder T] in
theorem store_not_ub {n m : Int} {fac : List (Record T) → Record T → ℝ} {A : Record T → Prop} {rs : List (Record T)}
    {st : St T} (hi : Inv n m fac A rs st) {e : Entry T} (h0 : 0 ≤ e.order) (h1 : e.order ≤ e.degree) (h2 : e.degree ≤ n) (f : ℝ) :
    Icgem.store st e f ≠ .ub := by
  obtain ⟨st', h⟩ := store_ok hi h0 h1 h2 f
  rw [h]; simp

omit [LinearOrder T] in
theorem use1_not_ub {cal : Cal T} {n m : Int} {t : T} {fac : List (Record T) → Record T → ℝ} {A : Record T → Prop}
    {rs : List (Record T)} {st : St T} {e : Entry T} (hi : Inv n m fac A rs st)
    (ht : Within n m (rec1 e) → Triangle (rec1 e)) : use1 cal n m t st e ≠ .ub := by
  obtain ⟨f1, f2, f3, f4⟩ := rec1_fields e
  unfold use1
  by_cases hw : e.degree ≤ n ∧ e.order ≤ m
  swap
  · rw [if_neg hw]; simp
  rw [if_pos hw]
  have hw' : Within n m (rec1 e) := by rw [Within, f1, f2]; exact hw
  have htri := ht hw'
  rw [Triangle, f1, f2] at htri
  have hst := fun f => store_not_ub hi htri.1 htri.2 hw.1 f
  cases hk : e.key with
  | gfc => exact hst 1
  | gfct =>
    have hi' : Inv n m fac A rs { st with curN := e.degree, curM := e.order, dt := cal.years t e.t0 } :=
      ⟨hi.deg, hi.ord, hi.rows, hi.C, hi.S, hi.maxN, hi.maxM, hi.tri⟩
    exact store_not_ub hi' htri.1 htri.2 hw.1 1
  | trnd => simp only; split; exacts [hst _, by simp]
  | asin => simp only; split; exacts [hst _, by simp]
  | acos => simp only; split; exacts [hst _, by simp]

omit [LinearOrder T] in
theorem loop1_not_ub {cal : Cal T} {er : ErrorModel} {n m : Int} {t : T} :
    ∀ {lines : List (List Char)} {rs' : List (Record T)} (_ : List.Forall₂ (GoodLine1 true cal er) lines rs')
      (_ : ∀ r ∈ rs', Within n m r → Triangle r) {rs : List (Record T)} {st : St T},
      Inv n m (factor1 cal.years t) (Within n m) rs st → Cur cal.years t n m rs st →
      loop (resolve1 cal er) (use1 cal n m t) lines st 0 ≠ .ub := by
  intro lines rs' hf
  induction hf with
  | nil => intro _ rs st hi hc; simp [loop]
  | cons h hf ih =>
    rename_i line r lines rs'
    intro ht rs st hi hc
    obtain ⟨hl, line', h1, h2, h3⟩ := h
    obtain ⟨e, he, hr⟩ := resolve1_ok cal er h1 h2 hl h3 st.entry
    rw [loop_step (by omega), he]
    simp only [Res.bind]
    have hnu := use1_not_ub (cal := cal) (t := t) (e := e) hi (by rw [hr]; exact ht r (by simp))
    rcases hu : use1 cal n m t st e with st1 | _ | _ | _
    · obtain ⟨hi1, hc1, _⟩ := use1_inv hi hc hu
      exact ih (fun x hx => ht x (by simp [hx])) hi1 hc1
    · exact absurd hu hnu
    · simp
    · simp

/-- C29: reading a file whose lines are all readable and name existing coefficients never goes out of bounds, for every
request (`_partial`: other files, see `icgem_bad_index_fails`, `icgem_unknown_line_fails`). -/
theorem icgem_no_oob_partial (hreq : asked h maxDegree maxOrder = (n, m)) (hn : 0 ≤ n) (hmin : cal.min ≤ t) (hmax : t < cal.max)
    (hlines : if h.v2 then List.Forall₂ (GoodLine2 true cal h.errors) lines rs
      else List.Forall₂ (GoodLine1 true cal h.errors) lines rs)
    (htri : ∀ r ∈ rs, Within n m r → Triangle r) :
    parseData cal h junk (some lines) maxDegree maxOrder t co ≠ .ub := by
  simp only [asked, Prod.mk.injEq] at hreq
  obtain ⟨r1, r2⟩ := hreq
  rw [r1] at r2
  unfold parseData
  simp only [r1, r2]
  cases hv : h.v2
  · rw [hv] at hlines
    simp only [Bool.false_eq_true, if_false] at hlines ⊢
    unfold parseWith
    rw [resize_ok co junk.2 m hn]
    simp only [Res.bind]
    split
    · simp
    · have := loop1_not_ub (t := t) hlines htri (rs := [])
        (inv_start n m _ _ { co with deg := n, ord := m, rows := (n + 1).toNat, C := junk.2, S := fun i j => junk.2 j (i + 1) } rfl rfl rfl junk.1)
        (by simp [Cur, lastRef])
      rcases hl : loop (resolve1 cal h.errors) (use1 cal n m t) lines
        ⟨Coeffs.clear { co with deg := n, ord := m, rows := (n + 1).toNat, C := junk.2, S := fun i j => junk.2 j (i + 1) }, 0, 0, -1, -1, 0, junk.1⟩ 0
        with ⟨k, st⟩ | _ | _ | _
      · simp only; split <;> simp
      · exact absurd hl this
      · simp
      · simp
  · rw [hv] at hlines
    simp only [if_true] at hlines ⊢
    unfold parseWith
    rw [resize_ok co junk.2 m hn]
    simp only [Res.bind]
    split
    · simp
    · obtain ⟨st, hl, hi⟩ := loop2_ok hmin hmax hlines (rs := []) htri
        (inv_start n m _ _ { co with deg := n, ord := m, rows := (n + 1).toNat, C := junk.2, S := fun i j => junk.2 j (i + 1) } rfl rfl rfl junk.1)
      simp only [hl]
      simp

/-- A bad request (degree beyond the file's, or order beyond the degree) is rejected. -/
theorem icgem_bad_request (hreq : asked h maxDegree maxOrder = (n, m)) (hn : 0 ≤ n) (hbad : n > h.maxDegree ∨ m > n)
    (file : Option (List (List Char))) :
    parseData cal h junk file maxDegree maxOrder t co =
      .ok (1, { co with deg := n, ord := m, rows := (n + 1).toNat, C := fun _ _ => 0, S := fun _ _ => 0 }) := by
  simp only [asked, Prod.mk.injEq] at hreq
  obtain ⟨r1, r2⟩ := hreq
  rw [r1] at r2
  unfold parseData
  simp only [r1, r2]
  split <;>
  · unfold parseWith
    rw [resize_ok co junk.2 m hn]
    simp only [Res.bind]
    rw [if_pos hbad]
    rfl

/-- C29 does not hold for every file: a line within the request for a coefficient that does not exist makes the reader write
outside the matrices. -/
theorem icgem_bad_index_fails (hv : h.v2 = false) (hreq : asked h maxDegree maxOrder = (n, m)) (hn : 0 ≤ n) (h1 : m ≤ n)
    (h2 : n ≤ h.maxDegree) {line : List Char} {r : Record T} (hline : GoodLine1 true cal h.errors line r) (hk : r.kind = .static)
    (hw : Within n m r) (ht : ¬ Triangle r) (lines : List (List Char)) :
    parseData cal h junk (some (line :: lines)) maxDegree maxOrder t co = .ub := by
  simp only [asked, Prod.mk.injEq] at hreq
  obtain ⟨r1, r2⟩ := hreq
  rw [r1] at r2
  unfold parseData
  simp only [r1, r2, hv, Bool.false_eq_true, if_false]
  unfold parseWith
  rw [resize_ok co junk.2 m hn]
  simp only [Res.bind]
  rw [if_neg (by omega)]
  obtain ⟨hl, line', g1, g2, g3⟩ := hline
  obtain ⟨e, he, hr⟩ := resolve1_ok cal h.errors g1 g2 hl g3 junk.1
  obtain ⟨f1, f2, _, _⟩ := rec1_fields e
  have hkey : e.key = .gfc := by
    rw [← hr] at hk
    unfold rec1 at hk
    cases hk' : e.key <;> rw [hk'] at hk <;> simp at hk ⊢
  have hwi : e.degree ≤ n ∧ e.order ≤ m := by rw [← hr, Within, f1, f2] at hw; exact hw
  simp only [loop_step (show line.length < 256 by omega), he, Res.bind]
  unfold use1
  rw [if_pos hwi, hkey]
  simp only
  unfold Icgem.store Coeffs.addAt
  rw [if_neg]
  · rfl
  · rintro ⟨a1, a2, _⟩
    rw [← hr, Triangle, f1, f2] at ht
    exact ht ⟨a1, a2⟩

/-- C29 does not hold for every file: if the first line has no known keyword, the uninitialised entry is used, and
the outcome depends on it. -/
theorem icgem_unknown_line_fails (hv : h.v2 = false) (h2 : 0 ≤ h.maxDegree) (e : Entry T) (f : Nat → Nat → ℝ) :
    ∃ junkEntry : Entry T, parseData cal h (junkEntry, f) (some ["gfx 0 0 1 0".toList]) (-1) (-1) t co = .ub := by
  refine ⟨{ e with key := .gfc, degree := -1, order := 0 }, ?_⟩
  unfold parseData
  simp only [hv, Bool.false_eq_true, if_false]
  unfold parseWith
  rw [resize_ok co _ _ (by simpa using h2)]
  have hr : ∀ e : Entry T, resolve1 cal h.errors "gfx 0 0 1 0".toList e = .ok (1, e) := by
    intro e; unfold resolve1; simp
  simp only [Res.bind, loop_step (show "gfx 0 0 1 0".toList.length < 256 by decide), hr, use1]
  simp [Icgem.store, Coeffs.addAt, Coeffs.Has, Res.bind, h2]
  rw [if_pos (by omega)]

/-! ### C31: Fortran exponents -/

omit [LinearOrder T] in
theorem loop1_fortran (er : ErrorModel) (use : St T → Entry T → Res (St T)) {lines lines' : List (List Char)}
    (hf : List.Forall₂ Fortran lines lines') : ∀ (st : St T) (k : Nat),
    loop (resolve1 cal er) use lines st k = loop (resolve1 cal er) use lines' st k := by
  induction hf with
  | nil => intros; rfl
  | cons h _ ih =>
    intro st k
    rw [loop, loop, resolve1_congr cal er h, h.2.1]
    simp only [ih]

/-- C31 (version 1): a file with exponents written `D+`, `D-`, `d+`, `d-` instead of `e+`, `e-` is read the same way, in
every column of every line (`_partial`: exponents without a sign, and version 2, are not; see `icgem_fortran_fails`). -/
theorem icgem1_fortran_partial (hv : h.v2 = false) {lines lines' : List (List Char)} (hf : List.Forall₂ Fortran lines lines') :
    parseData cal h junk (some lines) maxDegree maxOrder t co = parseData cal h junk (some lines') maxDegree maxOrder t co := by
  unfold parseData
  simp only [hv, Bool.false_eq_true, if_false]
  unfold parseWith
  simp only [loop1_fortran cal h.errors _ hf]

end

/-! ### Concrete lines -/

/-- Dates as numbers yyyymmdd, years as differences of the year. -/
noncomputable def exCal : Cal Int where
  date := fun y m d _ _ => y * 10000 + m * 100 + d
  years := fun a b => ((a - b : Int) : ℝ) / 10000
  min := 0
  max := 100000000

theorem cols_1 (strict : Bool) (rest : List Char) (hr : Ends rest) : ColsAt strict ws1 (" 2 0 1.5e-3 2.0".toList ++ rest) 2 0 (3 / 2000) 2 rest :=
  ⟨" 0 1.5e-3 2.0".toList ++ rest, " 1.5e-3 2.0".toList ++ rest, " 2.0".toList ++ rest,
    ⟨[' '], ⟨false, ['2']⟩, by decide, ⟨by decide, by decide⟩, rfl, rfl, by simp [isDig], by decide, by decide⟩,
    ⟨[' '], ⟨false, ['0']⟩, by decide, ⟨by decide, by decide⟩, rfl, rfl, by simp [isDig], by decide, by decide⟩,
    ⟨[' '], ⟨false, ['1'], some ['5'], some ('e', some true, ['3'])⟩, by decide, Dec.ok_of (by decide), by decide +kernel, rfl,
      fun _ => by simp [Ends, isDig]⟩,
    ⟨[' '], ⟨false, ['2'], some ['0'], none⟩, by decide, Dec.ok_of (by decide), by decide +kernel, rfl, fun _ => hr⟩⟩

theorem cols_2 (strict : Bool) (rest : List Char) (hr : Ends rest) : ColsAt strict ws1 (" 2 1 1.5e-3 2.0".toList ++ rest) 2 1 (3 / 2000) 2 rest :=
  ⟨" 1 1.5e-3 2.0".toList ++ rest, " 1.5e-3 2.0".toList ++ rest, " 2.0".toList ++ rest,
    ⟨[' '], ⟨false, ['2']⟩, by decide, ⟨by decide, by decide⟩, rfl, rfl, by simp [isDig], by decide, by decide⟩,
    ⟨[' '], ⟨false, ['1']⟩, by decide, ⟨by decide, by decide⟩, rfl, rfl, by simp [isDig], by decide, by decide⟩,
    ⟨[' '], ⟨false, ['1'], some ['5'], some ('e', some true, ['3'])⟩, by decide, Dec.ok_of (by decide), by decide +kernel, rfl,
      fun _ => by simp [Ends, isDig]⟩,
    ⟨[' '], ⟨false, ['2'], some ['0'], none⟩, by decide, Dec.ok_of (by decide), by decide +kernel, rfl, fun _ => hr⟩⟩

theorem cols_3 (strict : Bool) (rest : List Char) (hr : Ends rest) : ColsAt strict ws1 (" 1 2 1.5e-3 2.0".toList ++ rest) 1 2 (3 / 2000) 2 rest :=
  ⟨" 2 1.5e-3 2.0".toList ++ rest, " 1.5e-3 2.0".toList ++ rest, " 2.0".toList ++ rest,
    ⟨[' '], ⟨false, ['1']⟩, by decide, ⟨by decide, by decide⟩, rfl, rfl, by simp [isDig], by decide, by decide⟩,
    ⟨[' '], ⟨false, ['2']⟩, by decide, ⟨by decide, by decide⟩, rfl, rfl, by simp [isDig], by decide, by decide⟩,
    ⟨[' '], ⟨false, ['1'], some ['5'], some ('e', some true, ['3'])⟩, by decide, Dec.ok_of (by decide), by decide +kernel, rfl,
      fun _ => by simp [Ends, isDig]⟩,
    ⟨[' '], ⟨false, ['2'], some ['0'], none⟩, by decide, Dec.ok_of (by decide), by decide +kernel, rfl, fun _ => hr⟩⟩

theorem noFortran_of {line : List Char} (h : ∀ c ∈ line.drop 4, c ≠ 'D' ∧ c ≠ 'd') : NoFortran line := by
  intro i c d hi hc _ _
  apply h c
  rw [List.mem_iff_getElem?]
  exact ⟨i - 4, by rw [List.getElem?_drop, show 4 + (i - 4) = i by omega]; exact hc⟩

theorem fortran_refl (line : List Char) : Fortran line line :=
  ⟨rfl, rfl, fun i c c' h1 h2 => by rw [h1] at h2; injection h2 with h2; exact Or.inl h2.symm⟩

/-- Columns of errors and a date. -/
theorem skip_date (d : String) (c : Char) (cs : List Char) (hd : d.toList = c :: cs) (hc : ws1 c = false) :
    Skips ws1 2 (" 1e-9 1e-9 ".toList ++ d.toList) d.toList :=
  ⟨1, "1e-9".toList, "1e-9 ".toList ++ d.toList, by decide, ⟨'1', by decide, by decide⟩, by simp,
    0, "1e-9".toList, d.toList, by decide, ⟨'1', by decide, by decide⟩, by simp, [], by simp, by simp, by rw [hd]; simpa using hc⟩

theorem line_gfct20 : GoodLine1 true exCal .formal "gfct 2 0 1.5e-3 2.0 1e-9 1e-9 20000101".toList
    ⟨.ref, 2, 0, 3 / 2000, 2, some 20000101, none⟩ := by
  refine ⟨by decide, _, fortran_refl _, noFortran_of (by decide), ?_⟩
  exact Line1.gfct (cal := exCal) (line := " 2 0 1.5e-3 2.0 1e-9 1e-9 20000101".toList)
    (rest := " 1e-9 1e-9 20000101".toList) (cols_1 true _ (by unfold Ends; decide))
    (rest' := "20000101".toList) (skip_date "20000101" '2' "0000101".toList rfl rfl)
    (y := 2000) (mo := 1) (d := 1) (rest'' := [])
    ⟨"0101".toList, "01".toList, ⟨⟨false, "2000".toList⟩, ⟨by decide, by decide⟩, rfl, rfl, by decide, fun _ => rfl⟩,
      ⟨⟨false, "01".toList⟩, ⟨by decide, by decide⟩, rfl, rfl, by decide, fun _ => rfl⟩,
      ⟨⟨false, "01".toList⟩, ⟨by decide, by decide⟩, rfl, rfl, by decide, fun _ => rfl⟩⟩

theorem line_gfct21 : GoodLine1 true exCal .formal "gfct 2 1 1.5e-3 2.0 1e-9 1e-9 20050101".toList
    ⟨.ref, 2, 1, 3 / 2000, 2, some 20050101, none⟩ := by
  refine ⟨by decide, _, fortran_refl _, noFortran_of (by decide), ?_⟩
  exact Line1.gfct (cal := exCal) (line := " 2 1 1.5e-3 2.0 1e-9 1e-9 20050101".toList)
    (rest := " 1e-9 1e-9 20050101".toList) (cols_2 true _ (by unfold Ends; decide))
    (rest' := "20050101".toList) (skip_date "20050101" '2' "0050101".toList rfl rfl)
    (y := 2005) (mo := 1) (d := 1) (rest'' := [])
    ⟨"0101".toList, "01".toList, ⟨⟨false, "2005".toList⟩, ⟨by decide, by decide⟩, rfl, rfl, by decide, fun _ => rfl⟩,
      ⟨⟨false, "01".toList⟩, ⟨by decide, by decide⟩, rfl, rfl, by decide, fun _ => rfl⟩,
      ⟨⟨false, "01".toList⟩, ⟨by decide, by decide⟩, rfl, rfl, by decide, fun _ => rfl⟩⟩

/-- The exponent is written the Fortran way. -/
theorem line_trnd20 : GoodLine1 true exCal .formal "trnd 2 0 1.5D-3 2.0 1e-9 1e-9".toList
    ⟨.trend, 2, 0, 3 / 2000, 2, none, none⟩ := by
  refine ⟨by decide, "trnd 2 0 1.5e-3 2.0 1e-9 1e-9".toList, ?_, noFortran_of (by decide), ?_⟩
  · have := fortran_plain "trnd 2 0 1.5D-3 2.0 1e-9 1e-9".toList
    rwa [show plain "trnd 2 0 1.5D-3 2.0 1e-9 1e-9".toList = "trnd 2 0 1.5e-3 2.0 1e-9 1e-9".toList by decide] at this
  · exact Line1.trnd (cal := exCal) (line := " 2 0 1.5e-3 2.0 1e-9 1e-9".toList) (cols_1 true _ (by unfold Ends; decide))

theorem line_asin20 : GoodLine1 true exCal .formal "asin 2 0 1.5e-3 2.0 1e-9 1e-9 0.5".toList
    ⟨.sin (1 / 2), 2, 0, 3 / 2000, 2, none, none⟩ := by
  refine ⟨by decide, _, fortran_refl _, noFortran_of (by decide), ?_⟩
  exact Line1.asin (cal := exCal) (line := " 2 0 1.5e-3 2.0 1e-9 1e-9 0.5".toList) (rest := " 1e-9 1e-9 0.5".toList)
    (cols_1 true _ (by unfold Ends; decide)) (rest' := "0.5".toList)
    (skip_date "0.5" '0' ".5".toList rfl rfl) (rest'' := [])
    ⟨[], ⟨false, ['0'], some ['5'], none⟩, by simp, Dec.ok_of (by decide), by decide +kernel, rfl, fun _ => by simp [Ends]⟩

theorem line_bad : GoodLine1 true exCal .formal "gfc  1 2 1.5e-3 2.0".toList ⟨.static, 1, 2, 3 / 2000, 2, none, none⟩ := by
  refine ⟨by decide, _, fortran_refl _, noFortran_of (by decide), ?_⟩
  exact Line1.gfc (cal := exCal) (line := " 1 2 1.5e-3 2.0".toList) (cols_3 true [] (by simp [Ends]))

/-- A header of degree 3, version 1. -/
def exHeader : Header := ⟨false, 3, .formal, 1, 1, true⟩

/-- The hypotheses of `icgem1_read_partial` are met by a file with all kinds of time dependence. -/
example : let rs : List (Record Int) := [⟨.ref, 2, 0, 3 / 2000, 2, some 20000101, none⟩, ⟨.trend, 2, 0, 3 / 2000, 2, none, none⟩,
      ⟨.sin (1 / 2), 2, 0, 3 / 2000, 2, none, none⟩, ⟨.ref, 2, 1, 3 / 2000, 2, some 20050101, none⟩]
    asked exHeader (-1) (-1) = (3, 3) ∧
    List.Forall₂ (GoodLine1 true exCal exHeader.errors) ["gfct 2 0 1.5e-3 2.0 1e-9 1e-9 20000101".toList,
      "trnd 2 0 1.5D-3 2.0 1e-9 1e-9".toList, "asin 2 0 1.5e-3 2.0 1e-9 1e-9 0.5".toList,
      "gfct 2 1 1.5e-3 2.0 1e-9 1e-9 20050101".toList] rs ∧
    (∀ r ∈ rs, Within 3 3 r → Triangle r) ∧ (∀ r ∈ rs, PeriodOk r) ∧ Grouped 3 3 rs := by
  refine ⟨by decide, .cons line_gfct20 (.cons line_trnd20 (.cons line_asin20 (.cons line_gfct21 .nil))), ?_, ?_, ?_⟩
  · simp [Triangle]
  · simp [PeriodOk]
  · intro i r hi hw k1 k2
    match i, hi with
    | 0, hi => simp at hi; subst hi; simp at k2
    | 1, hi => simp at hi; subst hi; exact ⟨⟨.ref, 2, 0, 3 / 2000, 2, some 20000101, none⟩, by simp [Within], rfl, rfl⟩
    | 2, hi => simp at hi; subst hi; exact ⟨⟨.ref, 2, 0, 3 / 2000, 2, some 20000101, none⟩, by simp [Within], rfl, rfl⟩
    | 3, hi => simp at hi; subst hi; simp at k2
    | n + 4, hi => simp at hi

/-- The hypotheses of `icgem_bad_index_fails` are met. -/
example : asked exHeader (-1) (-1) = (3, 3) ∧ GoodLine1 true exCal exHeader.errors "gfc  1 2 1.5e-3 2.0".toList
      ⟨.static, 1, 2, 3 / 2000, 2, none, none⟩ ∧
    Within 3 3 (⟨.static, 1, 2, 3 / 2000, 2, none, none⟩ : Record Int) ∧
    ¬ Triangle (⟨.static, 1, 2, 3 / 2000, 2, none, none⟩ : Record Int) :=
  ⟨by decide, line_bad, by decide, by simp [Triangle]⟩

/-- C27 fails for files in another order: with a `gfct` of another coefficient before the trend, the reader aborts,
although every line is good and the reference epoch of the trend is known. -/
theorem icgem_order_fails (junk : Entry Int × (Nat → Nat → ℝ)) (t : Int) (co : Coeffs ℝ) :
    parseData exCal exHeader junk (some ["gfct 2 0 1.5e-3 2.0 1e-9 1e-9 20000101".toList,
      "gfct 2 1 1.5e-3 2.0 1e-9 1e-9 20050101".toList, "trnd 2 0 1.5D-3 2.0 1e-9 1e-9".toList]) (-1) (-1) t co = .abort := by
  have hh : exHeader.v2 = false := rfl
  have hm : exHeader.maxDegree = 3 := rfl
  unfold parseData
  simp only [hh, hm, Bool.false_eq_true, if_false, show ((-1 : Int) < 0) = True by simp, if_true]
  unfold parseWith
  rw [resize_ok co junk.2 3 (by norm_num)]
  simp only [Res.bind, hm]
  rw [if_neg (by norm_num)]
  obtain ⟨l1, _, a1, a2, a3⟩ := line_gfct20
  obtain ⟨e1, b1, c1⟩ := resolve1_ok exCal .formal a1 a2 l1 a3 junk.1
  set co0 : Coeffs ℝ := { co with deg := 3, ord := 3, rows := ((3 : Int) + 1).toNat, C := junk.2, S := fun i j => junk.2 j (i + 1) } with hco0
  have i0 := inv_start 3 3 (factor1 exCal.years t) (Within 3 3) co0 rfl rfl rfl junk.1
  have k0 : Cur exCal.years t 3 3 [] (⟨co0.clear, 0, 0, -1, -1, 0, junk.1⟩ : St Int) := by simp [Cur, lastRef]
  obtain ⟨s1, u1⟩ := use1_ok (e := e1) i0 k0 (by rw [c1]; simp [Triangle]) (by rw [c1]; simp)
  obtain ⟨i1, k1, _⟩ := use1_inv i0 k0 u1
  rw [c1] at i1 k1
  obtain ⟨l2, _, a4, a5, a6⟩ := line_gfct21
  obtain ⟨e2, b2, c2⟩ := resolve1_ok exCal .formal a4 a5 l2 a6 s1.entry
  obtain ⟨s2, u2⟩ := use1_ok (e := e2) i1 k1 (by rw [c2]; simp [Triangle]) (by rw [c2]; simp)
  obtain ⟨i2, k2, _⟩ := use1_inv i1 k1 u2
  rw [c2] at i2 k2
  obtain ⟨l3, _, a7, a8, a9⟩ := line_trnd20
  obtain ⟨e3, b3, c3⟩ := resolve1_ok exCal .formal a7 a8 l3 a9 s2.entry
  have hcur : s2.curN = 2 ∧ s2.curM = 1 := by
    unfold Cur at k2
    simp [lastRef, Within] at k2
    exact ⟨k2.1, k2.2.1⟩
  have u3 : use1 exCal 3 3 t s2 e3 = .abort := by
    obtain ⟨f1, f2, _, _⟩ := rec1_fields e3
    rw [c3] at f1 f2
    simp only at f1 f2
    have hkey : e3.key = .trnd := by
      have : (rec1 e3).kind = .trend := by rw [c3]
      unfold rec1 at this
      cases hk' : e3.key <;> rw [hk'] at this <;> simp at this ⊢
    unfold use1
    rw [← f1, ← f2, if_pos (by norm_num), hkey]
    simp only
    rw [if_neg (by rw [hcur.2]; norm_num)]
  rw [show exHeader.errors = .formal from rfl, loop_step (by omega), b1]
  simp only [Res.bind, u1]
  rw [loop_step (by omega), b2]
  simp only [Res.bind, u2]
  rw [loop_step (by omega), b3]
  simp only [Res.bind, u3]

/-- C31 fails: without a sign the exponent of the last column is dropped silently. In version 2 also with a sign. -/
theorem icgem_fortran_fails (cal : Cal Int) (e : Entry Int) :
    (∃ e', resolve1 cal .no "gfc  2 0 1.5e-3 2.0D05".toList e = .ok (0, e') ∧ e'.S = 2) ∧
    (∃ e', resolve2 cal .no "gfc  2 0 1.5e-3 2.0D-04".toList e = .ok (0, e') ∧ e'.S = 2) := by
  constructor
  · have := Line1.gfc (cal := cal) (er := .no) (line := " 2 0 1.5e-3 2.0D05".toList) (cols_1 true "D05".toList (by unfold Ends; decide))
    obtain ⟨e', h1, h2⟩ := resolve1_ok cal .no (fortran_refl _) (by
      intro i c d hi hc hd hs
      exact (fun (h : ∀ i, 4 ≤ i → ∀ c ∈ ("gfc  2 0 1.5e-3 2.0D05".toList)[i]?, ∀ d ∈ ("gfc  2 0 1.5e-3 2.0D05".toList)[i + 1]?,
        (d = '+' ∨ d = '-') → c ≠ 'D' ∧ c ≠ 'd') => h i hi c hc d hd hs) (by
          intro i hi
          by_cases hl : i < 22
          · revert hi; revert i; decide
          · intro c hc; rw [List.getElem?_eq_none (by show (22 : Nat) ≤ i; omega)] at hc; cases hc)) (by decide) this e
    exact ⟨e', h1, by rw [← (rec1_fields e').2.2.2, h2]⟩
  · have hc : ColsAt true ws2 (" 2 0 1.5e-3 2.0D-04".toList) 2 0 (3 / 2000) 2 "D-04".toList :=
      ⟨" 0 1.5e-3 2.0D-04".toList, " 1.5e-3 2.0D-04".toList, " 2.0D-04".toList,
        ⟨[' '], ⟨false, ['2']⟩, by decide, ⟨by decide, by decide⟩, rfl, rfl, by decide, by decide, by decide⟩,
        ⟨[' '], ⟨false, ['0']⟩, by decide, ⟨by decide, by decide⟩, rfl, rfl, by decide, by decide, by decide⟩,
        ⟨[' '], ⟨false, ['1'], some ['5'], some ('e', some true, ['3'])⟩, by decide, Dec.ok_of (by decide), by decide +kernel, rfl,
          fun _ => by unfold Ends; decide⟩,
        ⟨[' '], ⟨false, ['2'], some ['0'], none⟩, by decide, Dec.ok_of (by decide), by decide +kernel, rfl,
          fun _ => by unfold Ends; decide⟩⟩
    obtain ⟨e', h1, h2, _⟩ := resolve2_ok cal .no (Line2.gfc (cal := cal) (er := .no) hc) e
    exact ⟨e', h1, by rw [← (rec2_fields e').2.2.2, h2]⟩

/-- A field of two digits. -/
theorem field2 (a b : Char) (ha : isDig a) (hb : isDig b) (rest : List Char) :
    FieldAt true 2 (a :: b :: rest) (natOf [a, b]) rest :=
  ⟨⟨false, [a, b]⟩, ⟨by simp, by simp [ha, hb]⟩, by simp [IntText.value], rfl, by simp [IntText.text], fun _ => by simp [IntText.text]⟩

theorem field4 (a b c d : Char) (h : ∀ x ∈ [a, b, c, d], isDig x) (rest : List Char) :
    FieldAt true 4 (a :: b :: c :: d :: rest) (natOf [a, b, c, d]) rest :=
  ⟨⟨false, [a, b, c, d]⟩, ⟨by simp, h⟩, by simp [IntText.value], rfl, by simp [IntText.text], fun _ => by simp [IntText.text]⟩

theorem line2_trnd : GoodLine2 true exCal .formal "trnd 2 0 1.5e-3 2.0 1e-9 1e-9 20000101.0000 20050101.0000".toList
    ⟨.trend, 2, 0, 3 / 2000, 2, some 20000101, some 20050101⟩ := by
  refine ⟨by decide, ?_⟩
  exact Line2.trnd (cal := exCal) (line := " 2 0 1.5e-3 2.0 1e-9 1e-9 20000101.0000 20050101.0000".toList)
    (rest := " 1e-9 1e-9 20000101.0000 20050101.0000".toList)
    ⟨" 0 1.5e-3 2.0 1e-9 1e-9 20000101.0000 20050101.0000".toList, " 1.5e-3 2.0 1e-9 1e-9 20000101.0000 20050101.0000".toList,
      " 2.0 1e-9 1e-9 20000101.0000 20050101.0000".toList,
      ⟨[' '], ⟨false, ['2']⟩, by decide, ⟨by decide, by decide⟩, rfl, rfl, by decide, by decide, by decide⟩,
      ⟨[' '], ⟨false, ['0']⟩, by decide, ⟨by decide, by decide⟩, rfl, rfl, by decide, by decide, by decide⟩,
      ⟨[' '], ⟨false, ['1'], some ['5'], some ('e', some true, ['3'])⟩, by decide, Dec.ok_of (by decide), by decide +kernel, rfl,
        fun _ => by unfold Ends; decide⟩,
      ⟨[' '], ⟨false, ['2'], some ['0'], none⟩, by decide, Dec.ok_of (by decide), by decide +kernel, rfl,
        fun _ => by unfold Ends; decide⟩⟩
    (r1 := "20000101.0000 20050101.0000".toList)
    (show Skips ws2 2 _ _ from ⟨1, "1e-9".toList, "1e-9 20000101.0000 20050101.0000".toList, by decide, ⟨'1', by decide, by decide⟩, rfl,
      0, "1e-9".toList, "20000101.0000 20050101.0000".toList, by decide, ⟨'1', by decide, by decide⟩, rfl, [], by simp, rfl, by decide⟩)
    (t0 := 20000101) (r2 := " 20050101.0000".toList)
    ⟨2000, 1, 1, 0, 0, ".0000 20050101.0000".toList, '.', "0000 20050101.0000".toList, "00 20050101.0000".toList,
      ⟨_, _, field4 '2' '0' '0' '0' (by decide) _, field2 '0' '1' rfl rfl _, field2 '0' '1' rfl rfl _⟩, rfl, fun _ => rfl,
      field2 '0' '0' rfl rfl _, field2 '0' '0' rfl rfl _, rfl⟩
    (b := 1) (r3 := "20050101.0000".toList) rfl
    (t1 := 20050101) (r4 := [])
    ⟨2005, 1, 1, 0, 0, ".0000".toList, '.', "0000".toList, "00".toList,
      ⟨_, _, field4 '2' '0' '0' '5' (by decide) _, field2 '0' '1' rfl rfl _, field2 '0' '1' rfl rfl _⟩, rfl, fun _ => rfl,
      field2 '0' '0' rfl rfl _, field2 '0' '0' rfl rfl _, rfl⟩

/-- The hypotheses of `icgem2_read` are met. -/
example : let rs : List (Record Int) := [⟨.trend, 2, 0, 3 / 2000, 2, some 20000101, some 20050101⟩]
    asked ⟨true, 3, .formal, 1, 1, true⟩ 2 (-1) = (2, 2) ∧ exCal.min ≤ 20020101 ∧ 20020101 < exCal.max ∧
    List.Forall₂ (GoodLine2 true exCal .formal) ["trnd 2 0 1.5e-3 2.0 1e-9 1e-9 20000101.0000 20050101.0000".toList] rs ∧
    (∀ r ∈ rs, Within 2 2 r → Triangle r) ∧ (∀ r ∈ rs, PeriodOk r) ∧ (∀ r ∈ rs, Used2 2 2 20020101 r) :=
  ⟨by decide, by simp [exCal], by simp [exCal], .cons line2_trnd .nil, by simp [Triangle], by simp [PeriodOk],
    by simp [Used2, Within]⟩

/-- C27 fails for a line without its error columns: the last digits of a column are taken for the period, and no error is
reported. -/
theorem icgem_missing_column_fails (cal : Cal Int) (e : Entry Int) :
    ∃ e', resolve1 cal .formal "asin 2 0 1.5e-3 2.0 0.25".toList e = .ok (0, e') ∧ e'.period = 5 := by
  have hc := readCols_ok sepOk1 (cols_1 true " 0.25".toList (by unfold Ends; decide)) e
  have hb : (for2cpp "asin 2 0 1.5e-3 2.0 0.25".toList).drop 4 = " 2 0 1.5e-3 2.0".toList ++ " 0.25".toList := by decide
  have hn := readNum_ok (ws := ws1) sepOk1 (line := "5".toList) (v := 5) (rest := [])
    ⟨[], ⟨false, ['5'], none, none⟩, by simp, Dec.ok_of (by decide), by decide +kernel, rfl, fun _ => by simp [Ends]⟩ e.period
  unfold resolve1
  rw [if_neg (by decide)]
  simp only [hb, hc]
  rw [if_neg (by decide), if_neg (by decide), if_neg (by decide), if_pos (by decide)]
  rw [show skipCols ws1 ErrorModel.formal.cols " 0.25".toList = "5".toList by decide]
  simp only [hn]
  exact ⟨_, rfl, rfl⟩

/-- C29 fails: a rejected request has already replaced the caller's coefficients. -/
theorem icgem_reject_modifies_fails (cal : Cal Int) (junk : Entry Int × (Nat → Nat → ℝ)) (t : Int) (co : Coeffs ℝ)
    (hc : co.C 2 0 = 1) (file : Option (List (List Char))) :
    ∃ co', parseData cal exHeader junk file 7 7 t co = .ok (1, co') ∧ co'.C 2 0 ≠ co.C 2 0 := by
  refine ⟨_, icgem_bad_request cal exHeader junk t co (n := 7) (m := 7) rfl (by norm_num) (Or.inl (by simp [exHeader])) file, ?_⟩
  simp [hc]

end Verif.Icgem
