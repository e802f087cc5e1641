import Verif.Proof.RoundedIcgem
import Verif.Proof.RoundNearest
/-
C115: time-variable gravity models in double precision.
-/
namespace Verif.RoundedIcgem
open Verif Verif.Icgem Verif.Rounding

section
variable {T : Type} [LinearOrder T] {fl : Rounded.Arith} (hf : Faithful fl) {fsin fcos : ℝ → ℝ} (ht : Trig fsin fcos) {cal : Cal T} {yr : T → T → ℝ}
  (hy : YearDifference cal.years yr) {h : Header} {junk : Entry T × (Nat → Nat → ℝ)} {maxDegree maxOrder n m : Int} {t : T} {co : Coeffs ℝ}
  {lines : List (List Char)} {rs : List (Record T)}
include hf ht hy

/-- C115 (version 1): a file whose lines hold the records `rs` is read in double precision, and every coefficient is the sum over its records of
value, trend and periodic terms, up to the rounding errors of those terms. -/
theorem icgem1_rounded (hv : h.v2 = false) (hreq : asked h maxDegree maxOrder = (n, m)) (h0 : 0 ≤ m) (h1 : m ≤ n)
    (h2 : n ≤ h.maxDegree) (hlines : List.Forall₂ (GoodLine1 true cal h.errors) lines rs)
    (htri : ∀ r ∈ rs, Within n m r → Triangle r) (hper : ∀ r ∈ rs, PeriodOk r) (hgrp : Grouped n m rs) :
    ∃ co', parseData fl fsin fcos yr cal h junk (some lines) maxDegree maxOrder t co = .ok (0, co') ∧
      Result h n m (factor1 cal.years t) (size1 cal.years t) (Within n m) rs co' := by
  obtain ⟨st', st, hl, hs, hi⟩ := loop1_ok hf ht hy (t := t) hgrp htri hlines (rs := []) rfl
    (sim_start _ { co with deg := n, ord := m, rows := (n + 1).toNat, C := junk.2, S := fun i j => junk.2 j (i + 1) } junk.1)
    (inv_start n m _ _ { co with deg := n, ord := m, rows := (n + 1).toNat, C := junk.2, S := fun i j => junk.2 j (i + 1) } rfl rfl rfl junk.1)
    (by simp [Cur, lastRef])
  refine ⟨_, ?_, result_of (by omega) h0 hs hi hper⟩
  simp only [asked, Prod.mk.injEq] at hreq
  obtain ⟨r1, r2⟩ := hreq
  rw [r1] at r2
  unfold parseData
  simp only [r1, r2, hv, Bool.false_eq_true, if_false]
  unfold parseWith
  rw [resize_ok co junk.2 m (by omega)]
  simp only [Res.bind]
  rw [if_neg (by omega)]
  simp only [hl]
  rfl

/-- C115 (version 1), the other direction: whenever the reader succeeds, the lines hold records whose sums are the coefficients up to rounding. -/
theorem icgem1_rounded_sound (hv : h.v2 = false) (hreq : asked h maxDegree maxOrder = (n, m)) (h0 : 0 ≤ m) {file : Option (List (List Char))}
    {co' : Coeffs ℝ} (hp : parseData fl fsin fcos yr cal h junk file maxDegree maxOrder t co = .ok (0, co')) :
    m ≤ n ∧ n ≤ h.maxDegree ∧ ∃ lines rs, file = some lines ∧ List.Forall₂ (GoodLine1 false cal h.errors) lines rs ∧
      ((∀ r ∈ rs, PeriodOk r) → Result h n m (factor1 cal.years t) (size1 cal.years t) (Within n m) rs co') := by
  simp only [asked, Prod.mk.injEq] at hreq
  obtain ⟨r1, r2⟩ := hreq
  rw [r1] at r2
  unfold parseData at hp
  simp only [r1, r2, hv, Bool.false_eq_true, if_false] at hp
  unfold parseWith at hp
  unfold Coeffs.resize at hp
  by_cases hn : n < -1
  · rw [if_pos hn] at hp; cases hp
  rw [if_neg hn] at hp
  simp only [Res.bind] at hp
  by_cases hbad : n > h.maxDegree ∨ m > n
  · rw [if_pos hbad] at hp; cases hp
  rw [if_neg hbad] at hp
  cases file with
  | none => cases hp
  | some lines =>
    simp only at hp
    rcases hl : loop (resolve1 cal h.errors) (use1 fl fsin fcos yr n m t) lines
      ⟨Coeffs.clear { co with deg := n, ord := m, rows := (n + 1).toNat, C := junk.2, S := fun i j => junk.2 j (i + 1) }, 0, 0, -1, -1, 0, junk.1⟩ 0
      with ⟨k, st⟩ | _ | _ | _ <;> rw [hl] at hp
    · simp only at hp
      by_cases hk : k = 0
      swap
      · rw [if_pos hk] at hp; cases hp
      subst hk
      rw [if_neg (by simp)] at hp
      simp only [Res.ok.injEq, Prod.mk.injEq, true_and] at hp
      obtain ⟨rs, s, g1, g2, g3⟩ := loop1_sound hf ht hy (rs := [])
        (sim_start _ { co with deg := n, ord := m, rows := (n + 1).toNat, C := junk.2, S := fun i j => junk.2 j (i + 1) } junk.1)
        (inv_start n m _ _ { co with deg := n, ord := m, rows := (n + 1).toNat, C := junk.2, S := fun i j => junk.2 j (i + 1) } rfl rfl rfl junk.1)
        (by simp [Cur, lastRef]) hl
      refine ⟨by omega, by omega, lines, rs, rfl, g1, fun hper => ?_⟩
      rw [← hp]
      exact result_of (by omega) h0 g2 g3 hper
    · cases hp
    · cases hp
    · cases hp

/-- C115 (version 2): records that are not valid at `t` add nothing, not even rounding errors. -/
theorem icgem2_rounded (hv : h.v2 = true) (hmin : cal.min ≤ t) (hmax : t < cal.max) (hreq : asked h maxDegree maxOrder = (n, m))
    (h0 : 0 ≤ m) (h1 : m ≤ n) (h2 : n ≤ h.maxDegree) (hlines : List.Forall₂ (GoodLine2 true cal h.errors) lines rs)
    (htri : ∀ r ∈ rs, Within n m r → Triangle r) (hper : ∀ r ∈ rs, PeriodOk r) :
    ∃ co', parseData fl fsin fcos yr cal h junk (some lines) maxDegree maxOrder t co = .ok (0, co') ∧
      Result h n m (fun _ r => factor2 cal.years t r) (fun _ r => size2 cal.years t r) (Used2 n m t) rs co' := by
  obtain ⟨st', st, hl, hs, hi⟩ := loop2_ok hf ht hy hmin hmax hlines (rs := []) htri
    (sim_start _ { co with deg := n, ord := m, rows := (n + 1).toNat, C := junk.2, S := fun i j => junk.2 j (i + 1) } junk.1)
    (inv_start n m _ _ { co with deg := n, ord := m, rows := (n + 1).toNat, C := junk.2, S := fun i j => junk.2 j (i + 1) } rfl rfl rfl junk.1)
  refine ⟨_, ?_, result_of (by omega) h0 hs hi hper⟩
  simp only [asked, Prod.mk.injEq] at hreq
  obtain ⟨r1, r2⟩ := hreq
  rw [r1] at r2
  unfold parseData
  simp only [r1, r2, hv, if_true]
  unfold parseWith
  rw [resize_ok co junk.2 m (by omega)]
  simp only [Res.bind]
  rw [if_neg (by omega)]
  simp only [hl]
  rfl

/-- C115 (version 2), the other direction. -/
theorem icgem2_rounded_sound (hv : h.v2 = true) (hmin : cal.min ≤ t) (hmax : t < cal.max) (hreq : asked h maxDegree maxOrder = (n, m))
    (h0 : 0 ≤ m) {file : Option (List (List Char))} {co' : Coeffs ℝ}
    (hp : parseData fl fsin fcos yr cal h junk file maxDegree maxOrder t co = .ok (0, co')) :
    m ≤ n ∧ n ≤ h.maxDegree ∧ ∃ lines rs, file = some lines ∧ List.Forall₂ (GoodLine2 false cal h.errors) lines rs ∧
      ((∀ r ∈ rs, PeriodOk r) → Result h n m (fun _ r => factor2 cal.years t r) (fun _ r => size2 cal.years t r) (Used2 n m t) rs co') := by
  simp only [asked, Prod.mk.injEq] at hreq
  obtain ⟨r1, r2⟩ := hreq
  rw [r1] at r2
  unfold parseData at hp
  simp only [r1, r2, hv, if_true] at hp
  unfold parseWith at hp
  unfold Coeffs.resize at hp
  by_cases hn : n < -1
  · rw [if_pos hn] at hp; cases hp
  rw [if_neg hn] at hp
  simp only [Res.bind] at hp
  by_cases hbad : n > h.maxDegree ∨ m > n
  · rw [if_pos hbad] at hp; cases hp
  rw [if_neg hbad] at hp
  cases file with
  | none => cases hp
  | some lines =>
    simp only at hp
    rcases hl : loop (resolve2 cal h.errors) (use2 fl fsin fcos yr n m t) lines
      ⟨Coeffs.clear { co with deg := n, ord := m, rows := (n + 1).toNat, C := junk.2, S := fun i j => junk.2 j (i + 1) }, 0, 0, -1, -1, 0, junk.1⟩ 0
      with ⟨k, st⟩ | _ | _ | _ <;> rw [hl] at hp
    · simp only at hp
      by_cases hk : k = 0
      swap
      · rw [if_pos hk] at hp; cases hp
      subst hk
      rw [if_neg (by simp)] at hp
      simp only [Res.ok.injEq, Prod.mk.injEq, true_and] at hp
      obtain ⟨rs, s, g1, g2, g3⟩ := loop2_sound hf ht hy hmin hmax (rs := [])
        (sim_start _ { co with deg := n, ord := m, rows := (n + 1).toNat, C := junk.2, S := fun i j => junk.2 j (i + 1) } junk.1)
        (inv_start n m _ _ { co with deg := n, ord := m, rows := (n + 1).toNat, C := junk.2, S := fun i j => junk.2 j (i + 1) } rfl rfl rfl junk.1) hl
      refine ⟨by omega, by omega, lines, rs, rfl, g1, fun hper => ?_⟩
      rw [← hp]
      exact result_of (by omega) h0 g2 g3 hper
    · cases hp
    · cases hp
    · cases hp

end

/-! ### Examples -/

/-- A library for trigonometric functions and years that makes no errors. -/
theorem trig_exact : Trig Real.sin Real.cos := ⟨fun x => by simp [u_pos.le], fun x => by simp [u_pos.le]⟩

theorem years_exact {T : Type} (years : T → T → ℝ) : YearDifference years years := fun a b => by
  have := u_pos; simp only [sub_self, abs_zero]; positivity

/-- `icgem1_rounded` for a file with a trend and a periodic term, two years after its epoch, and whichever products are fused: C(2,0) is
0.0045 up to 1.4e-16. The hypotheses of `icgem1_rounded_sound` are met too. -/
example (s : ℕ → Bool) (junk : Entry Int × (Nat → Nat → ℝ)) (co : Coeffs ℝ) :
    ∃ co' c, parseData (rnArith s) Real.sin Real.cos exCal.years exCal exHeader junk (some ["gfct 2 0 1.5e-3 2.0 1e-9 1e-9 20000101".toList,
        "trnd 2 0 1.5D-3 2.0 1e-9 1e-9".toList, "asin 2 0 1.5e-3 2.0 1e-9 1e-9 0.5".toList]) (-1) (-1) 20020101 co = .ok (0, co') ∧
      co'.getC 2 0 = .ok c ∧ |c - 0.0045| ≤ 1.4e-16 := by
  obtain ⟨co', h1, h2⟩ := icgem1_rounded (rn_faithful s) trig_exact (years_exact exCal.years) (h := exHeader) (junk := junk) (co := co)
    (t := 20020101) (n := 3) (m := 3) (maxDegree := -1) (maxOrder := -1)
    (rs := [⟨.ref, 2, 0, 3 / 2000, 2, some 20000101, none⟩, ⟨.trend, 2, 0, 3 / 2000, 2, none, none⟩, ⟨.sin (1 / 2), 2, 0, 3 / 2000, 2, none, none⟩])
    rfl (by decide) (by norm_num) le_rfl le_rfl (.cons line_gfct20 (.cons line_trnd20 (.cons line_asin20 .nil))) (by simp [Triangle])
    (by simp [PeriodOk]) (by
      intro i r hi hw k1 k2
      match i, hi with
      | 0, hi => simp at hi; subst hi; simp at k2
      | 1, hi => simp at hi; subst hi; exact ⟨⟨.ref, 2, 0, 3 / 2000, 2, some 20000101, none⟩, by simp [Within], rfl, rfl⟩
      | 2, hi => simp at hi; subst hi; exact ⟨⟨.ref, 2, 0, 3 / 2000, 2, some 20000101, none⟩, by simp [Within], rfl, rfl⟩
      | n + 3, hi => simp at hi)
  obtain ⟨c, h3, h4⟩ := h2.C 2 0 (by norm_num) (by norm_num) (by norm_num) (by decide)
  refine ⟨co', c, h1, h3, ?_⟩
  have e0 : exCal.years 20020101 20000101 = 2 := by norm_num [exCal]
  have hsin : Real.sin (2 * Real.pi / ((1 / 2 : ℚ) : ℝ) * 2) = 0 := by
    rw [show 2 * Real.pi / ((1 / 2 : ℚ) : ℝ) * 2 = ((8 : ℕ) : ℝ) * Real.pi by push_cast; ring]
    exact Real.sin_nat_mul_pi 8
  have habs : |2 * Real.pi / ((1 / 2 : ℚ) : ℝ) * 2| = 8 * Real.pi := by
    rw [show 2 * Real.pi / ((1 / 2 : ℚ) : ℝ) * 2 = 8 * Real.pi by push_cast; ring, abs_of_pos (by have := Real.pi_pos; positivity)]
  have t1 : total (factor1 exCal.years 20020101) Record.C
      [⟨.ref, 2, 0, 3 / 2000, 2, some 20000101, none⟩, ⟨.trend, 2, 0, 3 / 2000, 2, none, none⟩, ⟨.sin (1 / 2), 2, 0, 3 / 2000, 2, none, none⟩] (2 : ℕ) (0 : ℕ) = 0.0045 := by
    simp only [total, List.length_cons, List.length_nil, List.range_succ, List.range_zero]
    simp [factor1, epoch1, e0, Kind.factor, hsin]
    simp at hsin
    rw [hsin]
    norm_num
  have t2 : total (size1 exCal.years 20020101) (fun r => |r.C|)
      [⟨.ref, 2, 0, 3 / 2000, 2, some 20000101, none⟩, ⟨.trend, 2, 0, 3 / 2000, 2, none, none⟩, ⟨.sin (1 / 2), 2, 0, 3 / 2000, 2, none, none⟩] (2 : ℕ) (0 : ℕ) =
      3 / 2000 * (4 + 8 * Real.pi) := by
    simp only [total, List.length_cons, List.length_nil, List.range_succ, List.range_zero]
    simp [size1, epoch1, e0, Kind.size]
    simp at habs
    rw [habs, abs_of_pos (by norm_num : (0 : ℝ) < 3 / 2000)]
    ring
  rw [t1, t2] at h4
  have n3 : count [(⟨.ref, 2, 0, 3 / 2000, 2, some 20000101, none⟩ : Record Int), ⟨.trend, 2, 0, 3 / 2000, 2, none, none⟩,
      ⟨.sin (1 / 2), 2, 0, 3 / 2000, 2, none, none⟩] (2 : ℕ) (0 : ℕ) = 3 := by decide
  rw [n3] at h4
  refine h4.trans ?_
  have := Real.pi_lt_d4
  have := Real.pi_pos
  have hu : u ≤ 1.111e-16 := by unfold u; norm_num
  have hu0 := u_pos
  have q : (25 + 1.01 * ((3 : ℕ) : ℝ)) * u * (3 / 2000 * (4 + 8 * Real.pi)) ≤ 28.03 * 1.111e-16 * (3 / 2000 * (4 + 8 * 3.1416)) := by
    push_cast
    gcongr
    norm_num
  exact q.trans (by norm_num)

/-- `icgem2_rounded` for a trend with an interval of validity: C(2,0) is 0.003 up to 1e-17. The hypotheses of `icgem2_rounded_sound` are met
too. -/
example (s : ℕ → Bool) (junk : Entry Int × (Nat → Nat → ℝ)) (co : Coeffs ℝ) :
    ∃ co' c, parseData (rnArith s) Real.sin Real.cos exCal.years exCal ⟨true, 3, .formal, 1, 1, true⟩ junk
        (some ["trnd 2 0 1.5e-3 2.0 1e-9 1e-9 20000101.0000 20050101.0000".toList]) 2 (-1) 20020101 co = .ok (0, co') ∧
      co'.getC 2 0 = .ok c ∧ |c - 0.003| ≤ 1e-17 := by
  obtain ⟨co', h1, h2⟩ := icgem2_rounded (rn_faithful s) trig_exact (years_exact exCal.years) (h := ⟨true, 3, .formal, 1, 1, true⟩) (junk := junk) (co := co)
    (t := 20020101) (n := 2) (m := 2) (maxDegree := 2) (maxOrder := -1)
    (rs := [⟨.trend, 2, 0, 3 / 2000, 2, some 20000101, some 20050101⟩])
    rfl (by simp [exCal]) (by simp [exCal]) (by decide) (by norm_num) le_rfl (by norm_num) (.cons line2_trnd .nil) (by simp [Triangle]) (by simp [PeriodOk])
  obtain ⟨c, h3, h4⟩ := h2.C 2 0 (by norm_num) (by norm_num) (by norm_num) (by decide)
  refine ⟨co', c, h1, h3, ?_⟩
  have e0 : exCal.years 20020101 20000101 = 2 := by norm_num [exCal]
  have t1 : total (fun _ r => factor2 exCal.years 20020101 r) Record.C
      [⟨.trend, 2, 0, 3 / 2000, 2, some 20000101, some 20050101⟩] (2 : ℕ) (0 : ℕ) = 0.003 := by
    simp only [total, List.length_cons, List.length_nil, List.range_succ, List.range_zero]
    simp [factor2, e0, Kind.factor]
    norm_num
  have t2 : total (fun _ r => size2 exCal.years 20020101 r) (fun r => |r.C|)
      [⟨.trend, 2, 0, 3 / 2000, 2, some 20000101, some 20050101⟩] (2 : ℕ) (0 : ℕ) = 0.003 := by
    simp only [total, List.length_cons, List.length_nil, List.range_succ, List.range_zero]
    simp [size2, e0, Kind.size]
    rw [abs_of_pos (by norm_num : (0 : ℝ) < 3 / 2000)]
    norm_num
  have n1 : count [(⟨.trend, 2, 0, 3 / 2000, 2, some 20000101, some 20050101⟩ : Record Int)] (2 : ℕ) (0 : ℕ) = 1 := by decide
  rw [t1, t2, n1] at h4
  refine h4.trans ?_
  have hu : u ≤ 1.111e-16 := by unfold u; norm_num
  push_cast
  linarith

end Verif.RoundedIcgem
