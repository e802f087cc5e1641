import Verif.Proof.RoundedEop
import Verif.Proof.RoundNearest
import Verif.Props.Eop
/-
C107: interpolation of Earth orientation parameters in double precision.
-/
namespace Verif.RoundedEop
open Verif Verif.Eop Verif.Rounding

/-- The interpolated quantities of a record `r'` are those of `r` up to 160 units in the last place of the terms they are sums of; UT1-UTC
up to that for UT1-TAI, and a unit for adding ΔAT. -/
def Accurate (w : List (Rec ℝ)) (t dat : ℝ) (r' r : Rec ℝ) : Prop :=
  |r'.xp - r.xp| ≤ 160 * u * spread w t Rec.xp ∧ |r'.yp - r.yp| ≤ 160 * u * spread w t Rec.yp ∧
  |r'.lod - r.lod| ≤ 160 * u * spread w t Rec.lod ∧ |r'.dX - r.dX| ≤ 160 * u * spread w t Rec.dX ∧
  |r'.dY - r.dY| ≤ 160 * u * spread w t Rec.dY ∧ |r'.dut - r.dut| ≤ 162 * u * (spread w t (fun r => r.dut - r.dat) + |dat|)

/-- The quantities of a record are at most the sums of the terms, without signs. -/
def Sized (w : List (Rec ℝ)) (t dat : ℝ) (r : Rec ℝ) : Prop :=
  |r.xp| ≤ spread w t Rec.xp ∧ |r.yp| ≤ spread w t Rec.yp ∧ |r.lod| ≤ spread w t Rec.lod ∧ |r.dX| ≤ spread w t Rec.dX ∧
  |r.dY| ≤ spread w t Rec.dY ∧ |r.dut - dat| ≤ spread w t (fun r => r.dut - r.dat)

theorem dut_sc {fl : Rounded.Arith} (hf : Faithful fl) {M x' x : ℝ} (dat : ℝ) (h : Sc 160 M x' x) : |fl (x' + dat) - (x + dat)| ≤ 162 * u * (M + |dat|) :=
  (((h.add ((Sc.exact dat).mono (by norm_num))).fl hf (by norm_num)).mono (by norm_num)).2

theorem q_exact (q : Rec ℝ → ℝ) (w : List (Rec ℝ)) : ∀ r ∈ w, Sc 1 |q r| (q r) (q r) := fun r _ => (Sc.exact _).mono (by norm_num)

theorem q_ut1 {fl : Rounded.Arith} (hf : Faithful fl) (w : List (Rec ℝ)) : ∀ r ∈ w, Sc 1 |r.dut - r.dat| (ut1tai fl r) (r.dut - r.dat) :=
  fun r _ => ⟨le_rfl, by rw [one_mul]; exact hf.rel _⟩

theorem Daily.infix {v w : List (Rec ℝ)} (h : Daily v) (hw : w <:+: v) : Daily w := List.Pairwise.sublist hw.sublist h

theorem dataPoints_le (it n d : Nat) : dataPoints it n d ≤ (d + 1) / 2 := by
  have sh : ∀ k, shrink it n k ≤ k := by
    intro k
    induction k with
    | zero => simp [shrink]
    | succ k ih => unfold shrink; split <;> omega
  unfold dataPoints
  simp only
  split
  · have := sh ((d + 1) / 2 - 1); omega
  · omega

theorem pair_infix {v : List (Rec ℝ)} {i : Nat} {x0 x1 : Rec ℝ} (hi : i ≠ 0) (h0 : v[i - 1]? = some x0) (h1 : v[i]? = some x1) : [x0, x1] <:+: v := by
  obtain ⟨k, rfl⟩ : ∃ k, i = k + 1 := ⟨i - 1, by omega⟩
  rw [Nat.add_sub_cancel] at h0
  obtain ⟨a, rfl⟩ := List.getElem?_eq_some_iff.mp h0
  obtain ⟨b, rfl⟩ := List.getElem?_eq_some_iff.mp h1
  refine ⟨v.take k, v.drop (k + 2), ?_⟩
  have e1 : v.drop k = v[k] :: v.drop (k + 1) := List.drop_eq_getElem_cons a
  have e2 : v.drop (k + 1) = v[k + 1] :: v.drop (k + 2) := List.drop_eq_getElem_cons b
  calc v.take k ++ [v[k], v[k + 1]] ++ v.drop (k + 2) = v.take k ++ (v[k] :: v[k + 1] :: v.drop (k + 2)) := by simp
    _ = v.take k ++ v.drop k := by rw [e1, e2]
    _ = v := List.take_append_drop k v

theorem pair_eq {v : List (Rec ℝ)} {i : Nat} {x0 x1 : Rec ℝ} (hi : i ≠ 0) (h0 : v[i - 1]? = some x0) (h1 : v[i]? = some x1) :
    (v.drop (i - 1)).take (2 * 1) = [x0, x1] := by
  obtain ⟨k, rfl⟩ : ∃ k, i = k + 1 := ⟨i - 1, by omega⟩
  rw [Nat.add_sub_cancel] at h0 ⊢
  obtain ⟨a, rfl⟩ := List.getElem?_eq_some_iff.mp h0
  obtain ⟨b, rfl⟩ := List.getElem?_eq_some_iff.mp h1
  rw [List.drop_eq_getElem_cons a, List.drop_eq_getElem_cons b]
  rfl

/-- The interpolation with rounding runs as the exact one; the window is given by the position of the query. -/
theorem interpolate_window {fl : Rounded.Arith} {dd : ℝ → ℝ → ℝ} (hf : Faithful fl) (hd : DayDifference dd) (dat : ℝ → ℝ) (s : Series ℝ) (hs : Daily s.vec)
    (t : ℝ) (old : Rec ℝ) (degree : Int) {st : Status} {r : Rec ℝ} {s' : Series ℝ} (h : s.interpolate dat t old degree = .ok (st, r, s')) :
    ∃ r', interpolate fl dd dat s t old degree = .ok (st, r', s') ∧ r'.t = t ∧
      ((r' = r ∧ (st = .prior ∨ st = .later)) ∨ ∃ it m, s.hunt t = .ok it ∧ m ≤ it ∧ it + m ≤ s.vec.length ∧ m ≤ 5 ∧
        Accurate ((s.vec.drop (it - m)).take (2 * m)) t (dat t) r' r ∧ Sized ((s.vec.drop (it - m)).take (2 * m)) t (dat t) r) := by
  unfold Series.interpolate at h
  unfold interpolate
  split at h
  · cases h
  next hdeg =>
  rw [if_neg hdeg]
  cases hh : s.hunt t with
  | ub => rw [hh] at h; cases h
  | abort => rw [hh] at h; cases h
  | throw => rw [hh] at h; cases h
  | ok it =>
    rw [hh] at h
    simp only [Res.bind] at h ⊢
    by_cases h0 : it = 0
    · rw [if_pos h0] at h ⊢
      cases hv : s.vec[0]? with
      | none => rw [hv] at h; cases h
      | some r0 =>
        rw [hv] at h
        simp only [Res.ok.injEq, Prod.mk.injEq] at h ⊢
        exact ⟨_, ⟨h.1, rfl, h.2.2⟩, rfl, .inl ⟨h.2.1, .inl h.1.symm⟩⟩
    · rw [if_neg h0] at h ⊢
      by_cases h1 : it = s.vec.length
      · rw [if_pos h1] at h ⊢
        cases hv : s.vec[it - 1]? with
        | none => rw [hv] at h; cases h
        | some r0 =>
          rw [hv] at h
          simp only [Res.ok.injEq, Prod.mk.injEq] at h ⊢
          exact ⟨_, ⟨h.1, rfl, h.2.2⟩, rfl, .inl ⟨h.2.1, .inr h.1.symm⟩⟩
      · rw [if_neg h1] at h ⊢
        by_cases h2 : degree < 0
        · rw [if_pos h2] at h; cases h
        · rw [if_neg h2] at h ⊢
          by_cases h3 : dataPoints it s.vec.length degree.toNat = 1
          · rw [if_pos h3] at h ⊢
            cases hv0 : s.vec[it - 1]? with
            | none => rw [hv0] at h; cases h
            | some x0 =>
              cases hv1 : s.vec[it]? with
              | none => rw [hv0, hv1] at h; cases h
              | some x1 =>
                rw [hv0, hv1] at h
                simp only [Res.ok.injEq, Prod.mk.injEq] at h ⊢
                obtain ⟨h4, h5, h6⟩ := h
                have hi := pair_infix h0 hv0 hv1
                have hw := hs.infix hi
                have hlt : it < s.vec.length := (List.getElem?_eq_some_iff.mp hv1).1
                refine ⟨_, ⟨h4, rfl, h6⟩, rfl, .inr ⟨it, 1, rfl, by omega, by omega, by omega, ?_⟩⟩
                subst h5
                rw [pair_eq h0 hv0 hv1]
                exact ⟨⟨(lin_sc hf hd hw t (q_exact _ _)).2, (lin_sc hf hd hw t (q_exact _ _)).2, (lin_sc hf hd hw t (q_exact _ _)).2,
                  (lin_sc hf hd hw t (q_exact _ _)).2, (lin_sc hf hd hw t (q_exact _ _)).2, dut_sc hf _ (lin_sc hf hd hw t (q_ut1 hf _))⟩,
                  (lin_sc hf hd hw t (q_exact _ _)).1, (lin_sc hf hd hw t (q_exact _ _)).1, (lin_sc hf hd hw t (q_exact _ _)).1,
                  (lin_sc hf hd hw t (q_exact _ _)).1, (lin_sc hf hd hw t (q_exact _ _)).1, by
                    simpa only [add_sub_cancel_right] using (lin_sc hf hd hw t (q_ut1 hf _)).1⟩
          · rw [if_neg h3] at h ⊢
            split at h
            · cases h
            next h4 =>
            rw [if_neg h4]
            simp only [Res.ok.injEq, Prod.mk.injEq] at h ⊢
            obtain ⟨h5, h6, h7⟩ := h
            have hl := dataPoints_le it s.vec.length degree.toNat
            have hi : (s.vec.drop (it - dataPoints it s.vec.length degree.toNat)).take (2 * dataPoints it s.vec.length degree.toNat) <:+: s.vec :=
              (List.take_prefix _ _).isInfix.trans (List.drop_suffix _ _).isInfix
            have hw := hs.infix hi
            have hlen : ((s.vec.drop (it - dataPoints it s.vec.length degree.toNat)).take (2 * dataPoints it s.vec.length degree.toNat)).length ≤ 10 := by
              rw [List.length_take]
              omega
            refine ⟨_, ⟨h5, rfl, h7⟩, rfl, .inr ⟨it, dataPoints it s.vec.length degree.toNat, rfl, by omega, by omega, by omega, ?_⟩⟩
            subst h6
            exact ⟨⟨(lagSum_sc hf hd hw hlen t (q_exact _ _)).2, (lagSum_sc hf hd hw hlen t (q_exact _ _)).2, (lagSum_sc hf hd hw hlen t (q_exact _ _)).2,
              (lagSum_sc hf hd hw hlen t (q_exact _ _)).2, (lagSum_sc hf hd hw hlen t (q_exact _ _)).2, dut_sc hf _ (lagSum_sc hf hd hw hlen t (q_ut1 hf _))⟩,
              (lagSum_sc hf hd hw hlen t (q_exact _ _)).1, (lagSum_sc hf hd hw hlen t (q_exact _ _)).1, (lagSum_sc hf hd hw hlen t (q_exact _ _)).1,
              (lagSum_sc hf hd hw hlen t (q_exact _ _)).1, (lagSum_sc hf hd hw hlen t (q_exact _ _)).1, by
                simpa only [add_sub_cancel_right] using (lagSum_sc hf hd hw hlen t (q_ut1 hf _)).1⟩

/-- C107: wherever the exact interpolation has a result, the one in double precision has the same status and leaves the same series behind; outside
the series the record is a copy, inside it every quantity is accurate, for a series of records at least a day apart. -/
theorem interpolate_rounded {fl : Rounded.Arith} {dd : ℝ → ℝ → ℝ} (hf : Faithful fl) (hd : DayDifference dd) (dat : ℝ → ℝ) (s : Series ℝ) (hs : Daily s.vec)
    (t : ℝ) (old : Rec ℝ) (degree : Int) {st : Status} {r : Rec ℝ} {s' : Series ℝ} (h : s.interpolate dat t old degree = .ok (st, r, s')) :
    ∃ r', interpolate fl dd dat s t old degree = .ok (st, r', s') ∧ r'.t = t ∧
      (r' = r ∨ ∃ w, w <:+: s.vec ∧ w.length ≤ 10 ∧ Accurate w t (dat t) r' r) := by
  obtain ⟨r', h1, h2, h3⟩ := interpolate_window hf hd dat s hs t old degree h
  refine ⟨r', h1, h2, h3.imp And.left ?_⟩
  rintro ⟨it, m, -, -, -, h7, h8, -⟩
  exact ⟨_, (List.take_prefix _ _).isInfix.trans (List.drop_suffix _ _).isInfix, by rw [List.length_take]; omega, h8⟩

/-- Weights of a window of `2 m` daily records, for a query between the two in the middle. -/
def weight (m j k : Nat) : ℚ := if j = k then 1 else (if k < m then (m : ℚ) + 1 - k else (k : ℚ) - m + 2) / |(j : ℚ) - k|

theorem weights_small : ∀ m ∈ [0, 1, 2, 3, 4, 5], ((List.range (2 * m)).map fun j => ((List.range (2 * m)).map fun k => weight m j k).prod).sum ≤ 292 := by
  decide +kernel

theorem spread_daily {w : List (Rec ℝ)} {t t0 B : ℝ} {q : Rec ℝ → ℝ} {m : Nat} (hm : m ≤ 5) (hl : w.length = 2 * m) (he : ∀ k < 2 * m, epoch w k = t0 + k)
    (h1 : t0 + m - 1 ≤ t) (h2 : t ≤ t0 + m) (hB : ∀ r ∈ w, |q r| ≤ B) (hB0 : 0 ≤ B) : spread w t q ≤ 292 * B := by
  have fac : ∀ j < 2 * m, ∀ k < 2 * m, (0 : ℝ) ≤ (if j = k then 1 else (|t - epoch w k| + 1) / |epoch w j - epoch w k|) ∧
      (if j = k then 1 else (|t - epoch w k| + 1) / |epoch w j - epoch w k|) ≤ (weight m j k : ℝ) := by
    intro j hj k hk
    unfold weight
    split
    · simp
    · next hjk =>
      refine ⟨by positivity, ?_⟩
      rw [he j hj, he k hk, show t0 + (j : ℝ) - (t0 + k) = (j : ℝ) - k by ring]
      push_cast
      have hp : (0 : ℝ) < |(j : ℝ) - k| := abs_pos.mpr (sub_ne_zero.mpr (by exact_mod_cast hjk))
      refine div_le_div_of_nonneg_right ?_ hp.le
      split
      · next hkm =>
        have : (k : ℝ) + 1 ≤ m := by exact_mod_cast hkm
        rw [abs_of_nonneg (by linarith)]
        push_cast
        linarith
      · next hkm =>
        have : (m : ℝ) ≤ k := by exact_mod_cast (not_lt.mp hkm)
        rw [abs_of_nonpos (by linarith)]
        push_cast
        linarith
  rw [spread_range, hl]
  have main : ∀ j ∈ Finset.range (2 * m), |(w[j]?.map q).getD 0| * (∏ k ∈ Finset.range (2 * m), if j = k then 1 else
      (|t - epoch w k| + 1) / |epoch w j - epoch w k|) ≤ B * ∏ k ∈ Finset.range (2 * m), (weight m j k : ℝ) := by
    intro j hj
    have hj' : j < 2 * m := by simpa using hj
    have hjl : j < w.length := by omega
    refine mul_le_mul ?_ (Finset.prod_le_prod (fun k hk => (fac j hj' k (by simpa using hk)).1) (fun k hk => (fac j hj' k (by simpa using hk)).2)) ?_ hB0
    · rw [List.getElem?_eq_getElem hjl]
      exact hB _ (List.getElem_mem hjl)
    · exact Finset.prod_nonneg fun k hk => (fac j hj' k (by simpa using hk)).1
  refine (Finset.sum_le_sum main).trans ?_
  rw [← Finset.mul_sum, mul_comm]
  refine mul_le_mul_of_nonneg_right ?_ hB0
  have hw := weights_small m (by simp only [List.mem_cons, List.not_mem_nil]; omega)
  have e : ∑ j ∈ Finset.range (2 * m), ∏ k ∈ Finset.range (2 * m), (weight m j k : ℝ) =
      ((((List.range (2 * m)).map fun j => ((List.range (2 * m)).map fun k => weight m j k).prod).sum : ℚ) : ℝ) := by
    have hp : ∀ n (f : ℕ → ℚ), ((((List.range n).map f).prod : ℚ) : ℝ) = ∏ k ∈ Finset.range n, (f k : ℝ) := by
      intro n f
      induction n with
      | zero => simp
      | succ n ih => rw [List.range_succ, List.map_append, List.prod_append, Finset.prod_range_succ, Rat.cast_mul, ih]; simp
    have hs : ∀ n (f : ℕ → ℚ), ((((List.range n).map f).sum : ℚ) : ℝ) = ∑ k ∈ Finset.range n, (f k : ℝ) := by
      intro n f
      induction n with
      | zero => simp
      | succ n ih => rw [List.range_succ, List.map_append, List.sum_append, Finset.sum_range_succ, Rat.cast_add, ih]; simp
    rw [hs]
    exact Finset.sum_congr rfl fun j _ => (hp _ _).symm
  rw [e]
  exact_mod_cast hw

/-- The window of a query in a series with a record for every day: the terms of the interpolation are at most 292 times the largest quantity. -/
theorem daily_window {fl : Rounded.Arith} {dd : ℝ → ℝ → ℝ} (hf : Faithful fl) (hd : DayDifference dd) (dat : ℝ → ℝ) (s : Series ℝ) (hc : s.CacheOk) {t0 : ℝ}
    (hs : ∀ i (hi : i < s.vec.length), s.vec[i].t = t0 + i) (t : ℝ) (old : Rec ℝ) (degree : Int) {st : Status} {r : Rec ℝ} {s' : Series ℝ}
    (h : s.interpolate dat t old degree = .ok (st, r, s')) :
    ∃ r', interpolate fl dd dat s t old degree = .ok (st, r', s') ∧ r'.t = t ∧ ((r' = r ∧ (st = .prior ∨ st = .later)) ∨
      ∃ w, Accurate w t (dat t) r' r ∧ Sized w t (dat t) r ∧ ∀ (q : Rec ℝ → ℝ) (B : ℝ), 0 ≤ B → (∀ r ∈ s.vec, |q r| ≤ B) → spread w t q ≤ 292 * B) := by
  have hdaily : Daily s.vec := by
    refine List.pairwise_iff_getElem.mpr fun i j hi hj hij => ?_
    rw [hs i hi, hs j hj]
    have : (i : ℝ) + 1 ≤ j := by exact_mod_cast hij
    linarith
  have hsorted : Sorted s.vec := hdaily.imp fun h => by linarith
  obtain ⟨r', h1, h2, h3⟩ := interpolate_window hf hd dat s hdaily t old degree h
  refine ⟨r', h1, h2, h3.imp_right ?_⟩
  rintro ⟨it, m, h4, h5, h6, h7, h8, h9⟩
  refine ⟨_, h8, h9, fun q B hB0 hB => ?_⟩
  obtain ⟨l, hl, hle⟩ := hc
  rw [hunt_sorted hsorted hl hle] at h4
  obtain ⟨u1, u2, u3⟩ := upperBound_spec t hsorted
  have hit : upperBound t s.vec = it := by simpa using h4
  rw [hit] at u1 u2 u3
  have hlen : ((s.vec.drop (it - m)).take (2 * m)).length = 2 * m := by
    rw [List.length_take, List.length_drop]; omega
  have he : ∀ k < 2 * m, epoch ((s.vec.drop (it - m)).take (2 * m)) k = t0 + ((it - m : Nat) : ℝ) + k := by
    intro k hk
    unfold epoch
    rw [List.getElem?_take, if_pos hk, List.getElem?_drop, List.getElem?_eq_getElem (by omega)]
    simp only [Option.map_some, Option.getD_some]
    rw [hs _ (by omega)]
    push_cast
    ring
  have hcast : ((it - m : Nat) : ℝ) + m = it := by
    rw [Nat.cast_sub h5]; ring
  by_cases hm0 : m = 0
  · subst hm0
    have e0 : (s.vec.drop (it - 0)).take (2 * 0) = [] := by simp
    rw [e0]
    simp only [spread, List.length_nil, Finset.univ_eq_empty, Finset.sum_empty]
    positivity
  have lo : t0 + ((it - m : Nat) : ℝ) + m - 1 ≤ t := by
    have hi : it - 1 < s.vec.length := by omega
    have := u2 s.vec[it - 1] (List.mem_take_iff_getElem.mpr ⟨it - 1, by omega, rfl⟩)
    rw [hs _ hi, Nat.cast_sub (by omega)] at this
    push_cast at this
    linarith
  have up : t ≤ t0 + ((it - m : Nat) : ℝ) + m := by
    have hi : it < s.vec.length := by omega
    have := u3 s.vec[it] (by rw [List.drop_eq_getElem_cons hi]; exact List.mem_cons_self)
    rw [hs _ hi] at this
    linarith
  have mem : ∀ a ∈ (s.vec.drop (it - m)).take (2 * m), a ∈ s.vec := fun a ha => List.mem_of_mem_drop (List.mem_of_mem_take ha)
  exact spread_daily h7 hlen he lo up (fun a ha => hB a (mem a ha)) hB0

/-- C107: in a series with a record for every day, whose quantities are at most `B` and whose UT1-TAI and ΔAT are at most `C`, the interpolated
quantities are accurate to 5.2e-12 `B` and UT1-UTC to 5.4e-12 `C`, at every epoch and for every degree. -/
theorem daily_rounded {fl : Rounded.Arith} {dd : ℝ → ℝ → ℝ} (hf : Faithful fl) (hd : DayDifference dd) (dat : ℝ → ℝ) (s : Series ℝ) (hc : s.CacheOk) {t0 : ℝ}
    (hs : ∀ i (hi : i < s.vec.length), s.vec[i].t = t0 + i) (t : ℝ) (old : Rec ℝ) (degree : Int) {st : Status} {r : Rec ℝ} {s' : Series ℝ}
    (h : s.interpolate dat t old degree = .ok (st, r, s')) {B C : ℝ} (hB0 : 0 ≤ B)
    (hB : ∀ r ∈ s.vec, |r.xp| ≤ B ∧ |r.yp| ≤ B ∧ |r.lod| ≤ B ∧ |r.dX| ≤ B ∧ |r.dY| ≤ B) (hC : ∀ r ∈ s.vec, |r.dut - r.dat| ≤ C) (hC' : |dat t| ≤ C) :
    ∃ r', interpolate fl dd dat s t old degree = .ok (st, r', s') ∧ r'.t = t ∧ |r'.xp - r.xp| ≤ 5.2e-12 * B ∧ |r'.yp - r.yp| ≤ 5.2e-12 * B ∧
      |r'.lod - r.lod| ≤ 5.2e-12 * B ∧ |r'.dX - r.dX| ≤ 5.2e-12 * B ∧ |r'.dY - r.dY| ≤ 5.2e-12 * B ∧ |r'.dut - r.dut| ≤ 5.4e-12 * C := by
  have hu : u ≤ 1.111e-16 := by unfold u; norm_num
  have hup := u_pos
  have hC0 : 0 ≤ C := (abs_nonneg _).trans hC'
  obtain ⟨r', h1, h2, h3⟩ := daily_window hf hd dat s hc hs t old degree h
  refine ⟨r', h1, h2, ?_⟩
  rcases h3 with ⟨rfl, -⟩ | ⟨w, ⟨a1, a2, a3, a4, a5, a6⟩, -, h4⟩
  · simp only [sub_self, abs_zero]
    refine ⟨?_, ?_, ?_, ?_, ?_, ?_⟩ <;> positivity
  have num : ∀ {x : ℝ}, x ≤ 292 * B → 160 * u * x ≤ 5.2e-12 * B := by
    intro x hx
    calc 160 * u * x ≤ 160 * u * (292 * B) := mul_le_mul_of_nonneg_left hx (by positivity)
      _ ≤ 160 * 1.111e-16 * (292 * B) := mul_le_mul_of_nonneg_right (by linarith) (by positivity)
      _ ≤ _ := by linarith
  refine ⟨a1.trans (num (h4 _ B hB0 fun a ha => (hB a ha).1)), a2.trans (num (h4 _ B hB0 fun a ha => (hB a ha).2.1)),
    a3.trans (num (h4 _ B hB0 fun a ha => (hB a ha).2.2.1)), a4.trans (num (h4 _ B hB0 fun a ha => (hB a ha).2.2.2.1)),
    a5.trans (num (h4 _ B hB0 fun a ha => (hB a ha).2.2.2.2)), a6.trans ?_⟩
  have hx := h4 (fun r => r.dut - r.dat) C hC0 hC
  calc 162 * u * (spread w t (fun r => r.dut - r.dat) + |dat t|)
      ≤ 162 * u * (293 * C) := mul_le_mul_of_nonneg_left (by linarith) (by positivity)
    _ ≤ 162 * 1.111e-16 * (293 * C) := mul_le_mul_of_nonneg_right (by linarith) (by positivity)
    _ ≤ _ := by linarith

/-- C107: inside such a series the exact values are at most 292 times the tabulated ones, for every degree up to 9. -/
theorem daily_size (dat : ℝ → ℝ) (s : Series ℝ) (hc : s.CacheOk) {t0 : ℝ}
    (hs : ∀ i (hi : i < s.vec.length), s.vec[i].t = t0 + i) (t : ℝ) (old : Rec ℝ) (degree : Int) {st : Status} {r : Rec ℝ} {s' : Series ℝ}
    (h : s.interpolate dat t old degree = .ok (st, r, s')) (hin : st ≠ .prior ∧ st ≠ .later) {B C : ℝ} (hB0 : 0 ≤ B)
    (hB : ∀ r ∈ s.vec, |r.xp| ≤ B ∧ |r.yp| ≤ B ∧ |r.lod| ≤ B ∧ |r.dX| ≤ B ∧ |r.dY| ≤ B) (hC0 : 0 ≤ C) (hC : ∀ r ∈ s.vec, |r.dut - r.dat| ≤ C) :
    |r.xp| ≤ 292 * B ∧ |r.yp| ≤ 292 * B ∧ |r.lod| ≤ 292 * B ∧ |r.dX| ≤ 292 * B ∧ |r.dY| ≤ 292 * B ∧ |r.dut - dat t| ≤ 292 * C := by
  have hup := u_pos
  obtain ⟨r', -, -, h3⟩ := daily_window (rn_faithful fun _ => true) (dd := fun a b => a - b) (fun a b => by simp; positivity) dat s hc hs t old degree h
  rcases h3 with ⟨-, h5 | h5⟩ | ⟨w, -, ⟨a1, a2, a3, a4, a5, a6⟩, h4⟩
  · exact absurd h5 hin.1
  · exact absurd h5 hin.2
  exact ⟨a1.trans (h4 _ B hB0 fun a ha => (hB a ha).1), a2.trans (h4 _ B hB0 fun a ha => (hB a ha).2.1),
    a3.trans (h4 _ B hB0 fun a ha => (hB a ha).2.2.1), a4.trans (h4 _ B hB0 fun a ha => (hB a ha).2.2.2.1),
    a5.trans (h4 _ B hB0 fun a ha => (hB a ha).2.2.2.2), a6.trans (h4 _ C hC0 hC)⟩

/-- A difference that is rounded once is accurate. -/
theorem rounded_difference {fl : Rounded.Arith} (hf : Faithful fl) : DayDifference fun a b => fl (a - b) := by
  intro a b
  refine (hf.rel _).trans ?_
  have := mul_nonneg u_pos.le (abs_nonneg (a - b))
  nlinarith [u_pos]

/-- A record for examples. -/
noncomputable def sample (t : ℝ) : Rec ℝ := { t := t, xp := 0.1, yp := 0.3, dut := -0.2, lod := 0.001, dX := 0, dY := 0, xrt := 0, yrt := 0, dat := 37 }

/-- The hypotheses can be met: four daily records, a query in the middle. -/
example (s : ℕ → Bool) : ∃ st r' s', interpolate (rnArith s) (fun a b => rnArith s (a - b)) (fun _ => 37) ⟨[sample 1, sample 2, sample 3, sample 4], 4, some 4⟩ 2.5 (sample 0) 3 =
    .ok (st, r', s') ∧ r'.t = 2.5 := by
  have hd : Daily [sample 1, sample 2, sample 3, sample 4] := by
    simp [Daily, sample]; norm_num
  obtain ⟨st, e, s', m, l, r, h, -⟩ := eop_inside (K := ℝ) (fun _ => 37) (s := ⟨[sample 1, sample 2, sample 3, sample 4], 4, some 4⟩)
    (by simp [Sorted, sample]; norm_num) ⟨4, rfl, by simp⟩ 2.5 ⟨sample 1, by simp, by norm_num [sample]⟩ ⟨sample 3, by simp, by norm_num [sample]⟩
    (sample 0) 3 (by norm_num) (by norm_num)
  obtain ⟨r', h1, h2, -⟩ := interpolate_rounded (rn_faithful s) (rounded_difference (rn_faithful s)) _ _ hd _ _ _ h
  exact ⟨st, r', s', h1, h2⟩

/-- The hypotheses of `daily_rounded` can be met: the same four records, with 0.3 for the quantities and 38 for UT1-TAI and ΔAT. -/
example (s : ℕ → Bool) : ∃ st r r' s', Series.interpolate (fun _ => 37) ⟨[sample 1, sample 2, sample 3, sample 4], 4, some 4⟩ 2.5 (sample 0) 3 = .ok (st, r, s') ∧
    interpolate (rnArith s) (fun a b => rnArith s (a - b)) (fun _ => 37) ⟨[sample 1, sample 2, sample 3, sample 4], 4, some 4⟩ 2.5 (sample 0) 3 =
    .ok (st, r', s') ∧ |r'.xp - r.xp| ≤ 5.2e-12 * 0.3 ∧ |r'.dut - r.dut| ≤ 5.4e-12 * 38 := by
  have hc : (⟨[sample 1, sample 2, sample 3, sample 4], 4, some 4⟩ : Series ℝ).CacheOk := ⟨4, rfl, by simp⟩
  obtain ⟨st, e, s', m, l, r, h, -⟩ := eop_inside (K := ℝ) (fun _ => 37) (s := ⟨[sample 1, sample 2, sample 3, sample 4], 4, some 4⟩)
    (by simp [Sorted, sample]; norm_num) hc 2.5 ⟨sample 1, by simp, by norm_num [sample]⟩ ⟨sample 3, by simp, by norm_num [sample]⟩
    (sample 0) 3 (by norm_num) (by norm_num)
  obtain ⟨r', h1, -, h2, -, -, -, -, h3⟩ := daily_rounded (rn_faithful s) (rounded_difference (rn_faithful s)) _ _ hc (t0 := 1)
    (by
      intro i hi
      have hi' : i < 4 := hi
      have : i = 0 ∨ i = 1 ∨ i = 2 ∨ i = 3 := by omega
      rcases this with rfl | rfl | rfl | rfl <;> norm_num [sample]) _ _ _ h (B := 0.3) (C := 38) (by norm_num)
    (by
      intro r hr
      simp only [List.mem_cons, List.not_mem_nil, or_false] at hr
      rcases hr with rfl | rfl | rfl | rfl <;> norm_num [sample, abs_le])
    (by
      intro r hr
      simp only [List.mem_cons, List.not_mem_nil, or_false] at hr
      rcases hr with rfl | rfl | rfl | rfl <;> norm_num [sample, abs_le]) (by norm_num)
  exact ⟨st, _, r', s', h, h1, h2, h3⟩

end Verif.RoundedEop
