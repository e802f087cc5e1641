import Verif.Proof.Eop
/-
C18-C23: Earth orientation series.
-/
namespace Verif.Eop
open Polynomial

variable {K : Type} [Field K] [LinearOrder K] [IsStrictOrderedRing K]

set_option linter.unusedSectionVars false

/-- The cached iterator refers to the series. -/
def Series.CacheOk (s : Series K) : Prop := ∃ l, s.last = some l ∧ l ≤ s.vec.length

theorem sorted_sub {v pre w post : List (Rec K)} (hv : Sorted v) (h : v = pre ++ w ++ post) : Sorted w := by
  unfold Sorted at *
  rw [h] at hv
  exact (List.pairwise_append.mp (List.pairwise_append.mp hv).1).2.1

/-! ### C18, C21 -/

/-- C18: before the first record the first one is returned (with the epoch asked for). -/
theorem eop_prior (dat : K → K) {s : Series K} (hs : Sorted s.vec) (hc : s.CacheOk) {r0 : Rec K} {rest : List (Rec K)}
    (hv : s.vec = r0 :: rest) (t : K) (ht : t < r0.t) (old : Rec K) (d : Int) (hd : d ≤ 9) :
    ∃ s', s.interpolate dat t old d = .ok (.prior, { r0 with t := t }, s') ∧ s'.vec = s.vec ∧ s'.CacheOk := by
  obtain ⟨l, hl, hle⟩ := hc
  have hu : upperBound t s.vec = 0 := by simp [upperBound, hv, List.findIdx_cons, ht]
  unfold Series.interpolate
  rw [if_neg (by omega), hunt_sorted hs hl hle, hu]
  simp only [Res.bind, hv, if_true, List.getElem?_cons_zero]
  exact ⟨_, rfl, rfl, 0, rfl, by simp⟩

/-- C18: at or after the last record the last one is returned (with the epoch asked for). -/
theorem eop_later (dat : K → K) {s : Series K} (hs : Sorted s.vec) (hc : s.CacheOk) {rn : Rec K} {pre : List (Rec K)}
    (hv : s.vec = pre ++ [rn]) (t : K) (ht : rn.t ≤ t) (old : Rec K) (d : Int) (hd : d ≤ 9) :
    ∃ s', s.interpolate dat t old d = .ok (.later, { rn with t := t }, s') ∧ s'.vec = s.vec ∧ s'.CacheOk := by
  obtain ⟨l, hl, hle⟩ := hc
  have hall : ∀ r ∈ s.vec, r.t ≤ t := by
    intro r hr
    rw [hv] at hr hs
    rcases List.mem_append.mp hr with h | h
    · have := (List.pairwise_append.mp hs).2.2 r h rn (by simp)
      linarith
    · simp at h; rw [h]; exact ht
  have hu : upperBound t s.vec = s.vec.length := by
    obtain ⟨h1, _, h3⟩ := upperBound_spec t hs
    by_contra hne
    have hlt : upperBound t s.vec < s.vec.length := by omega
    have := h3 (s.vec[upperBound t s.vec]) (by
      rw [List.mem_drop_iff_getElem]
      exact ⟨0, by omega, by simp⟩)
    have := hall _ (List.getElem_mem hlt)
    linarith
  have hlen : s.vec.length = pre.length + 1 := by rw [hv]; simp
  unfold Series.interpolate
  rw [if_neg (by omega), hunt_sorted hs hl hle, hu]
  simp only [Res.bind]
  rw [if_neg (by omega)]
  simp only [if_true]
  have : s.vec[s.vec.length - 1]? = some rn := by rw [hlen, hv]; simp
  rw [this]
  exact ⟨_, rfl, rfl, _, rfl, le_rfl⟩

/-- C18, C21: at an epoch inside the series (some record at or before it, some after it), for every degree
from 1 to 9, the interpolation succeeds, uses the `m` records nearest on each side, all inside the series,
where `m` is half the requested window or the largest number available, and the status tells which:
'linear' iff two points are used; 'requested' iff degree + 1 points (more than two) are used;
'decreased' iff fewer than degree + 1 points but more than two are used. -/
theorem eop_inside (dat : K → K) {s : Series K} (hs : Sorted s.vec) (hc : s.CacheOk) (t : K)
    (h1 : ∃ r ∈ s.vec, r.t ≤ t) (h2 : ∃ r ∈ s.vec, t < r.t) (old : Rec K) (d : Int) (hd1 : 1 ≤ d) (hd : d ≤ 9) :
    ∃ st e s' m l r, s.interpolate dat t old d = .ok (st, e, s') ∧ s'.vec = s.vec ∧ s'.CacheOk ∧
      Window s.vec t m l r ∧ Interpolates dat (l ++ r) t e ∧ 1 ≤ m ∧
      (m : Int) = min ((d + 1) / 2) (min (s.vec.filter (fun x => x.t ≤ t)).length (s.vec.filter (fun x => t < x.t)).length) ∧
      (st = .linear ↔ m = 1) ∧ (st = .requested ↔ (1 < m ∧ 2 * (m : Int) = d + 1)) ∧
      (st = .decreased ↔ (1 < m ∧ 2 * (m : Int) < d + 1)) := by
  obtain ⟨l, hl, hle⟩ := hc
  obtain ⟨u1, u2, u3⟩ := upperBound_spec t hs
  set it := upperBound t s.vec with hit
  have hsplit : s.vec = s.vec.take it ++ s.vec.drop it := (List.take_append_drop it s.vec).symm
  have h0 : 0 < it := by
    obtain ⟨r, hr, hrt⟩ := h1
    rcases Nat.eq_zero_or_pos it with h | h
    · have := u3 r (by rw [h]; simpa using hr); linarith
    · exact h
  have hn : it < s.vec.length := by
    obtain ⟨r, hr, hrt⟩ := h2
    by_contra h
    have := u2 r (by rw [List.take_of_length_le (by omega)]; exact hr); linarith
  have hf1 : (s.vec.filter (fun x => x.t ≤ t)).length = it := by
    rw [hsplit, List.filter_append, List.filter_eq_self.mpr (by intro a ha; simpa using u2 a ha),
      List.filter_eq_nil_iff.mpr (by intro a ha; simpa using u3 a ha)]
    simp; omega
  have hf2 : (s.vec.filter (fun x => t < x.t)).length = s.vec.length - it := by
    rw [hsplit, List.filter_append, List.filter_eq_nil_iff.mpr (by intro a ha; simpa using u2 a ha),
      List.filter_eq_self.mpr (by intro a ha; simpa using u3 a ha)]
    simp
  obtain ⟨D, rfl⟩ := Int.eq_ofNat_of_zero_le (show 0 ≤ d by omega)
  obtain ⟨m1, m2⟩ := dataPoints_spec h0 hn (show 1 ≤ D by omega)
  set m := dataPoints it s.vec.length D with hm
  have hm_it : m ≤ it := by omega
  have hm_n : it + m ≤ s.vec.length := by omega
  -- the window
  have hwin : Window s.vec t m ((s.vec.take it).drop (it - m)) ((s.vec.drop it).take m) := by
    refine ⟨⟨(s.vec.take it).take (it - m), (s.vec.drop it).drop m, ?_⟩, ?_, ?_, ?_, ?_⟩
    · rw [List.append_assoc, List.append_assoc, List.take_append_drop, ← List.append_assoc,
        List.take_append_drop, List.take_append_drop]
    · intro x hx; exact u2 x (List.mem_of_mem_drop hx)
    · intro x hx; exact u3 x (List.mem_of_mem_take hx)
    · simp; omega
    · simp; omega
  have hw : (s.vec.drop (it - m)).take (2 * m) = (s.vec.take it).drop (it - m) ++ (s.vec.drop it).take m := by
    have e1 : s.vec.drop (it - m) = (s.vec.take it).drop (it - m) ++ s.vec.drop it := by
      conv_lhs => rw [hsplit]
      rw [List.drop_append_of_le_length (by simp; omega)]
    rw [e1, List.take_append]
    have e2 : ((s.vec.take it).drop (it - m)).length = m := by simp; omega
    rw [List.take_of_length_le (by omega), e2]
    congr 2; omega
  have hsw : Sorted ((s.vec.take it).drop (it - m) ++ (s.vec.drop it).take m) := by
    obtain ⟨pre, post, hpp⟩ := hwin.split
    exact sorted_sub hs (pre := pre) (post := post) (by simpa only [List.append_assoc] using hpp)
  have hmm : (m : Int) = min (((D : Int) + 1) / 2) (min (s.vec.filter (fun x => x.t ≤ t)).length (s.vec.filter (fun x => t < x.t)).length) := by
    rw [hf1, hf2]; omega
  unfold Series.interpolate
  rw [if_neg (by omega), hunt_sorted hs hl hle, ← hit]
  simp only [Res.bind]
  rw [if_neg (by omega), if_neg (by omega), if_neg (by omega)]
  simp only [Int.toNat_natCast, Int.ofNat_eq_natCast, ← hm]
  by_cases hone : m = 1
  · rw [if_pos hone]
    have e0 : s.vec[it - 1]? = some (s.vec[it - 1]'(by omega)) := List.getElem?_eq_getElem _
    have e1 : s.vec[it]? = some (s.vec[it]'hn) := List.getElem?_eq_getElem _
    rw [e0, e1]
    have hlt : (s.vec[it - 1]'(by omega)).t < (s.vec[it]'hn).t :=
      List.pairwise_iff_getElem.mp hs (it - 1) it (by omega) hn (by omega)
    have hpair : (s.vec.take it).drop (it - m) ++ (s.vec.drop it).take m =
        [s.vec[it - 1]'(by omega), s.vec[it]'hn] := by
      rw [← hw, hone]
      apply List.ext_getElem?
      intro i
      rcases i with _ | _ | i
      · simp [e0]
      · simp only [List.getElem?_take, List.getElem?_drop, Nat.mul_one]
        rw [if_pos (by omega), show it - 1 + (0 + 1) = it by omega, e1]; simp
      · simp
    have hI : ∀ q, PolyThrough ((s.vec.take it).drop (it - m) ++ (s.vec.drop it).take m) q t
        (lin (s.vec[it - 1]'(by omega)) (s.vec[it]'hn) t q) := by
      intro q; rw [hpair]; exact lin_poly hlt t q
    refine ⟨_, _, _, m, _, _, rfl, rfl, ⟨it, rfl, u1⟩, hwin, ⟨rfl, hI _, hI _, ?_, hI _, hI _, hI _⟩, m1, hmm, ?_, ?_, ?_⟩
    · simp only [add_sub_cancel_right]; exact hI _
    · simp [hone]
    · simp [hone]
    · simp [hone]
  · rw [if_neg hone, if_neg (by omega), hw]
    have hI := lagSum_poly hsw t
    refine ⟨_, _, _, m, _, _, rfl, rfl, ⟨it, rfl, u1⟩, hwin, ⟨rfl, hI _, hI _, ?_, hI _, hI _, hI _⟩, m1, hmm, ?_, ?_, ?_⟩
    · simp only [add_sub_cancel_right]; exact hI _
    · constructor
      · intro h; split at h <;> cases h
      · intro h; omega
    · constructor
      · intro h
        split at h
        · constructor <;> omega
        · cases h
      · intro h; rw [if_pos (by omega)]
    · constructor
      · intro h
        split at h
        · cases h
        · constructor <;> omega
      · intro h; rw [if_neg (by omega)]

/-- C21: the status does not depend on anything but the epoch and degree... in particular it is 'prior' or
'later' exactly outside the series. -/
theorem eop_status_outside (dat : K → K) {s : Series K} (hs : Sorted s.vec) (hc : s.CacheOk) (hne : s.vec ≠ [])
    (t : K) (old : Rec K) (d : Int) (hd1 : 1 ≤ d) (hd : d ≤ 9) :
    ∃ st e s', s.interpolate dat t old d = .ok (st, e, s') ∧
      (st = .prior ↔ ∀ r ∈ s.vec, t < r.t) ∧ (st = .later ↔ ∀ r ∈ s.vec, r.t ≤ t) := by
  by_cases h1 : ∃ r ∈ s.vec, r.t ≤ t
  · by_cases h2 : ∃ r ∈ s.vec, t < r.t
    · obtain ⟨st, e, s', m, l, r, g1, _, _, _, _, g5, g6, g7, g8, g9⟩ := eop_inside dat hs hc t h1 h2 old d hd1 hd
      refine ⟨st, e, s', g1, ?_, ?_⟩
      · obtain ⟨r, hr, hrt⟩ := h1
        constructor
        · intro h
          exfalso
          subst h
          rcases Nat.lt_or_ge 1 m with h | h
          · rcases Int.lt_or_le (2 * (m : Int)) (d + 1) with h' | h'
            · have := g9.mpr ⟨h, h'⟩; cases this
            · have := g8.mpr ⟨h, by omega⟩; cases this
          · have := g7.mpr (by omega); cases this
        · intro h; have := h r hr; linarith
      · obtain ⟨r, hr, hrt⟩ := h2
        constructor
        · intro h
          exfalso
          subst h
          rcases Nat.lt_or_ge 1 m with h | h
          · rcases Int.lt_or_le (2 * (m : Int)) (d + 1) with h' | h'
            · have := g9.mpr ⟨h, h'⟩; cases this
            · have := g8.mpr ⟨h, by omega⟩; cases this
          · have := g7.mpr (by omega); cases this
        · intro h; have := h r hr; linarith
    · push Not at h2
      obtain ⟨pre, rn, hv⟩ : ∃ pre rn, s.vec = pre ++ [rn] := ⟨_, _, (List.dropLast_append_getLast hne).symm⟩
      obtain ⟨s', g, _⟩ := eop_later dat hs hc hv t (h2 rn (by rw [hv]; simp)) old d hd
      obtain ⟨r, hr, hrt⟩ := h1
      exact ⟨_, _, s', g, ⟨(fun h => by cases h), (fun h => by have := h r hr; linarith)⟩, ⟨fun _ => h2, fun _ => rfl⟩⟩
  · push Not at h1
    obtain ⟨r0, rest, hv⟩ : ∃ a b, s.vec = a :: b := by
      cases h : s.vec with | nil => exact absurd h hne | cons a b => exact ⟨a, b, rfl⟩
    obtain ⟨s', g, _⟩ := eop_prior dat hs hc hv t (h1 r0 (by rw [hv]; simp)) old d hd
    refine ⟨_, _, s', g, ⟨fun _ => h1, fun _ => rfl⟩, ⟨(fun h => by cases h), fun h => ?_⟩⟩
    have := h r0 (by rw [hv]; simp)
    have := h1 r0 (by rw [hv]; simp)
    linarith

/-- C21 fails for degree 0: no polynomial is used at all (every quantity is 0), but the status is
'decreased'. -/
theorem eop_degree0_fails (dat : K → K) {s : Series K} (hs : Sorted s.vec) (hc : s.CacheOk) (t : K)
    (h1 : ∃ r ∈ s.vec, r.t ≤ t) (h2 : ∃ r ∈ s.vec, t < r.t) (old : Rec K) :
    ∃ e s', s.interpolate dat t old 0 = .ok (.decreased, e, s') ∧ e.xp = 0 ∧ e.dut = dat t := by
  obtain ⟨l, hl, hle⟩ := hc
  obtain ⟨u1, u2, u3⟩ := upperBound_spec t hs
  have h0 : 0 < upperBound t s.vec := by
    obtain ⟨r, hr, hrt⟩ := h1
    rcases Nat.eq_zero_or_pos (upperBound t s.vec) with h | h
    · have := u3 r (by rw [h]; simpa using hr); linarith
    · exact h
  have hn : upperBound t s.vec < s.vec.length := by
    obtain ⟨r, hr, hrt⟩ := h2
    by_contra h
    have := u2 r (by rw [List.take_of_length_le (by omega)]; exact hr); linarith
  unfold Series.interpolate
  rw [if_neg (by omega), hunt_sorted hs hl hle]
  simp only [Res.bind]
  rw [if_neg (by omega), if_neg (by omega), if_neg (by omega)]
  have hdp : dataPoints (upperBound t s.vec) s.vec.length (Int.toNat 0) = 0 := by
    have hf : noFit (upperBound t s.vec) s.vec.length ((0 : Nat) : Int) = false := noFit_false.mpr (by omega)
    simp [dataPoints, shrink]
  rw [hdp]
  rw [if_neg (by omega), if_neg (by omega)]
  simp only [Nat.mul_zero, List.take_zero]
  exact ⟨_, _, rfl, by simp [lagSum], by simp [lagSum]⟩

/-! ### C18: histories -/

/-- Operations on a series. -/
inductive Op (K : Type) where
  | push (r : Rec K)
  | clear
  | reserve (n : Nat)
  | reset
  | interpolate (t : K) (d : Int)
  | approx (t : K)
  | regularize
  | deregularize

/-- One operation. -/
def stepOp (dat ut1 lod : K → K) (old : Rec K) (s : Series K) : Op K → Res (Series K)
  | .push r => .ok (s.pushBack r)
  | .clear => .ok s.clear
  | .reserve n => .ok (s.reserve n)
  | .reset => s.reset (-1)
  | .interpolate t d => (s.interpolate dat t old d).bind (fun x => .ok x.2.2)
  | .approx t => (s.approxDut1 dat t).bind (fun x => .ok x.2.2)
  | .regularize => .ok (s.regularize ut1 lod)
  | .deregularize => .ok (s.deregularize ut1 lod)

/-- Programs as documented: records are pushed in time order; after pushing, clearing or reserving the
iterator is reset before the next query; queries are on a non-empty series, with degree 1 to 9. `dirty`: a
reset is due; `top`: the latest epoch. -/
def Legal : Bool → Option K → List (Op K) → Prop
  | _, _, [] => True
  | _, top, .push r :: ops => (∀ x, top = some x → x < r.t) ∧ Legal true (some r.t) ops
  | _, _, .clear :: ops => Legal true none ops
  | _, top, .reserve _ :: ops => Legal true top ops
  | _, top, .reset :: ops => Legal false top ops
  | dirty, top, .interpolate _ d :: ops => dirty = false ∧ top ≠ none ∧ 1 ≤ d ∧ d ≤ 9 ∧ Legal false top ops
  | dirty, top, .approx _ :: ops => dirty = false ∧ top ≠ none ∧ Legal false top ops
  | dirty, top, .regularize :: ops => Legal dirty top ops
  | dirty, top, .deregularize :: ops => Legal dirty top ops

/-- Run a program. -/
def runOps (dat ut1 lod : K → K) (old : Rec K) : Series K → List (Op K) → Res (Series K)
  | s, [] => .ok s
  | s, op :: ops => (stepOp dat ut1 lod old s op).bind (fun s' => runOps dat ut1 lod old s' ops)

theorem approx_vec (dat : K → K) {s : Series K} (hs : Sorted s.vec) (hc : s.CacheOk) (hne : s.vec ≠ []) (t : K) :
    ∃ st v s', s.approxDut1 dat t = .ok (st, v, s') ∧ s'.vec = s.vec ∧ s'.CacheOk := by
  obtain ⟨l, hl, hle⟩ := hc
  obtain ⟨u1, _, _⟩ := upperBound_spec t hs
  have hpos : 0 < s.vec.length := List.length_pos_iff.mpr hne
  unfold Series.approxDut1
  rw [hunt_sorted hs hl hle]
  simp only [Res.bind]
  split
  · rw [List.getElem?_eq_getElem hpos]
    exact ⟨_, _, _, rfl, rfl, _, rfl, u1⟩
  · split
    · rw [List.getElem?_eq_getElem (by omega)]
      exact ⟨_, _, _, rfl, rfl, _, rfl, u1⟩
    · rw [List.getElem?_eq_getElem (by omega), List.getElem?_eq_getElem (by omega)]
      exact ⟨_, _, _, rfl, rfl, _, rfl, u1⟩

/-- C18: in every documented history no operation reads outside the series or uses a stale iterator; the
series stays ordered. -/
theorem eop_history (dat ut1 lod : K → K) (old : Rec K) (ops : List (Op K)) (h : Legal false none ops) :
    ∃ s, runOps dat ut1 lod old Series.new ops = .ok s ∧ Sorted s.vec := by
  suffices H : ∀ (ops : List (Op K)) (s : Series K) (dirty : Bool) (top : Option K), Legal dirty top ops → Sorted s.vec →
      s.vec.getLast?.map Rec.t = top → (dirty = false → s.CacheOk) →
      ∃ s', runOps dat ut1 lod old s ops = .ok s' ∧ Sorted s'.vec by
    exact H ops Series.new false none h (by simp [Sorted, Series.new]) rfl (fun _ => ⟨0, rfl, by simp [Series.new]⟩)
  intro ops
  induction ops with
  | nil => intro s _ _ _ hs _ _; exact ⟨s, rfl, hs⟩
  | cons op ops ih =>
    intro s dirty top hL hs htop hcache
    have regs : ∀ k, Sorted (s.regularizeImpl ut1 lod k).vec ∧
        (s.regularizeImpl ut1 lod k).vec.getLast?.map Rec.t = top ∧
        (dirty = false → (s.regularizeImpl ut1 lod k).CacheOk) := by
      intro k
      refine ⟨?_, ?_, ?_⟩
      · simp only [Series.regularizeImpl, Sorted, List.pairwise_map]; exact hs
      · rw [← htop]
        simp only [Series.regularizeImpl, List.getLast?_map, Option.map_map]
        rfl
      · intro hd
        obtain ⟨l, hl, hle⟩ := hcache hd
        exact ⟨l, hl, by simpa [Series.regularizeImpl] using hle⟩
    cases op with
    | push r =>
      obtain ⟨hL1, hL2⟩ := hL
      refine ih (s.pushBack r) true (some r.t) hL2 ?_ (by simp [Series.pushBack]) (fun h => by cases h)
      simp only [Series.pushBack, Sorted, List.pairwise_append]
      refine ⟨hs, by simp, ?_⟩
      intro a ha b hb
      simp at hb
      subst hb
      have hne : s.vec ≠ [] := List.ne_nil_of_mem ha
      have hlast : s.vec.getLast? = some (s.vec.getLast hne) := List.getLast?_eq_some_getLast hne
      rw [hlast] at htop
      have h1 := hL1 (s.vec.getLast hne).t htop.symm
      have hsplit : s.vec = s.vec.dropLast ++ [s.vec.getLast hne] := (List.dropLast_append_getLast hne).symm
      rw [hsplit] at ha
      rcases List.mem_append.mp ha with h | h
      · have hs' := hs
        unfold Sorted at hs'
        rw [hsplit] at hs'
        have := (List.pairwise_append.mp hs').2.2 a h (s.vec.getLast hne) (by simp)
        linarith
      · simp at h; rw [h]; exact h1
    | clear =>
      refine ih s.clear true none hL (by simp [Series.clear, Sorted]) (by simp [Series.clear]) (fun h => by cases h)
    | reserve n =>
      refine ih (s.reserve n) true top hL ?_ ?_ (fun h => by cases h)
      · unfold Series.reserve; split <;> exact hs
      · unfold Series.reserve; split <;> exact htop
    | reset =>
      refine ih { s with last := some s.vec.length } false top hL hs htop (fun _ => ⟨_, rfl, le_rfl⟩)
    | interpolate t d =>
      obtain ⟨h1, h2, h3, h4, h5⟩ := hL
      have hne : s.vec ≠ [] := by intro h; rw [h] at htop; exact h2 htop.symm
      have hc := hcache h1
      have : ∃ st e s', s.interpolate dat t old d = .ok (st, e, s') ∧ s'.vec = s.vec ∧ s'.CacheOk := by
        by_cases g1 : ∃ r ∈ s.vec, r.t ≤ t
        · by_cases g2 : ∃ r ∈ s.vec, t < r.t
          · obtain ⟨st, e, s', _, _, _, k1, k2, k3, _⟩ := eop_inside dat hs hc t g1 g2 old d h3 h4
            exact ⟨st, e, s', k1, k2, k3⟩
          · push Not at g2
            obtain ⟨pre, rn, hv⟩ : ∃ pre rn, s.vec = pre ++ [rn] := ⟨_, _, (List.dropLast_append_getLast hne).symm⟩
            obtain ⟨s', k1, k2, k3⟩ := eop_later dat hs hc hv t (g2 rn (by rw [hv]; simp)) old d h4
            exact ⟨_, _, s', k1, k2, k3⟩
        · push Not at g1
          obtain ⟨r0, rest, hv⟩ : ∃ a b, s.vec = a :: b := by
            cases h : s.vec with | nil => exact absurd h hne | cons a b => exact ⟨a, b, rfl⟩
          obtain ⟨s', k1, k2, k3⟩ := eop_prior dat hs hc hv t (g1 r0 (by rw [hv]; simp)) old d h4
          exact ⟨_, _, s', k1, k2, k3⟩
      obtain ⟨st, e, s', k1, k2, k3⟩ := this
      obtain ⟨s'', g1, g2⟩ := ih s' false top h5 (by rw [k2]; exact hs) (by rw [k2]; exact htop) (fun _ => k3)
      refine ⟨s'', ?_, g2⟩
      simp only [runOps, stepOp, k1, Res.bind]
      exact g1
    | approx t =>
      obtain ⟨h1, h2, h5⟩ := hL
      have hne : s.vec ≠ [] := by intro h; rw [h] at htop; exact h2 htop.symm
      obtain ⟨st, e, s', k1, k2, k3⟩ := approx_vec dat hs (hcache h1) hne t
      obtain ⟨s'', g1, g2⟩ := ih s' false top h5 (by rw [k2]; exact hs) (by rw [k2]; exact htop) (fun _ => k3)
      refine ⟨s'', ?_, g2⟩
      simp only [runOps, stepOp, k1, Res.bind]
      exact g1
    | regularize => exact ih _ dirty top hL (regs (-1)).1 (regs (-1)).2.1 (regs (-1)).2.2
    | deregularize => exact ih _ dirty top hL (regs 1).1 (regs 1).2.1 (regs 1).2.2

/-- A record of the examples. -/
def exRec (t : ℚ) : Rec ℚ := ⟨t, t, 2 * t, 0.1, 0, 0, 0, 37, 0, 0⟩

example : Legal false none [.push (exRec 1), .push (exRec 2), .push (exRec 3), .reset, .interpolate 2.5 5,
    .regularize, .approx 0, .interpolate 9 1] := by
  simp [Legal, exRec]; norm_num

example : ∃ s : Series ℚ, Sorted s.vec ∧ s.CacheOk ∧ (∃ r ∈ s.vec, r.t ≤ 2.5) ∧ (∃ r ∈ s.vec, 2.5 < r.t) ∧
    s.vec.length = 4 :=
  ⟨⟨[exRec 1, exRec 2, exRec 3, exRec 4], 4, some 4⟩, by simp [Sorted, exRec]; norm_num, ⟨4, rfl, by simp⟩,
    ⟨exRec 1, by simp, by norm_num [exRec]⟩, ⟨exRec 3, by simp, by norm_num [exRec]⟩, rfl⟩

/-- C18 fails for copies: the copy's iterator refers to the source's vector, so its first query is
undefined behaviour. -/
theorem eop_copy_fails (dat : K → K) (s : Series K) (t : K) (old : Rec K) (d : Int) (hd : d ≤ 9) :
    s.copy.interpolate dat t old d = .ub := by
  unfold Series.interpolate
  rw [if_neg (by omega)]
  rfl

/-- C18 fails for the empty series. -/
theorem eop_empty_fails (dat : K → K) (t : K) (old : Rec K) (d : Int) (hd : d ≤ 9) :
    Series.new.interpolate dat t old d = .ub := by
  unfold Series.interpolate
  rw [if_neg (by omega)]
  rfl

/-! ### C19 -/

/-- C19: if a quantity of the series is a polynomial in time of degree below the number `2 m` of points used
(`m` as in `eop_inside`: half the requested window, or what is available on the shorter side), the
interpolated value is that polynomial's. -/
theorem eop_poly_exact (dat : K → K) {s : Series K} (hs : Sorted s.vec) (hc : s.CacheOk) (t : K)
    (h1 : ∃ r ∈ s.vec, r.t ≤ t) (h2 : ∃ r ∈ s.vec, t < r.t) (old : Rec K) (d : Int) (hd1 : 1 ≤ d) (hd : d ≤ 9) :
    ∃ st e s', s.interpolate dat t old d = .ok (st, e, s') ∧
      ∀ f : K[X], (f.natDegree : Int) < 2 * min ((d + 1) / 2)
          (min (s.vec.filter (fun x => x.t ≤ t)).length (s.vec.filter (fun x => t < x.t)).length) →
        ((∀ r ∈ s.vec, r.xp = f.eval r.t) → e.xp = f.eval t) ∧
        ((∀ r ∈ s.vec, r.yp = f.eval r.t) → e.yp = f.eval t) ∧
        ((∀ r ∈ s.vec, r.dut - r.dat = f.eval r.t) → e.dut - dat t = f.eval t) ∧
        ((∀ r ∈ s.vec, r.lod = f.eval r.t) → e.lod = f.eval t) ∧
        ((∀ r ∈ s.vec, r.dX = f.eval r.t) → e.dX = f.eval t) ∧
        ((∀ r ∈ s.vec, r.dY = f.eval r.t) → e.dY = f.eval t) := by
  obtain ⟨st, e, s', m, l, r, g1, _, _, g4, g5, g6, g7, g8, g9, g10⟩ := eop_inside dat hs hc t h1 h2 old d hd1 hd
  refine ⟨st, e, s', g1, ?_⟩
  intro f hf
  rw [← g7] at hf
  obtain ⟨pre, post, hpp⟩ := g4.split
  have hsub : ∀ x ∈ l ++ r, x ∈ s.vec := by
    intro x hx; rw [hpp]; simp only [List.append_assoc, List.mem_append] at hx ⊢; tauto
  have hsw : Sorted (l ++ r) := sorted_sub hs (pre := pre) (post := post) (by rw [hpp]; simp)
  have hdeg : f.degree < (l ++ r).length := by
    have : f.natDegree < (l ++ r).length := by
      rw [List.length_append, g4.lenL, g4.lenR]
      omega
    exact lt_of_le_of_lt degree_le_natDegree (by exact_mod_cast this)
  have key : ∀ {q : Rec K → K} {val : K}, PolyThrough (l ++ r) q t val → (∀ x ∈ s.vec, q x = f.eval x.t) → val = f.eval t := by
    intro q val hp hq
    exact polyThrough_unique hsw hp f hdeg (fun x hx => (hq x (hsub x hx)).symm)
  exact ⟨key g5.xp, key g5.yp, key g5.dut, key g5.lod, key g5.dX, key g5.dY⟩

/-- C19 (partial): at the epoch of a record all quantities of that record except the rates are returned,
provided ΔAT at that epoch is the record's. Missing: the pole rates, which are returned as 0
(`eop_rates_fails`). -/
theorem eop_at_node_partial (dat : K → K) {s : Series K} (hs : Sorted s.vec) (hc : s.CacheOk) (x : Rec K) (hx : x ∈ s.vec)
    (hdat : dat x.t = x.dat) (old : Rec K) (d : Int) (hd1 : 1 ≤ d) (hd : d ≤ 9) :
    ∃ st e s', s.interpolate dat x.t old d = .ok (st, e, s') ∧ e.t = x.t ∧ e.xp = x.xp ∧ e.yp = x.yp ∧ e.dut = x.dut ∧
      e.lod = x.lod ∧ e.dX = x.dX ∧ e.dY = x.dY := by
  by_cases h2 : ∃ r ∈ s.vec, x.t < r.t
  · obtain ⟨st, e, s', m, l, r, g1, _, _, g4, g5, g6, g7, g8, g9, g10⟩ := eop_inside dat hs hc x.t ⟨x, hx, le_rfl⟩ h2 old d hd1 hd
    obtain ⟨pre, post, hpp⟩ := g4.split
    -- x is the last record of l
    have hxl : x ∈ l := by
      rw [hpp] at hx hs
      simp only [List.mem_append] at hx
      have hlne : l ≠ [] := by intro h; rw [h] at g4; have := g4.lenL; simp at this; omega
      obtain ⟨y, hy⟩ := List.exists_mem_of_ne_nil l hlne
      have hs2 := List.pairwise_append.mp hs
      have hs3 := List.pairwise_append.mp hs2.1
      have hs4 := List.pairwise_append.mp hs3.1
      rcases hx with ((hx | hx) | hx) | hx
      · have a := hs4.2.2 x hx y hy
        have b := g4.left y hy
        linarith
      · exact hx
      · have := g4.right x hx; linarith
      · have hrne : r ≠ [] := by intro h; rw [h] at g4; have := g4.lenR; simp at this; omega
        obtain ⟨y, hy⟩ := List.exists_mem_of_ne_nil r hrne
        have a := hs2.2.2 y (by simp [hy]) x hx
        have b := g4.right y hy
        linarith
    have key : ∀ {q : Rec K → K} {val : K}, PolyThrough (l ++ r) q x.t val → val = q x := by
      rintro q val ⟨p, _, hp, rfl⟩
      exact hp x (by simp [hxl])
    refine ⟨st, e, s', g1, g5.epoch, key g5.xp, key g5.yp, ?_, key g5.lod, key g5.dX, key g5.dY⟩
    have := key g5.dut
    rw [hdat] at this
    linarith
  · push Not at h2
    obtain ⟨pre, post, hv⟩ := List.append_of_mem hx
    have hpost : post = [] := by
      cases post with
      | nil => rfl
      | cons y ys =>
        exfalso
        have h3 := hs
        unfold Sorted at h3
        rw [hv] at h3
        have := (List.pairwise_cons.mp (List.pairwise_append.mp h3).2.1).1 y (by simp)
        have := h2 y (by rw [hv]; simp)
        linarith
    subst hpost
    obtain ⟨s', g, _⟩ := eop_later dat hs hc hv x.t le_rfl old d hd
    exact ⟨_, _, s', g, rfl, rfl, rfl, rfl, rfl, rfl, rfl⟩

/-- C19 fails for the rates: inside the series they are always 0, whatever the records hold. -/
theorem eop_rates_fails : ∃ (s : Series ℚ) (x : Rec ℚ), Sorted s.vec ∧ s.CacheOk ∧ x ∈ s.vec ∧ x.xrt = 1 ∧
    ∃ st e s', s.interpolate (fun _ => 0) x.t x 5 = .ok (st, e, s') ∧ e.xrt = 0 :=
  ⟨⟨[⟨1, 0, 0, 0, 0, 0, 0, 0, 1, 0⟩, ⟨2, 0, 0, 0, 0, 0, 0, 0, 1, 0⟩], 2, some 2⟩, ⟨1, 0, 0, 0, 0, 0, 0, 0, 1, 0⟩,
    by simp [Sorted], ⟨2, rfl, by simp⟩, by simp, rfl, by
      simp [Series.interpolate, Series.hunt, upperBound, List.findIdx_cons, Res.bind, dataPoints, noFit, shrink, lin]⟩

/-! ### C20 -/

/-- The series with leap seconds changed: each record's UT1-UTC and ΔAT moved by the same amount `leap r.t`. -/
def withLeap (leap : K → K) (s : Series K) : Series K :=
  { s with vec := s.vec.map (fun r => { r with dut := r.dut + leap r.t, dat := r.dat + leap r.t }) }

/-- C20: introducing leap seconds anywhere (`leap`, any function of time) changes, inside the series, only
the returned UT1-UTC, and only by the change of ΔAT at the epoch itself. -/
theorem eop_leap (dat leap : K → K) {s : Series K} (hs : Sorted s.vec) (hc : s.CacheOk) (t : K)
    (h1 : ∃ r ∈ s.vec, r.t ≤ t) (h2 : ∃ r ∈ s.vec, t < r.t) (old : Rec K) (d : Int) (hd1 : 1 ≤ d) (hd : d ≤ 9) :
    ∃ st e s' s'', s.interpolate dat t old d = .ok (st, e, s') ∧
      (withLeap leap s).interpolate (fun t => dat t + leap t) t old d =
        .ok (st, { e with dut := e.dut + leap t }, s'') := by
  have hub : upperBound t (withLeap leap s).vec = upperBound t s.vec := by
    simp [upperBound, withLeap, List.findIdx_map, Function.comp_def]
  have hs2 : Sorted (withLeap leap s).vec := by
    simp only [withLeap, Sorted, List.pairwise_map]; exact hs
  have hlen : (withLeap leap s).vec.length = s.vec.length := by simp [withLeap]
  have hget : ∀ i : Nat, (withLeap leap s).vec[i]? =
      s.vec[i]?.map (fun r => { r with dut := r.dut + leap r.t, dat := r.dat + leap r.t }) := by
    intro i; simp [withLeap]
  obtain ⟨st, e, s', _, _, _, g1, _⟩ := eop_inside dat hs hc t h1 h2 old d hd1 hd
  obtain ⟨l, hl, hle⟩ := hc
  obtain ⟨u1, u2, u3⟩ := upperBound_spec t hs
  have h0 : upperBound t s.vec ≠ 0 := by
    obtain ⟨r, hr, hrt⟩ := h1
    intro h
    have := u3 r (by rw [h]; simpa using hr); linarith
  have hn : upperBound t s.vec < s.vec.length := by
    obtain ⟨r, hr, hrt⟩ := h2
    by_contra h
    have := u2 r (by rw [List.take_of_length_le (by omega)]; exact hr); linarith
  unfold Series.interpolate at g1 ⊢
  rw [if_neg (by omega), hunt_sorted hs hl hle] at g1
  rw [if_neg (by omega), hunt_sorted hs hl hle]
  rw [if_neg (by omega), hunt_sorted hs2 (show (withLeap leap s).last = some l from hl) (by omega), hub]
  have hN : ¬ upperBound t s.vec = s.vec.length := by omega
  have hd0 : ¬ d < 0 := by omega
  simp only [Res.bind, hlen, hget, if_neg h0, if_neg hN, if_neg hd0] at g1 ⊢
  by_cases hone : dataPoints (upperBound t s.vec) s.vec.length d.toNat = 1
  · simp only [if_pos hone]
    rw [List.getElem?_eq_getElem (by omega), List.getElem?_eq_getElem (by omega)]
    refine ⟨_, _, _, ⟨(withLeap leap s).vec, (withLeap leap s).cap, some (upperBound t s.vec)⟩, rfl, ?_⟩
    simp only [Option.map_some, lin]
    congr 3
    simp only [Rec.mk.injEq, true_and, and_true]
    ring
  · simp only [if_neg hone] at g1 ⊢
    split at g1
    · cases g1
    rename_i hb
    simp only [if_neg hb]
    refine ⟨_, _, _, ⟨(withLeap leap s).vec, (withLeap leap s).cap, some (upperBound t s.vec)⟩, rfl, ?_⟩
    have hw : ((withLeap leap s).vec.drop (upperBound t s.vec - dataPoints (upperBound t s.vec) s.vec.length d.toNat)).take
        (2 * dataPoints (upperBound t s.vec) s.vec.length d.toNat) =
      ((s.vec.drop (upperBound t s.vec - dataPoints (upperBound t s.vec) s.vec.length d.toNat)).take
        (2 * dataPoints (upperBound t s.vec) s.vec.length d.toNat)).map
        (fun r => { r with dut := r.dut + leap r.t, dat := r.dat + leap r.t }) := by
      simp [withLeap, List.map_drop, List.map_take]
    rw [hw]
    generalize (s.vec.drop (upperBound t s.vec - dataPoints (upperBound t s.vec) s.vec.length d.toNat)).take
        (2 * dataPoints (upperBound t s.vec) s.vec.length d.toNat) = w
    have hsum : ∀ q q' : Rec K → K, (∀ r : Rec K, q' { r with dut := r.dut + leap r.t, dat := r.dat + leap r.t } = q r) →
        lagSum (w.map (fun r => { r with dut := r.dut + leap r.t, dat := r.dat + leap r.t })) t q' = lagSum w t q := by
      intro q q' hq
      have hnom : ∀ j, nom (w.map (fun r => { r with dut := r.dut + leap r.t, dat := r.dat + leap r.t })) t j = nom w t j := by
        intro j; simp [nom, Function.comp_def]
      have hdom : ∀ j, dom (w.map (fun r => { r with dut := r.dut + leap r.t, dat := r.dat + leap r.t })) j = dom w j := by
        intro j; simp [dom, Function.comp_def]
      unfold lagSum
      simp only [List.length_map, hnom, hdom, List.getElem?_map, Option.map_map]
      congr 1
      funext a j
      congr 3
      cases w[j]? with
      | none => rfl
      | some r => simp [hq r]
    rw [hsum Rec.xp Rec.xp (fun _ => rfl), hsum Rec.yp Rec.yp (fun _ => rfl), hsum Rec.lod Rec.lod (fun _ => rfl),
      hsum Rec.dX Rec.dX (fun _ => rfl), hsum Rec.dY Rec.dY (fun _ => rfl),
      hsum (fun r => r.dut - r.dat) (fun r => r.dut - r.dat) (fun r => by simp)]
    congr 3
    simp only [Rec.mk.injEq, true_and, and_true]
    ring

/-! ### C22 -/

/-- C22: de-regularizing a regularized series restores it exactly, and conversely, for every correction
model. -/
theorem regularize_inverse (ut1 lod : K → K) (s : Series K) :
    (s.regularize ut1 lod).deregularize ut1 lod = s ∧ (s.deregularize ut1 lod).regularize ut1 lod = s := by
  constructor <;>
  · obtain ⟨v, c, l⟩ := s
    simp only [Series.regularize, Series.deregularize, Series.regularizeImpl, List.map_map]
    congr 1
    conv_rhs => rw [← List.map_id v]
    apply List.map_congr_left
    intro r _
    simp only [Function.comp, id]
    ext <;> simp

/-- C22: regularizing subtracts the tidal correction at each record's own epoch (microseconds to seconds)
from UT1-UTC and from LOD, and changes nothing else. -/
theorem regularize_values (ut1 lod : K → K) (s : Series K) (i : Nat) :
    (s.regularize ut1 lod).vec[i]? =
      s.vec[i]?.map (fun r => { r with dut := r.dut - ut1 r.t / 1000000, lod := r.lod - lod r.t / 1000000 }) := by
  simp only [Series.regularize, Series.regularizeImpl, List.getElem?_map]
  congr 1
  funext r
  ext <;> simp <;> ring

/-- C22: regularizing twice subtracts the correction twice. -/
theorem regularize_twice (ut1 lod : K → K) (s : Series K) :
    (s.regularize ut1 lod).regularize ut1 lod = s.regularize (fun t => 2 * ut1 t) (fun t => 2 * lod t) := by
  obtain ⟨v, c, l⟩ := s
  simp only [Series.regularize, Series.regularizeImpl, List.map_map]
  congr 1
  apply List.map_congr_left
  intro r _
  simp only [Function.comp]
  ext <;> simp <;> ring

/-! ### C23 -/

/-- C23 (first part): outside the series the end records' values; inside, linear interpolation of UT1-TAI
between the two neighbours, plus ΔAT at the epoch. -/
theorem approx_dut1_spec (dat : K → K) {s : Series K} (hs : Sorted s.vec) (hc : s.CacheOk) (t : K) :
    (∀ r0 rest, s.vec = r0 :: rest → t < r0.t → ∃ s', s.approxDut1 dat t = .ok (.prior, r0.dut, s')) ∧
    (∀ pre rn, s.vec = pre ++ [rn] → rn.t ≤ t → ∃ s', s.approxDut1 dat t = .ok (.later, rn.dut, s')) ∧
    (∀ pre a b post, s.vec = pre ++ a :: b :: post → a.t ≤ t → t < b.t →
      ∃ v s', s.approxDut1 dat t = .ok (.linear, v, s') ∧
        v - dat t = (a.dut - a.dat) + ((b.dut - b.dat) - (a.dut - a.dat)) * ((t - a.t) / (b.t - a.t))) := by
  obtain ⟨l, hl, hle⟩ := hc
  obtain ⟨u1, u2, u3⟩ := upperBound_spec t hs
  refine ⟨?_, ?_, ?_⟩
  · intro r0 rest hv ht
    have hu : upperBound t s.vec = 0 := by simp [upperBound, hv, List.findIdx_cons, ht]
    unfold Series.approxDut1
    rw [hunt_sorted hs hl hle, hu]
    simp only [Res.bind, if_true]
    rw [hv]
    exact ⟨_, rfl⟩
  · intro pre rn hv ht
    have hlen : s.vec.length = pre.length + 1 := by rw [hv]; simp
    have hu : upperBound t s.vec = s.vec.length := by
      by_contra hne
      have hlt : upperBound t s.vec < s.vec.length := by omega
      have hm : rn ∈ s.vec.drop (upperBound t s.vec) := by
        rw [hv, List.drop_append_of_le_length (by rw [← hv]; omega)]
        simp
      have := u3 rn hm
      linarith
    unfold Series.approxDut1
    rw [hunt_sorted hs hl hle, hu]
    simp only [Res.bind]
    rw [if_neg (by omega)]
    simp only [if_true]
    have : s.vec[s.vec.length - 1]? = some rn := by rw [hlen, hv]; simp
    rw [this]
    exact ⟨_, rfl⟩
  · intro pre a b post hv ha hb
    have hab : a.t < b.t := lt_of_le_of_lt ha hb
    have hlen : s.vec.length = pre.length + (post.length + 2) := by rw [hv]; simp
    have hga : s.vec[pre.length]? = some a := by rw [hv]; simp
    have hgb : s.vec[pre.length + 1]? = some b := by rw [hv]; simp
    have hu : upperBound t s.vec = pre.length + 1 := by
      rcases Nat.lt_trichotomy (upperBound t s.vec) (pre.length + 1) with h | h | h
      · exfalso
        have hm : a ∈ s.vec.drop (upperBound t s.vec) := by
          apply List.mem_of_getElem? (i := pre.length - upperBound t s.vec)
          rw [List.getElem?_drop, show upperBound t s.vec + (pre.length - upperBound t s.vec) = pre.length by omega, hga]
        have := u3 a hm
        linarith
      · exact h
      · exfalso
        have hm : b ∈ s.vec.take (upperBound t s.vec) := by
          apply List.mem_of_getElem? (i := pre.length + 1)
          rw [List.getElem?_take, if_pos h, hgb]
        have := u2 b hm
        linarith
    unfold Series.approxDut1
    rw [hunt_sorted hs hl hle, hu]
    simp only [Res.bind]
    rw [if_neg (by omega), if_neg (by omega)]
    simp only [Nat.add_sub_cancel, hga, hgb]
    refine ⟨_, _, rfl, ?_⟩
    have : b.t - a.t ≠ 0 := by linarith
    simp only [lin]
    field_simp
    ring

/-- C23: inside the series the quick lookup agrees with the full interpolation of degree 1. -/
theorem approx_dut1_agrees (dat : K → K) {s : Series K} (hs : Sorted s.vec) (hc : s.CacheOk) (t : K)
    (h1 : ∃ r ∈ s.vec, r.t ≤ t) (h2 : ∃ r ∈ s.vec, t < r.t) (old : Rec K) :
    ∃ v e s' s'', s.approxDut1 dat t = .ok (.linear, v, s') ∧ s.interpolate dat t old 1 = .ok (.linear, e, s'') ∧
      e.dut = v := by
  obtain ⟨l, hl, hle⟩ := hc
  obtain ⟨u1, u2, u3⟩ := upperBound_spec t hs
  have h0 : 0 < upperBound t s.vec := by
    obtain ⟨r, hr, hrt⟩ := h1
    rcases Nat.eq_zero_or_pos (upperBound t s.vec) with h | h
    · have := u3 r (by rw [h]; simpa using hr); linarith
    · exact h
  have hn : upperBound t s.vec < s.vec.length := by
    obtain ⟨r, hr, hrt⟩ := h2
    by_contra h
    have := u2 r (by rw [List.take_of_length_le (by omega)]; exact hr); linarith
  have hdp := (dataPoints_spec h0 hn (le_refl 1)).2
  have hdp1 : dataPoints (upperBound t s.vec) s.vec.length (Int.toNat 1) = 1 := by
    simp only [Int.toNat_one]; omega
  unfold Series.approxDut1 Series.interpolate
  rw [if_neg (by omega), hunt_sorted hs hl hle]
  simp only [Res.bind]
  rw [if_neg (by omega), if_neg (by omega), if_neg (by omega), if_neg (by omega), if_neg (by omega)]
  rw [hdp1]
  simp only [if_true]
  rw [List.getElem?_eq_getElem (by omega), List.getElem?_eq_getElem (by omega)]
  exact ⟨_, _, _, _, rfl, rfl, rfl⟩

end Verif.Eop
