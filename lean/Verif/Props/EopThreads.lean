import Verif.Proof.EopThreads
import Verif.Props.Eop
/-
C103: interpolation in an Earth orientation series from several threads. `interpolate` and `approx_dut1` are `const`, but they write the members
`last_it` and `work`.
-/
namespace Verif.EopThreads
open Verif Eop

variable {K : Type} [Field K] [LinearOrder K] [IsStrictOrderedRing K]

/-! ### What holds -/

/-- C103, calls one after the other (as behind a lock), from whatever threads and at whatever epochs: each returns what it returns on a series of its
own, whatever the calls before it left in the series. -/
theorem serially_partial (dat : K → K) (vec : List (Rec K)) (hv : Sorted vec) (m : Mem K) (hm : Valid vec m) (calls : List (Call K)) :
    serially (calls.map (Call.act dat vec)) m = calls.map (answer dat vec) := by
  induction calls generalizing m with
  | nil => rfl
  | cons c cs ih =>
    obtain ⟨m', h1, h2⟩ := act_alone dat vec hv m hm c
    simp only [List.map_cons, serially, h1]
    rw [ih m' h2]

/-- C103, each thread with a series of its own: under every schedule, a call that has ended returned what it returns with no other thread. -/
theorem own_partial (dat : K → K) (vec : Nat → List (Rec K)) (call : Nat → Call K) (m : Nat → Mem K) (hv : ∀ i, Sorted (vec i))
    (hm : ∀ i, Valid (vec i) (m i)) (sched : List Nat) (i : Nat) (r : Res (Answer K))
    (h : ((⟨m, fun i => (call i).act dat (vec i)⟩ : Own K (Answer K)).run sched).thread i = .done r) : r = answer dat (vec i) (call i) := by
  have h1 := own_run (⟨m, fun i => (call i).act dat (vec i)⟩ : Own K (Answer K)) sched i
  rw [h] at h1
  obtain ⟨m', e1, _⟩ := act_alone dat (vec i) (hv i) (m i) (hm i) (call i)
  have h2 := ended h1.symm
  rw [e1] at h2
  exact (Prod.mk.inj h2).1

/-- C103, each thread with a series of its own: a call ends after a number of its own turns that no schedule changes. -/
theorem own_ends (dat : K → K) (vec : Nat → List (Rec K)) (call : Nat → Call K) (m : Nat → Mem K) (hv : ∀ i, Sorted (vec i))
    (hm : ∀ i, Valid (vec i) (m i)) (i : Nat) : ∃ n, ∀ sched : List Nat, n ≤ sched.count i →
      ((⟨m, fun i => (call i).act dat (vec i)⟩ : Own K (Answer K)).run sched).thread i = .done (answer dat (vec i) (call i)) := by
  obtain ⟨m', e1, _⟩ := act_alone dat (vec i) (hv i) (m i) (hm i) (call i)
  obtain ⟨n, hn⟩ := ends ((call i).act dat (vec i)) (m i)
  refine ⟨n, fun sched hs => ?_⟩
  have h1 := own_run (⟨m, fun i => (call i).act dat (vec i)⟩ : Own K (Answer K)) sched i
  have h2 := ended_le hn hs
  rw [e1] at h2
  simp only at h1
  rw [h2] at h1
  exact (Prod.mk.inj h1).1

/-! ### What fails -/

omit [Field K] [LinearOrder K] [IsStrictOrderedRing K] in
/-- Thread `i`, then thread `j`, then thread `i` again. -/
theorem interleave {β : Type} (c : Shared K β) {i j n1 n2 n3 : Nat} (hij : i ≠ j) {a1 a2 b : Act K β} {m1 m2 m3 : Mem K}
    (h1 : one^[n1] (c.thread i, c.mem) = (a1, m1)) (h2 : one^[n2] (c.thread j, m1) = (b, m2)) (h3 : one^[n3] (a1, m2) = (a2, m3)) :
    (c.run (List.replicate n1 i ++ List.replicate n2 j ++ List.replicate n3 i)).thread i = a2 ∧
      (c.run (List.replicate n1 i ++ List.replicate n2 j ++ List.replicate n3 i)).thread j = b := by
  rw [run_append, run_append, run_replicate c, run_replicate _ j, run_replicate _ i]
  simp only [if_neg hij.symm, if_neg hij, h1, h2, h3, if_true, and_self]

/-- C103 fails: two calls on one series at the same time are a data race, whatever the series, the calls and what the series was used for before. -/
theorem race_fails (dat : K → K) (vec : List (Rec K)) (hv : Sorted vec) (m : Mem K) (hm : Valid vec m) (call : Nat → Call K) (i j : Nat)
    (hij : i ≠ j) (hi : (call i).Allowed) (hj : (call j).Allowed) :
    ∃ sched, Race ((⟨m, fun i => (call i).act dat vec⟩ : Shared K (Answer K)).run sched) := by
  obtain ⟨f, hf⟩ := act_hunt dat vec (call i) hi
  obtain ⟨g, hg⟩ := act_hunt dat vec (call j) hj
  obtain ⟨n, hn⟩ := hunt_reads vec hv (call i).epoch m hm f
  refine ⟨List.replicate n i, i, j, .last, true, false, hij, ?_, ?_, Or.inl rfl⟩
  · rw [run_replicate]
    simp only [if_true, hf, hn]
    rfl
  · rw [run_replicate]
    simp only [if_neg hij.symm, hg]
    rfl

omit [Field K] [IsStrictOrderedRing K] in
theorem upperBound_same {vec : List (Rec K)} {t1 t2 : K} (h : ∀ r ∈ vec, (r.t ≤ t1 ↔ r.t ≤ t2)) : upperBound t1 vec = upperBound t2 vec := by
  unfold upperBound
  induction vec with
  | nil => rfl
  | cons a v ih =>
    rw [List.findIdx_cons, List.findIdx_cons, ih fun r hr => h r (List.mem_cons_of_mem _ hr)]
    have : (t1 < a.t) ↔ (t2 < a.t) := by
      have := h a List.mem_cons_self
      rw [← not_le, ← not_le, this]
    simp only [this]

/-- C103 fails even if no access tears: two threads interpolate at two epochs between the same two records; there is a schedule on which the first
gets the values of the second's epoch, under its own epoch and with the same status as if all were well. -/
theorem mixed_fails (dat : K → K) (vec : List (Rec K)) (hv : Sorted vec) (m : Mem K) (hm : Valid vec m) (t1 t2 : K) (old1 old2 : Rec K) (d : Int)
    (hd1 : 3 ≤ d) (hd : d ≤ 9) (same : ∀ r ∈ vec, (r.t ≤ t1 ↔ r.t ≤ t2)) (hl : 2 ≤ (vec.filter (fun x => x.t ≤ t1)).length)
    (hr : 2 ≤ (vec.filter (fun x => t1 < x.t)).length) (call : Nat → Call K) (i j : Nat) (hij : i ≠ j)
    (hi : call i = .interpolate t1 old1 d) (hj : call j = .interpolate t2 old2 d) :
    ∃ sched st e1 e2, answer dat vec (call i) = .ok (.inl (st, e1)) ∧ answer dat vec (call j) = .ok (.inl (st, e2)) ∧
      ((⟨m, fun i => (call i).act dat vec⟩ : Shared K (Answer K)).run sched).thread i =
        .done (.ok (.inl (st, { e2 with t := t1, dut := e2.dut - dat t2 + dat t1, dat := old1.dat }))) := by
  obtain ⟨u1, u2, u3⟩ := upperBound_spec t1 hv
  have hub := upperBound_same same
  have hsplit : vec = vec.take (upperBound t1 vec) ++ vec.drop (upperBound t1 vec) := (List.take_append_drop _ vec).symm
  have hf1 : (vec.filter (fun x => x.t ≤ t1)).length = upperBound t1 vec := by
    conv_lhs => rw [hsplit]
    rw [List.filter_append, List.filter_eq_self.mpr (by intro a ha; simpa using u2 a ha),
      List.filter_eq_nil_iff.mpr (by intro a ha; simpa using u3 a ha)]
    simp; omega
  have hf2 : (vec.filter (fun x => t1 < x.t)).length = vec.length - upperBound t1 vec := by
    conv_lhs => rw [hsplit]
    rw [List.filter_append, List.filter_eq_nil_iff.mpr (by intro a ha; simpa using u2 a ha),
      List.filter_eq_self.mpr (by intro a ha; simpa using u3 a ha)]
    simp
  have hs1 := answer_interpolate dat vec hv t1 old1 d hd
  have hs2 := answer_interpolate dat vec hv t2 old2 d hd
  have hsearch1 := hunt_alone vec hv t1 m hm
  rw [← hub] at hs2
  set u := upperBound t1 vec with hu
  obtain ⟨D, rfl⟩ := Int.eq_ofNat_of_zero_le (show 0 ≤ d by omega)
  have hn := dataPoints_spec (it := u) (n := vec.length) (degree := D) (by omega) (by omega) (by omega)
  have hn5 := dataPoints_le u vec.length D (by omega)
  obtain ⟨n, hnn⟩ : ∃ n, dataPoints u vec.length D = n := ⟨_, rfl⟩
  rw [hnn] at hn hn5
  have hrest := fun t old => rest_window dat vec t old D u n (by omega) (by omega) hnn (by omega) (by omega) (by omega)
  obtain ⟨w, hw⟩ : ∃ w, (vec.drop (u - n)).take (2 * n) = w := ⟨_, rfl⟩
  obtain ⟨st, hst⟩ : ∃ st, (if (n : Int) * 2 = (D : Int) + 1 then Status.requested else Status.decreased) = st := ⟨_, rfl⟩
  rw [hw, hst] at hrest
  have hwl : w.length ≤ 10 := by rw [← hw, List.length_take]; omega
  rw [(hrest t1 old1).2, ok_bind] at hs1
  rw [(hrest t2 old2).2, ok_bind] at hs2
  have hact : ∀ t old, (Call.interpolate t old (D : Int)).act dat vec =
      (hunt vec t).bind (fun it => (rest dat vec t old (D : Int) it).bind fun r => Act.done (.ok (Sum.inl r : Answer K))) := by
    intro t old
    rw [Call.act, interpolate, if_neg (by omega), bind_assoc]
  have hrest' : ∀ t old, (rest dat vec t old (D : Int) u).bind (fun r => Act.done (.ok (Sum.inl r : Answer K))) =
      (products w t).bind fun _ => (sums w).bind fun s => Act.done (.ok (Sum.inl (st, ofSums dat t old s) : Answer K)) := by
    intro t old
    rw [(hrest t old).1]
    simp only [bind_assoc]
    rfl
  -- the first thread up to its sums
  obtain ⟨k1, hk1⟩ := part (hunt vec t1) (fun it => (rest dat vec t1 old1 (D : Int) it).bind fun r => Act.done (.ok (Sum.inl r : Answer K))) m _ _ hsearch1
  obtain ⟨m1, p1, p2, _⟩ := products_alone w t1 hwl { m with last := u }
  obtain ⟨k2, hk2⟩ := part (products w t1) (fun _ => (sums w).bind fun s => Act.done (.ok (Sum.inl (st, ofSums dat t1 old1 s) : Answer K))) _ _ _ p1
  have hfirst : one^[k2 + k1] ((call i).act dat vec, m) =
      ((sums w).bind fun s => Act.done (.ok (Sum.inl (st, ofSums dat t1 old1 s) : Answer K)), m1) := by
    rw [hi, hact, Function.iterate_add_apply, hk1, hrest', hk2]
  -- the second thread to its end
  have hm1 : Valid vec m1 := by unfold Valid; rw [p2]; exact u1
  obtain ⟨m2, q1, q2, q3⟩ := products_alone w t2 hwl { m1 with last := u }
  have hsecond : ((call j).act dat vec).alone m1 = (answer dat vec (call j), m2) := by
    rw [hj, hact, alone_bind_ok (hunt_alone vec hv t2 m1 hm1), ← hub, hrest', alone_bind_ok q1, alone_bind_ok (sums_alone w t2 m2 q3), hs2]
    rfl
  obtain ⟨k3, hk3⟩ := ends ((call j).act dat vec) m1
  rw [hsecond] at hk3
  -- the first thread again
  obtain ⟨k4, hk4⟩ := ends ((sums w).bind fun s => Act.done (.ok (Sum.inl (st, ofSums dat t1 old1 s) : Answer K))) m2
  rw [alone_bind_ok (sums_alone w t2 m2 q3)] at hk4
  refine ⟨_, st, _, _, by rw [hi]; exact hs1, by rw [hj]; exact hs2, (interleave (⟨m, fun i => (call i).act dat vec⟩ : Shared K (Answer K)) hij hfirst hk3 hk4).1.trans ?_⟩
  simp [Act.alone, sixAt, ofSums]

/-- C103 fails even if no access tears: after a call that left the cached iterator inside the series, a call together with a call before the first
record can read a record before the first. -/
theorem crash_fails (dat : K → K) (r0 : Rec K) (rs : List (Rec K)) (hv : Sorted (r0 :: rs)) (m : Mem K) (h0 : m.last ≠ 0)
    (h1 : m.last < (r0 :: rs).length) (call : Nat → Call K) (i j : Nat) (hij : i ≠ j) (hi : (call i).Allowed) (hj : (call j).Allowed)
    (hb : (call j).epoch < r0.t) :
    ∃ sched, ((⟨m, fun i => (call i).act dat (r0 :: rs)⟩ : Shared K (Answer K)).run sched).thread i = .done .ub := by
  obtain ⟨f, hf⟩ := act_hunt dat (r0 :: rs) (call i) hi
  obtain ⟨g, hg⟩ := act_hunt dat (r0 :: rs) (call j) hj
  have hu : upperBound (call j).epoch (r0 :: rs) = 0 := by simp [upperBound, List.findIdx_cons, hb]
  obtain ⟨n, hn⟩ := part (hunt (r0 :: rs) (call j).epoch) g m _ _ (hunt_alone (r0 :: rs) hv (call j).epoch m (by unfold Valid; omega))
  rw [hu] at hn
  obtain ⟨a, e1, e2⟩ := hunt_crash (r0 :: rs) (call i).epoch m h0 h1 f
  rw [← hf] at e1
  rw [← hg] at hn
  exact ⟨_, (interleave (⟨m, fun i => (call i).act dat (r0 :: rs)⟩ : Shared K (Answer K)) hij (n3 := 1) e1 hn (e2 _ rfl)).1⟩

/-- C103 fails even if no access tears, for the linear interpolation of UT1-UTC too: a thread asks for an epoch before the two records the cached
iterator stands between; another asks for an epoch so early that a record after it is before the first one's epoch; there is a schedule on which the
first thread gets a value extrapolated from the wrong two records. -/
theorem extrapolated_fails (dat : K → K) (vec : List (Rec K)) (hv : Sorted vec) (m : Mem K) (h0 : m.last ≠ 0) (h1 : m.last < vec.length)
    (x0 x1 : Rec K) (hx0 : vec[m.last - 1]? = some x0) (hx1 : vec[m.last]? = some x1) (t t' : K) (ht : t < x0.t)
    (y : Rec K) (hy : y ∈ vec) (hy1 : t' < y.t) (hy2 : y.t < t) (call : Nat → Call K) (i j : Nat) (hij : i ≠ j)
    (hi : call i = .approx t) (hj : call j = .approx t') :
    ∃ sched, ((⟨m, fun i => (call i).act dat vec⟩ : Shared K (Answer K)).run sched).thread i =
      .done (.ok (.inr (.linear, lin x0 x1 t (fun r => r.dut - r.dat) + dat t))) := by
  obtain ⟨g, hg⟩ := act_hunt dat vec (call j) (by rw [hj]; trivial)
  have he : (call j).epoch = t' := by rw [hj]; rfl
  obtain ⟨n, hn⟩ := part (hunt vec t') g m _ _ (hunt_alone vec hv t' m (by unfold Valid; omega))
  have hlt : upperBound t' vec < vec.length := by
    by_contra h
    have := (upperBound_spec t' hv).2.1 y (by rw [List.take_of_length_le (by omega)]; exact hy)
    exact absurd hy1 (not_lt.mpr this)
  have hyb : vec[upperBound t' vec].t < t := by
    refine lt_of_le_of_lt ?_ hy2
    obtain ⟨k, hk, rfl⟩ := List.getElem_of_mem hy
    have hk' : upperBound t' vec ≤ k := by
      by_contra h
      have := (upperBound_spec t' hv).2.1 vec[k] (List.mem_take_iff_getElem.mpr ⟨k, by omega, rfl⟩)
      exact absurd hy1 (not_lt.mpr this)
    rcases Nat.eq_or_lt_of_le hk' with h | h
    · simp only [h]; exact le_rfl
    · exact le_of_lt (List.pairwise_iff_getElem.mp hv _ _ hlt hk h)
  obtain ⟨a, e1, e2⟩ := hunt_stale vec t m h0 h1 x0 hx0 (le_of_lt ht) (fun it => (approxRest dat vec t it).bind fun r => .done (.ok (.inr r : Answer K)))
  have hact : (call i).act dat vec = (hunt vec t).bind (fun it => (approxRest dat vec t it).bind fun r => .done (.ok (.inr r : Answer K))) := by
    rw [hi, Call.act, approxDut1, bind_assoc]
  rw [← hact] at e1
  rw [← he, ← hg, he] at hn
  refine ⟨_, (interleave (⟨m, fun i => (call i).act dat vec⟩ : Shared K (Answer K)) hij (n3 := 2) e1 hn
    (e2 _ _ (List.getElem?_eq_getElem hlt) hyb)).1.trans ?_⟩
  simp only [approxRest, if_neg h0, if_neg (Nat.ne_of_lt h1), hx0, hx1]
  rfl

/-! ### Cases -/

/-- Four days; the pole moves as the cube of time, UT1-UTC as the square. -/
def four : List (Rec ℚ) :=
  [⟨0, 0, 0, 0, 0, 0, 0, 37, 0, 0⟩, ⟨1, 1, 0, 1, 0, 0, 0, 37, 0, 0⟩, ⟨2, 8, 0, 4, 0, 0, 0, 37, 0, 0⟩, ⟨3, 27, 0, 9, 0, 0, 0, 37, 0, 0⟩]

theorem four_sorted : Sorted four := by unfold Sorted; decide +kernel

def someRec : Rec ℚ := ⟨0, 0, 0, 0, 0, 0, 0, 37, 0, 0⟩

/-- Two threads, at noon and at six in the morning of one day. -/
def noonAndSix : Nat → Call ℚ
  | 0 => .interpolate (3 / 2) someRec 3
  | _ => .interpolate (5 / 4) someRec 3

def at4 : Mem ℚ := ⟨4, fun _ => 0⟩

/-- C103, the case: alone the pole is at 27/8; together with the other thread it can be at 125/64, with the epoch asked for and the status of
success. -/
example : ∃ sched st e1 e2, answer (fun _ => 37) four (noonAndSix 0) = .ok (.inl (st, e1)) ∧
    ((⟨at4, fun i => (noonAndSix i).act (fun _ => 37) four⟩ : Shared ℚ (Answer ℚ)).run sched).thread 0 = .done (.ok (.inl (st, e2))) ∧
    st = .requested ∧ e1.t = 3 / 2 ∧ e2.t = 3 / 2 ∧ e1.xp = 27 / 8 ∧ e2.xp = 125 / 64 := by
  obtain ⟨sched, st, e1, e2, h1, h2, h3⟩ := mixed_fails (fun _ => 37) four four_sorted at4 (by unfold Valid; decide) (3 / 2) (5 / 4) someRec someRec 3
    (by norm_num) (by norm_num) (by decide +kernel) (by decide +kernel) (by decide +kernel) noonAndSix 0 1 (by decide) rfl rfl
  refine ⟨sched, st, e1, _, h1, h3, ?_⟩
  have a1 : answer (fun _ => 37) four (noonAndSix 0) = .ok (.inl (.requested, ⟨3 / 2, 27 / 8, 0, 9 / 4, 0, 0, 0, 37, 0, 0⟩)) := by decide +kernel
  have a2 : answer (fun _ => 37) four (noonAndSix 1) = .ok (.inl (.requested, ⟨5 / 4, 125 / 64, 0, 25 / 16, 0, 0, 0, 37, 0, 0⟩)) := by decide +kernel
  rw [a1] at h1
  rw [a2] at h2
  injection h1 with h1; injection h1 with h1; injection h1 with h1 h1'
  injection h2 with h2; injection h2 with h2; injection h2 with h2 h2'
  subst h1; subst h1'; subst h2'
  simp

example : serially ([noonAndSix 0, noonAndSix 1, .approx 7, noonAndSix 0].map (Call.act (fun _ => 37) four)) at4 =
    [noonAndSix 0, noonAndSix 1, .approx 7, noonAndSix 0].map (answer (fun _ => 37) four) :=
  serially_partial _ _ four_sorted _ (by unfold Valid; decide) _

example : ∃ n, ∀ sched : List Nat, n ≤ sched.count 1 →
    ((⟨fun _ => at4, fun i => (noonAndSix i).act (fun _ => 37) four⟩ : Own ℚ (Answer ℚ)).run sched).thread 1 =
      .done (.ok (.inl (.requested, ⟨5 / 4, 125 / 64, 0, 25 / 16, 0, 0, 0, 37, 0, 0⟩))) := by
  have h := own_ends (fun _ => 37) (fun _ => four) noonAndSix (fun _ => at4) (fun _ => four_sorted) (fun _ => by unfold Valid; decide) 1
  have a2 : answer (fun _ => 37) four (noonAndSix 1) = .ok (.inl (.requested, ⟨5 / 4, 125 / 64, 0, 25 / 16, 0, 0, 0, 37, 0, 0⟩)) := by decide +kernel
  rw [a2] at h
  exact h

example : ∃ sched, Race ((⟨at4, fun i => (noonAndSix i).act (fun _ => 37) four⟩ : Shared ℚ (Answer ℚ)).run sched) :=
  race_fails _ _ four_sorted _ (by unfold Valid; decide) _ 0 1 (by decide) (by simp [noonAndSix, Call.Allowed]) (by simp [noonAndSix, Call.Allowed])

/-- One thread inside the series, one before it. -/
example : ∃ sched, ((⟨⟨2, fun _ => 0⟩, fun i => (if i = 0 then Call.approx (3 / 2) else Call.approx (-1)).act (fun _ => 37) four⟩ :
    Shared ℚ (Answer ℚ)).run sched).thread 0 = .done .ub :=
  crash_fails (fun _ => 37) _ _ four_sorted ⟨2, fun _ => 0⟩ (by decide) (by decide) (fun i => if i = 0 then Call.approx (3 / 2) else Call.approx (-1)) 0 1
    (by decide) (by simp [Call.Allowed]) (by simp [Call.Allowed]) (by simp only [if_neg (show ¬ (1 : Nat) = 0 by decide), Call.epoch]; norm_num)

/-- The cached iterator on the last day; one thread asks for the second day, another for the first: UT1-UTC at 3/2 comes out as 3/2, not 5/2. -/
example : (∃ sched, ((⟨⟨3, fun _ => 0⟩, fun i => (if i = 0 then Call.approx (3 / 2) else Call.approx (1 / 2)).act (fun _ => 37) four⟩ :
    Shared ℚ (Answer ℚ)).run sched).thread 0 = .done (.ok (.inr (.linear, 3 / 2)))) ∧
    answer (fun _ => 37) four (Call.approx (3 / 2)) = .ok (.inr (.linear, 5 / 2)) := by
  refine ⟨?_, by decide +kernel⟩
  have h := extrapolated_fails (fun _ => (37 : ℚ)) four four_sorted ⟨3, fun _ => 0⟩ (by decide) (by decide) ⟨2, 8, 0, 4, 0, 0, 0, 37, 0, 0⟩
    ⟨3, 27, 0, 9, 0, 0, 0, 37, 0, 0⟩ rfl rfl (3 / 2) (1 / 2) (by norm_num) ⟨1, 1, 0, 1, 0, 0, 0, 37, 0, 0⟩ (by simp [four]) (by norm_num) (by norm_num)
    (fun i => if i = 0 then Call.approx (3 / 2) else Call.approx (1 / 2)) 0 1 (by decide) rfl rfl
  have e : lin (⟨2, 8, 0, 4, 0, 0, 0, 37, 0, 0⟩ : Rec ℚ) ⟨3, 27, 0, 9, 0, 0, 0, 37, 0, 0⟩ (3 / 2) (fun r => r.dut - r.dat) + 37 = 3 / 2 := by
    norm_num [lin]
  rw [e] at h
  exact h

end Verif.EopThreads
