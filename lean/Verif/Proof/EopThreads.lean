import Verif.Spec.EopThreads
import Verif.Proof.Eop
import Mathlib.Logic.Function.Iterate
/-
Lemmas on the accesses of a call.
-/
namespace Verif.EopThreads
open Verif Eop

variable {K β γ σ κ : Type}

/-- One access, on a pair. -/
def one (p : Act K β × Mem K) : Act K β × Mem K := p.1.step p.2

theorem one_done (n : Nat) (r : Res β) (m : Mem K) : one^[n] (.done r, m) = (.done r, m) := by
  induction n with
  | zero => rfl
  | succ n ih => rw [Function.iterate_succ_apply]; exact ih

/-- A call left alone ends. -/
theorem ends (a : Act K β) (m : Mem K) : ∃ n, one^[n] (a, m) = (.done (a.alone m).1, (a.alone m).2) := by
  induction a generalizing m with
  | done r => exact ⟨0, rfl⟩
  | rdLast k ih => obtain ⟨n, h⟩ := ih m.last m; exact ⟨n + 1, h⟩
  | wrLast v k ih => obtain ⟨n, h⟩ := ih { m with last := v }; exact ⟨n + 1, h⟩
  | rdWork j k ih => obtain ⟨n, h⟩ := ih (m.work j) m; exact ⟨n + 1, h⟩
  | wrWork j v k ih => obtain ⟨n, h⟩ := ih { m with work := fun i => if i = j then v else m.work i }; exact ⟨n + 1, h⟩

/-- Finished runs stay finished. -/
theorem ended_le {a : Act K β} {m m' : Mem K} {r : Res β} {n k : Nat} (h : one^[n] (a, m) = (.done r, m')) (hk : n ≤ k) :
    one^[k] (a, m) = (.done r, m') := by
  obtain ⟨d, rfl⟩ := Nat.exists_eq_add_of_le hk
  rw [Nat.add_comm, Function.iterate_add_apply, h, one_done]

/-- What is found when a run has finished is what a call left alone gives. -/
theorem ended {a : Act K β} {m m' : Mem K} {r : Res β} {n : Nat} (h : one^[n] (a, m) = (.done r, m')) : (r, m') = a.alone m := by
  obtain ⟨k, hk⟩ := ends a m
  have h1 := ended_le h (Nat.le_max_left n k)
  have h2 := ended_le hk (Nat.le_max_right n k)
  rw [h1] at h2
  injection h2 with h3 h4
  injection h3 with h5
  rw [h5, h4]

/-- The first part of a computation, and what follows. -/
theorem part (a : Act K β) (f : β → Act K γ) (m m' : Mem K) (b : β) (h : a.alone m = (.ok b, m')) :
    ∃ n, one^[n] (a.bind f, m) = (f b, m') := by
  induction a generalizing m with
  | done r =>
    have h' : (r, m) = (Res.ok b, m') := h
    obtain ⟨h1, h2⟩ := Prod.mk.inj h'
    subst h1; subst h2
    exact ⟨0, rfl⟩
  | rdLast k ih => obtain ⟨n, h⟩ := ih m.last m h; exact ⟨n + 1, h⟩
  | wrLast v k ih => obtain ⟨n, h⟩ := ih { m with last := v } h; exact ⟨n + 1, h⟩
  | rdWork j k ih => obtain ⟨n, h⟩ := ih (m.work j) m h; exact ⟨n + 1, h⟩
  | wrWork j v k ih => obtain ⟨n, h⟩ := ih { m with work := fun i => if i = j then v else m.work i } h; exact ⟨n + 1, h⟩

/-- A step of a first part that is not finished. -/
theorem bind_step (a : Act K β) (f : β → Act K γ) (m : Mem K) (h : ∀ r, a ≠ .done r) :
    one (a.bind f, m) = ((a.step m).1.bind f, (a.step m).2) := by
  cases a with
  | done r => exact absurd rfl (h r)
  | rdLast k => rfl
  | wrLast v k => rfl
  | rdWork j k => rfl
  | wrWork j v k => rfl

theorem bind_assoc {δ : Type} (a : Act K β) (f : β → Act K γ) (g : γ → Act K δ) : (a.bind f).bind g = a.bind fun x => (f x).bind g := by
  induction a with
  | done r => cases r <;> rfl
  | rdLast k ih => exact congrArg Act.rdLast (funext fun v => ih v)
  | wrLast v k ih => exact congrArg (Act.wrLast v) ih
  | rdWork j k ih => exact congrArg (Act.rdWork j) (funext fun v => ih v)
  | wrWork j v k ih => exact congrArg (Act.wrWork j v) ih

theorem alone_bind (a : Act K β) (f : β → Act K γ) (m : Mem K) : (a.bind f).alone m =
    match a.alone m with
    | (.ok b, m') => (f b).alone m'
    | (.ub, m') => (.ub, m')
    | (.abort, m') => (.abort, m')
    | (.throw, m') => (.throw, m') := by
  induction a generalizing m with
  | done r => cases r <;> rfl
  | rdLast k ih => exact ih m.last m
  | wrLast v k ih => exact ih _
  | rdWork j k ih => exact ih (m.work j) m
  | wrWork j v k ih => exact ih _

theorem alone_bind_ok {a : Act K β} {f : β → Act K γ} {m m' : Mem K} {b : β} (h : a.alone m = (.ok b, m')) :
    (a.bind f).alone m = (f b).alone m' := by
  rw [alone_bind, h]

/-! ### Schedules -/

/-- One thread takes `n` turns. -/
theorem run_replicate (c : Shared K β) (i n : Nat) : c.run (List.replicate n i) =
    ⟨(one^[n] (c.thread i, c.mem)).2, fun j => if j = i then (one^[n] (c.thread i, c.mem)).1 else c.thread j⟩ := by
  induction n generalizing c with
  | zero =>
    obtain ⟨m, th⟩ := c
    simp only [Shared.run, List.replicate_zero, List.foldl_nil, Function.iterate_zero, id]
    congr 1
    funext j
    split <;> simp_all
  | succ n ih =>
    have h := ih (c.turn i)
    simp only [Shared.run, List.replicate_succ, List.foldl_cons] at h ⊢
    rw [h, Function.iterate_succ_apply]
    have e1 : ((c.turn i).thread i, (c.turn i).mem) = one (c.thread i, c.mem) := by
      simp [Shared.turn, one]
    rw [e1]
    congr 1
    funext j
    by_cases hj : j = i
    · simp [hj]
    · simp [hj, Shared.turn]

theorem run_append (c : Shared K β) (s s' : List Nat) : c.run (s ++ s') = (c.run s).run s' := by
  simp [Shared.run]

/-- With a series of its own, a thread is where its own turns brought it. -/
theorem own_run (c : Own K β) (sched : List Nat) (i : Nat) :
    ((c.run sched).thread i, (c.run sched).mem i) = one^[sched.count i] (c.thread i, c.mem i) := by
  induction sched generalizing c with
  | nil => rfl
  | cons k ks ih =>
    have h := ih (c.turn k)
    simp only [Own.run, List.foldl_cons] at h ⊢
    rw [h]
    by_cases hk : k = i
    · subst hk
      rw [List.count_cons_self, Function.iterate_succ_apply]
      congr 1
      simp [Own.turn, one]
    · rw [List.count_cons_of_ne hk]
      congr 1
      simp [Own.turn, Ne.symm hk]

/-! ### The search -/

variable [Field K] [LinearOrder K] [IsStrictOrderedRing K]

/-- The search reads, and comes to its write. -/
theorem hunt_reads (vec : List (Rec K)) (hv : Sorted vec) (t : K) (m : Mem K) (hm : Valid vec m) (f : Nat → Act K γ) :
    ∃ n, one^[n] ((hunt vec t).bind f, m) = ((found (upperBound t vec)).bind f, m) := by
  unfold Valid at hm
  by_cases h0 : m.last = 0
  · exact ⟨2, by simp [one, hunt, Act.bind, Act.step, h0]⟩
  by_cases h1 : m.last = vec.length
  · exact ⟨3, by have h0' := h0; rw [h1] at h0'; simp [one, hunt, Act.bind, Act.step, h1, h0']⟩
  have h2 : m.last - 1 < vec.length := by omega
  have h3 : m.last < vec.length := by omega
  have e2 := List.getElem?_eq_getElem h2
  have e3 := List.getElem?_eq_getElem h3
  by_cases hx : vec[m.last - 1].t ≥ t
  · have hy : ¬ vec[m.last].t < t := by
      have : vec[m.last - 1].t < vec[m.last].t := List.pairwise_iff_getElem.mp hv _ _ h2 h3 (by omega)
      exact not_lt.mpr (le_of_lt (lt_of_le_of_lt hx this))
    exact ⟨5, by simp [one, hunt, Act.bind, Act.step, h0, h1, e2, e3, hx, hy]⟩
  · exact ⟨4, by simp [one, hunt, Act.bind, Act.step, h0, h1, e2, hx]⟩

theorem hunt_alone (vec : List (Rec K)) (hv : Sorted vec) (t : K) (m : Mem K) (hm : Valid vec m) :
    (hunt vec t).alone m = (.ok (upperBound t vec), { m with last := upperBound t vec }) := by
  obtain ⟨n, h⟩ := hunt_reads vec hv t m hm (fun b => .done (.ok b))
  obtain ⟨k, hk⟩ := ends ((hunt vec t).bind fun b => .done (.ok b)) m
  have h' : one^[1 + n] ((hunt vec t).bind fun b => .done (.ok b), m) = (.done (.ok (upperBound t vec)), { m with last := upperBound t vec }) := by
    rw [Function.iterate_add_apply, h]; rfl
  have := ended h'
  rw [this, alone_bind]
  rcases (hunt vec t).alone m with ⟨r, m'⟩
  cases r <;> rfl

/-! ### The products and sums -/

/-- The members after one factor. -/
def after (w : List (Rec K)) (t : K) (j k : Nat) (m : Mem K) : Mem K :=
  { m with work := fun i =>
      if i = 10 + j then m.work (10 + j) * ((w[j]?.map Rec.t).getD 0 - (w[k]?.map Rec.t).getD 0)
      else (if i = j then (m.work j) * (t - (w[k]?.map Rec.t).getD 0) else m.work i) }

/-- What the inner loop of the products leaves in `work`. -/
theorem times_alone (w : List (Rec K)) (t : K) (j : Nat) (hj : j < 10) (ks : List Nat) (m : Mem K) :
    ∃ m', (Act.each ks (fun k _ => times w t j k) ()).alone m = (.ok (), m') ∧ m'.last = m.last ∧
      m'.work j = ks.foldl (fun a k => if j ≠ k then a * (t - (w[k]?.map Rec.t).getD 0) else a) (m.work j) ∧
      m'.work (10 + j) = ks.foldl (fun a k => if j ≠ k then a * ((w[j]?.map Rec.t).getD 0 - (w[k]?.map Rec.t).getD 0) else a) (m.work (10 + j)) ∧
      ∀ i, i ≠ j → i ≠ 10 + j → m'.work i = m.work i := by
  induction ks generalizing m with
  | nil => exact ⟨m, rfl, rfl, rfl, rfl, fun _ _ _ => rfl⟩
  | cons k ks ih =>
    simp only [Act.each]
    by_cases hk : j ≠ k
    · have e : (times w t j k).alone m = (.ok (), after w t j k m) := by
        rw [times, if_pos hk]
        simp only [Act.alone, after]
        rw [if_neg (show ¬ 10 + j = j by omega)]
      rw [alone_bind_ok e]
      obtain ⟨m', h1, h2, h3, h4, h5⟩ := ih (after w t j k m)
      refine ⟨m', h1, h2, ?_, ?_, ?_⟩
      · rw [h3]
        simp only [List.foldl_cons, if_pos hk, after]
        rw [if_neg (show ¬ j = 10 + j by omega), if_pos trivial]
      · rw [h4]
        simp only [List.foldl_cons, if_pos hk, after]
        rw [if_pos trivial]
      · intro i hi hi'
        rw [h5 i hi hi']
        simp only [after]
        rw [if_neg hi', if_neg hi]
    · have e : (times w t j k).alone m = (.ok (), m) := by rw [times, if_neg hk]; rfl
      rw [alone_bind_ok e]
      obtain ⟨m', h1, h2, h3, h4, h5⟩ := ih m
      refine ⟨m', h1, h2, ?_, ?_, h5⟩
      · rw [h3]; simp only [List.foldl_cons, if_neg hk]
      · rw [h4]; simp only [List.foldl_cons, if_neg hk]

/-- What the products leave in `work`. -/
theorem products_alone (w : List (Rec K)) (t : K) (hw : w.length ≤ 10) (m : Mem K) :
    ∃ m', (products w t).alone m = (.ok (), m') ∧ m'.last = m.last ∧
      ∀ i, i < w.length → m'.work i = nom w t i ∧ m'.work (10 + i) = dom w i := by
  have key : ∀ (js : List Nat), (∀ j ∈ js, j < w.length) → ∀ m : Mem K,
      ∃ m', (Act.each js (fun j _ => .wrWork j 1 (.wrWork (10 + j) 1 (Act.each (List.range w.length) (fun k _ => times w t j k) ()))) ()).alone m =
        (.ok (), m') ∧ m'.last = m.last ∧
        ∀ i, i < 10 → (i ∈ js → m'.work i = nom w t i ∧ m'.work (10 + i) = dom w i) ∧
          (i ∉ js → m'.work i = m.work i ∧ m'.work (10 + i) = m.work (10 + i)) := by
    intro js
    induction js with
    | nil => intro _ m; exact ⟨m, rfl, rfl, fun i _ => ⟨fun h => by simp at h, fun _ => ⟨rfl, rfl⟩⟩⟩
    | cons j js ih =>
      intro hjs m
      have hj : j < 10 := lt_of_lt_of_le (hjs j List.mem_cons_self) hw
      simp only [Act.each]
      obtain ⟨m1, a1, a2, a3, a4, a5⟩ := times_alone w t j hj (List.range w.length)
        { m with work := fun i => if i = 10 + j then 1 else if i = j then 1 else m.work i }
      have e : (Act.wrWork j (1 : K) (.wrWork (10 + j) 1 (Act.each (List.range w.length) (fun k _ => times w t j k) ()))).alone m = (.ok (), m1) := a1
      rw [alone_bind_ok e]
      obtain ⟨m', b1, b2, b3⟩ := ih (fun k hk => hjs k (List.mem_cons_of_mem _ hk)) m1
      refine ⟨m', b1, b2.trans a2, ?_⟩
      intro i hi
      simp only at a3 a4 a5
      rw [if_neg (show ¬ j = 10 + j by omega), if_pos trivial] at a3
      rw [if_pos trivial] at a4
      by_cases hij : i ∈ js
      · exact ⟨fun _ => (b3 i hi).1 hij, fun h => absurd (List.mem_cons_of_mem _ hij) h⟩
      · obtain ⟨c1, c2⟩ := (b3 i hi).2 hij
        by_cases hij' : i = j
        · subst hij'
          exact ⟨fun _ => ⟨by rw [c1, a3]; rfl, by rw [c2, a4]; rfl⟩, fun h => absurd List.mem_cons_self h⟩
        · refine ⟨fun h => ?_, fun _ => ⟨?_, ?_⟩⟩
          · rcases List.mem_cons.mp h with h | h
            · exact absurd h hij'
            · exact absurd h hij
          · rw [c1, a5 i hij' (by omega), if_neg (by omega), if_neg hij']
          · rw [c2, a5 (10 + i) (by omega) (by omega), if_neg (by omega), if_neg (by omega)]
  obtain ⟨m', h1, h2, h3⟩ := key (List.range w.length) (fun j hj => List.mem_range.mp hj) m
  exact ⟨m', h1, h2, fun i hi => (h3 i (by omega)).1 (List.mem_range.mpr hi)⟩

/-- The sums of a series at `t`. -/
def sixAt (w : List (Rec K)) (t : K) : Six K :=
  ⟨lagSum w t Rec.xp, lagSum w t Rec.yp, lagSum w t (fun r => r.dut - r.dat), lagSum w t Rec.lod, lagSum w t Rec.dX, lagSum w t Rec.dY⟩

/-- The sums, from whatever products `work` holds. -/
theorem sums_alone (w : List (Rec K)) (t : K) (m : Mem K)
    (h : ∀ i, i < w.length → m.work i = nom w t i ∧ m.work (10 + i) = dom w i) :
    (sums w).alone m = (.ok (sixAt w t), m) := by
  have key : ∀ (js : List Nat), (∀ j ∈ js, j < w.length) → ∀ s : Six K,
      (Act.each js (fun j (s : Six K) => Act.rdWork j fun n => .rdWork (10 + j) fun d =>
        let fac := n / d
        .done (.ok (⟨s.xp + (w[j]?.map Rec.xp).getD 0 * fac, s.yp + (w[j]?.map Rec.yp).getD 0 * fac,
          s.ut1 + (w[j]?.map fun r => r.dut - r.dat).getD 0 * fac, s.lod + (w[j]?.map Rec.lod).getD 0 * fac,
          s.dX + (w[j]?.map Rec.dX).getD 0 * fac, s.dY + (w[j]?.map Rec.dY).getD 0 * fac⟩ : Six K))) s).alone m =
      (.ok ⟨js.foldl (fun a j => a + ((w[j]?.map Rec.xp).getD 0) * (nom w t j / dom w j)) s.xp,
        js.foldl (fun a j => a + ((w[j]?.map Rec.yp).getD 0) * (nom w t j / dom w j)) s.yp,
        js.foldl (fun a j => a + ((w[j]?.map fun r => r.dut - r.dat).getD 0) * (nom w t j / dom w j)) s.ut1,
        js.foldl (fun a j => a + ((w[j]?.map Rec.lod).getD 0) * (nom w t j / dom w j)) s.lod,
        js.foldl (fun a j => a + ((w[j]?.map Rec.dX).getD 0) * (nom w t j / dom w j)) s.dX,
        js.foldl (fun a j => a + ((w[j]?.map Rec.dY).getD 0) * (nom w t j / dom w j)) s.dY⟩, m) := by
    intro js
    induction js with
    | nil => intro _ s; rfl
    | cons j js ih =>
      intro hjs s
      obtain ⟨e1, e2⟩ := h j (hjs j List.mem_cons_self)
      simp only [Act.each, Act.bind, Act.alone, e1, e2, List.foldl_cons]
      exact ih (fun k hk => hjs k (List.mem_cons_of_mem _ hk)) _
  exact key (List.range w.length) (fun j hj => List.mem_range.mp hj) _

theorem dataPoints_le (it n degree : Nat) (hd : degree ≤ 9) : dataPoints it n degree ≤ 5 := by
  unfold dataPoints
  simp only
  split
  · have := (shrink_spec it n ((degree + 1) / 2 - 1)).1; omega
  · omega

/-- What follows the search, undisturbed. -/
def restSeq (dat : K → K) (vec : List (Rec K)) (t : K) (old : Rec K) (degree : Int) (it : Nat) : Res (Status × Rec K) :=
  if it = 0 then
    match vec[0]? with
    | some r => .ok (.prior, { r with t := t })
    | none => .ub
  else if it = vec.length then
    match vec[it - 1]? with
    | some r => .ok (.later, { r with t := t })
    | none => .ub
  else if degree < 0 then .ub
  else
    if dataPoints it vec.length degree.toNat = 1 then
      match vec[it - 1]?, vec[it]? with
      | some x0, some x1 =>
        .ok (.linear,
          { t := t, xp := lin x0 x1 t Rec.xp, yp := lin x0 x1 t Rec.yp,
            dut := lin x0 x1 t (fun r => r.dut - r.dat) + dat t,
            lod := lin x0 x1 t Rec.lod, dX := lin x0 x1 t Rec.dX, dY := lin x0 x1 t Rec.dY,
            dat := old.dat, xrt := 0, yrt := 0 })
      | _, _ => .ub
    else if it < dataPoints it vec.length degree.toNat ∨ it + dataPoints it vec.length degree.toNat > vec.length then .ub
    else
      let w := (vec.drop (it - dataPoints it vec.length degree.toNat)).take (2 * dataPoints it vec.length degree.toNat)
      .ok (if ((dataPoints it vec.length degree.toNat : Int) * 2 = degree + 1) then .requested else .decreased,
        { t := t, xp := lagSum w t Rec.xp, yp := lagSum w t Rec.yp,
          dut := lagSum w t (fun r => r.dut - r.dat) + dat t,
          lod := lagSum w t Rec.lod, dX := lagSum w t Rec.dX, dY := lagSum w t Rec.dY,
          dat := old.dat, xrt := 0, yrt := 0 })

theorem rest_alone (dat : K → K) (vec : List (Rec K)) (t : K) (old : Rec K) (degree : Int) (hd : degree ≤ 9) (it : Nat) (m : Mem K) :
    ∃ m', (rest dat vec t old degree it).alone m = (restSeq dat vec t old degree it, m') ∧ m'.last = m.last := by
  unfold rest restSeq
  by_cases h0 : it = 0
  · rw [if_pos h0, if_pos h0]
    cases vec[0]? <;> exact ⟨m, rfl, rfl⟩
  rw [if_neg h0, if_neg h0]
  by_cases h1 : it = vec.length
  · rw [if_pos h1, if_pos h1]
    cases vec[it - 1]? <;> exact ⟨m, rfl, rfl⟩
  rw [if_neg h1, if_neg h1]
  by_cases h2 : degree < 0
  · rw [if_pos h2, if_pos h2]
    exact ⟨m, rfl, rfl⟩
  rw [if_neg h2, if_neg h2]
  simp only
  by_cases h3 : dataPoints it vec.length degree.toNat = 1
  · rw [if_pos h3, if_pos h3]
    cases vec[it - 1]? <;> cases vec[it]? <;> exact ⟨m, rfl, rfl⟩
  rw [if_neg h3, if_neg h3]
  split
  · exact ⟨m, rfl, rfl⟩
  · have hn := dataPoints_le it vec.length degree.toNat (by omega)
    generalize dataPoints it vec.length degree.toNat = n at *
    obtain ⟨m', e1, e2, e3⟩ := products_alone ((vec.drop (it - n)).take (2 * n)) t (by rw [List.length_take]; omega) m
    rw [alone_bind_ok e1, alone_bind_ok (sums_alone _ t m' e3)]
    exact ⟨m', rfl, e2⟩

theorem ok_bind {α δ : Type} (a : α) (f : α → Res δ) : (Res.ok a).bind f = f a := rfl

theorem answer_interpolate (dat : K → K) (vec : List (Rec K)) (hv : Sorted vec) (t : K) (old : Rec K) (degree : Int) (hd : degree ≤ 9) :
    answer dat vec (.interpolate t old degree) = (restSeq dat vec t old degree (upperBound t vec)).bind fun p => .ok (.inl p) := by
  have hh := hunt_sorted (s := ⟨vec, vec.length, some vec.length⟩) hv rfl le_rfl t
  simp only [answer, Series.interpolate]
  rw [if_neg (by omega), hh]
  rw [ok_bind]
  simp only [restSeq]
  by_cases h0 : upperBound t vec = 0
  · rw [if_pos h0, if_pos h0]
    cases vec[0]? <;> rfl
  rw [if_neg h0, if_neg h0]
  by_cases h1 : upperBound t vec = vec.length
  · rw [if_pos h1, if_pos h1]
    cases vec[upperBound t vec - 1]? <;> rfl
  rw [if_neg h1, if_neg h1]
  by_cases h2 : degree < 0
  · rw [if_pos h2, if_pos h2]; rfl
  rw [if_neg h2, if_neg h2]
  by_cases h3 : dataPoints (upperBound t vec) vec.length degree.toNat = 1
  · rw [if_pos h3, if_pos h3]
    cases vec[upperBound t vec - 1]? <;> cases vec[upperBound t vec]? <;> rfl
  rw [if_neg h3, if_neg h3]
  split <;> rfl

/-- A call that nobody disturbs returns what it returns on a series of its own. -/
theorem act_alone (dat : K → K) (vec : List (Rec K)) (hv : Sorted vec) (m : Mem K) (hm : Valid vec m) (call : Call K) :
    ∃ m', (call.act dat vec).alone m = (answer dat vec call, m') ∧ Valid vec m' := by
  have hu : upperBound call.epoch vec ≤ vec.length := (upperBound_spec _ hv).1
  cases call with
  | interpolate t old d =>
    by_cases hd : d ≤ 9
    · obtain ⟨m', e1, e2⟩ := rest_alone dat vec t old d hd (upperBound t vec) { m with last := upperBound t vec }
      refine ⟨m', ?_, ?_⟩
      · rw [Call.act, interpolate, if_neg (by omega), alone_bind, alone_bind_ok (hunt_alone vec hv t m hm), e1, answer_interpolate dat vec hv t old d hd]
        cases restSeq dat vec t old d (upperBound t vec) <;> rfl
      · unfold Valid; rw [e2]; exact hu
    · refine ⟨m, ?_, hm⟩
      rw [Call.act, interpolate, if_pos (by omega)]
      simp only [answer, Series.interpolate]
      rw [if_pos (by omega)]
      rfl
  | approx t =>
    have hh := hunt_sorted (s := ⟨vec, vec.length, some vec.length⟩) hv rfl le_rfl t
    refine ⟨{ m with last := upperBound t vec }, ?_, hu⟩
    rw [Call.act, approxDut1, alone_bind, alone_bind_ok (hunt_alone vec hv t m hm)]
    simp only [answer, Series.approxDut1, approxRest]
    rw [hh]
    rw [ok_bind]
    simp only
    by_cases h0 : upperBound t vec = 0
    · rw [if_pos h0, if_pos h0]
      cases vec[0]? <;> rfl
    rw [if_neg h0, if_neg h0]
    by_cases h1 : upperBound t vec = vec.length
    · rw [if_pos h1, if_pos h1]
      cases vec[upperBound t vec - 1]? <;> rfl
    · rw [if_neg h1, if_neg h1]
      cases vec[upperBound t vec - 1]? <;> cases vec[upperBound t vec]? <;> rfl

/-- Every allowed call begins with the search. -/
theorem act_hunt (dat : K → K) (vec : List (Rec K)) (call : Call K) (h : call.Allowed) :
    ∃ f, call.act dat vec = (hunt vec call.epoch).bind f := by
  cases call with
  | interpolate t old d =>
    rw [Call.act, interpolate, if_neg (by simp only [Call.Allowed] at h; omega), bind_assoc]
    exact ⟨_, rfl⟩
  | approx t =>
    rw [Call.act, approxDut1, bind_assoc]
    exact ⟨_, rfl⟩

/-- The search of a thread that found the cached iterator inside the series, and then finds it at the beginning. -/
theorem hunt_crash (vec : List (Rec K)) (t : K) (m : Mem K) (h0 : m.last ≠ 0) (h1 : m.last < vec.length) (f : Nat → Act K γ) :
    ∃ a, one^[3] ((hunt vec t).bind f, m) = (a, m) ∧ ∀ m' : Mem K, m'.last = 0 → one (a, m') = (.done .ub, m') := by
  refine ⟨_, by
    simp only [one, hunt, Act.bind, Act.step, Function.iterate_succ, Function.iterate_zero, Function.comp, id, if_pos h0,
      if_pos (Nat.ne_of_lt h1)]
    rfl, ?_⟩
  intro m' h
  simp only [one, Act.step, h, if_true]
  rfl

/-- The search of a thread that found the cached iterator after its epoch, and then finds it before. -/
theorem hunt_stale (vec : List (Rec K)) (t : K) (m : Mem K) (h0 : m.last ≠ 0) (h1 : m.last < vec.length) (x0 : Rec K)
    (hx0 : vec[m.last - 1]? = some x0) (ht : t ≤ x0.t) (f : Nat → Act K γ) :
    ∃ a, one^[4] ((hunt vec t).bind f, m) = (a, m) ∧ ∀ (m' : Mem K) (y : Rec K), vec[m'.last]? = some y → y.t < t →
      one^[2] (a, m') = (f m.last, { m' with last := m.last }) := by
  refine ⟨_, by
    simp only [one, hunt, Act.bind, Act.step, Function.iterate_succ, Function.iterate_zero, Function.comp, id, if_pos h0,
      if_pos (Nat.ne_of_lt h1), if_neg h0, hx0, if_pos (show x0.t ≥ t from ht)]
    rfl, ?_⟩
  intro m' y hy hyt
  simp only [one, Act.step, Function.iterate_succ, Function.iterate_zero, Function.comp, id, hy, if_pos hyt, found, Act.bind]

/-- The record made from the sums. -/
def ofSums (dat : K → K) (t : K) (old : Rec K) (s : Six K) : Rec K :=
  { t := t, xp := s.xp, yp := s.yp, dut := s.ut1 + dat t, lod := s.lod, dX := s.dX, dY := s.dY, dat := old.dat, xrt := 0, yrt := 0 }

/-- What follows the search when two or more records on each side are used. -/
theorem rest_window (dat : K → K) (vec : List (Rec K)) (t : K) (old : Rec K) (D u n : Nat) (h0 : 0 < u) (h1 : u < vec.length)
    (hn : dataPoints u vec.length D = n) (hn2 : 2 ≤ n) (hnu : n ≤ u) (hnl : u + n ≤ vec.length) :
    rest dat vec t old (D : Int) u = (products ((vec.drop (u - n)).take (2 * n)) t).bind (fun _ =>
      (sums ((vec.drop (u - n)).take (2 * n))).bind fun s =>
      .done (.ok (if ((n : Int) * 2 = (D : Int) + 1) then .requested else .decreased, ofSums dat t old s))) ∧
    restSeq dat vec t old (D : Int) u = .ok (if ((n : Int) * 2 = (D : Int) + 1) then .requested else .decreased,
      ofSums dat t old (sixAt ((vec.drop (u - n)).take (2 * n)) t)) := by
  subst hn
  constructor
  · unfold rest
    rw [if_neg (by omega), if_neg (by omega), if_neg (by omega)]
    simp only [Int.toNat_natCast]
    rw [if_neg (by omega), if_neg (by omega)]
    rfl
  · unfold restSeq
    rw [if_neg (by omega), if_neg (by omega), if_neg (by omega)]
    simp only [Int.toNat_natCast]
    rw [if_neg (by omega), if_neg (by omega)]
    rfl

end Verif.EopThreads
