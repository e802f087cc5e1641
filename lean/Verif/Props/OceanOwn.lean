import Verif.Spec.OceanOwn
import Mathlib.Tactic.SplitIfs
import Mathlib.Tactic.ByContra
/-
C44: `OceanTide` objects own their admittance model exclusively.
-/
namespace Verif.OceanOwn

variable {α : Type}

/-- The pointer state stands for the values. -/
structure Rel (s : State α) (v : Vals α) : Prop extends Exclusive s where
  vals : ∀ k, v.objs k = (s.objs k).map fun p => p.bind s.heap
  fresh : ∀ p, s.heap p ≠ none → p < s.next
  out : s.out = v.out

theorem rel_init : Rel (init : State α) Vals.init :=
  ⟨⟨by simp [init], by simp [init], by simp [init]⟩, by simp [init, Vals.init], by simp [init], rfl⟩

/-- The object has no model, or does not exist. -/
def Bare (s : State α) (k : Nat) : Prop := ∀ p, s.objs k ≠ some (some p)

theorem State.ext' {s t : State α} (h1 : s.objs = t.objs) (h2 : s.heap = t.heap) (h3 : s.next = t.next) (h4 : s.out = t.out) : s = t := by
  cases s; cases t; simp_all

theorem Rel.bindNone {s : State α} {v : Vals α} (r : Rel s v) {k : Nat} (h : Bare s k) :
    Rel (s.bindObj k none) (v.put k (some none)) := by
  refine ⟨⟨?_, ?_, ?_⟩, ?_, r.fresh, r.out⟩
  · intro i p hi
    simp only [State.bindObj] at hi ⊢
    split_ifs at hi
    · cases hi
    · exact r.alive i p hi
  · intro i j p hi hj
    simp only [State.bindObj] at hi hj
    split_ifs at hi hj <;> first | (cases hi; done) | (cases hj; done) | exact r.single i j p hi hj
  · intro p hp
    obtain ⟨i, hi⟩ := r.owned p hp
    refine ⟨i, ?_⟩
    simp only [State.bindObj]
    rw [if_neg]
    · exact hi
    · rintro rfl; exact h p hi
  · intro i
    simp only [State.bindObj, Vals.put]
    split_ifs
    · rfl
    · exact r.vals i

/-- Freeing the block of an object and clearing its pointer. -/
theorem Rel.free {s : State α} {v : Vals α} (r : Rel s v) {k : Nat} {q : Option Nat} (hk : s.objs k = some q) :
    ∃ s1, s.free q = .ok s1 ∧ s1.objs = s.objs ∧ Rel (s1.bindObj k none) (v.put k (some none)) := by
  cases q with
  | none => exact ⟨s, rfl, rfl, r.bindNone (by intro p; rw [hk]; simp)⟩
  | some q =>
    cases hh : s.heap q with
    | none => exact absurd hh (r.alive k q hk)
    | some g =>
      refine ⟨{ s with heap := fun p => if p = q then none else s.heap p }, by simp [State.free, hh], rfl, ⟨?_, ?_, ?_⟩, ?_, ?_, r.out⟩
      · intro i p hi
        simp only [State.bindObj] at hi ⊢
        split_ifs at hi with e
        · cases hi
        · rw [if_neg]
          · exact r.alive i p hi
          · rintro rfl; exact e (r.single i k p hi hk)
      · intro i j p hi hj
        simp only [State.bindObj] at hi hj
        split_ifs at hi hj <;> first | (cases hi; done) | (cases hj; done) | exact r.single i j p hi hj
      · intro p hp
        simp only [State.bindObj] at hp ⊢
        split_ifs at hp with e
        · exact absurd rfl hp
        obtain ⟨i, hi⟩ := r.owned p hp
        refine ⟨i, ?_⟩
        rw [if_neg]
        · exact hi
        · rintro rfl
          rw [hk] at hi
          cases hi
          exact e rfl
      · intro i
        simp only [State.bindObj, Vals.put]
        split_ifs with e
        · rfl
        · rw [r.vals i]
          cases hi : s.objs i with
          | none => rfl
          | some x =>
            cases x with
            | none => rfl
            | some p =>
              have : p ≠ q := by rintro rfl; exact e (r.single i k p hi hk)
              simp [this]
      · intro p hp
        simp only [State.bindObj] at hp ⊢
        split_ifs at hp
        · exact absurd rfl hp
        · exact r.fresh p hp

/-- A new block for an object without one. -/
theorem Rel.give {s : State α} {v : Vals α} (r : Rel s v) {k : Nat} (h : Bare s k) (g : α) :
    Rel ((s.alloc g).2.bindObj k (some s.next)) (v.put k (some (some g))) := by
  have hn : s.heap s.next = none := by
    by_contra hc
    exact absurd (r.fresh _ hc) (by omega)
  have ho : ∀ i, s.objs i ≠ some (some s.next) := fun i hi => r.alive i _ hi hn
  refine ⟨⟨?_, ?_, ?_⟩, ?_, ?_, r.out⟩
  · intro i p hi
    simp only [State.bindObj, State.alloc] at hi ⊢
    by_cases e2 : p = s.next
    · rw [if_pos e2]; simp
    · rw [if_neg e2]
      split_ifs at hi with e1
      · cases hi; exact absurd rfl e2
      · exact r.alive i p hi
  · intro i j p hi hj
    simp only [State.bindObj, State.alloc] at hi hj
    split_ifs at hi hj with e1 e2 e2
    · rw [e1, e2]
    · cases hi; exact absurd hj (ho j)
    · cases hj; exact absurd hi (ho i)
    · exact r.single i j p hi hj
  · intro p hp
    simp only [State.bindObj, State.alloc] at hp ⊢
    by_cases e : p = s.next
    · exact ⟨k, by simp [e]⟩
    · rw [if_neg e] at hp
      obtain ⟨i, hi⟩ := r.owned p hp
      refine ⟨i, ?_⟩
      rw [if_neg]
      · exact hi
      · rintro rfl; exact h p hi
  · intro i
    simp only [State.bindObj, State.alloc, Vals.put]
    split_ifs with e
    · simp
    · rw [r.vals i]
      cases hi : s.objs i with
      | none => rfl
      | some x =>
        cases x with
        | none => rfl
        | some p =>
          have : p ≠ s.next := by rintro rfl; exact ho i hi
          simp [this]
  · intro p hp
    simp only [State.bindObj, State.alloc] at hp ⊢
    split_ifs at hp with e
    · omega
    · have := r.fresh p hp
      omega

/-- A block passes from one object to another that has none. -/
theorem Rel.pass {s : State α} {v : Vals α} (r : Rel s v) {k j : Nat} (hkj : k ≠ j) (h : Bare s k) {p : Option Nat} (hj : s.objs j = some p) :
    Rel ((s.bindObj k p).bindObj j none) ((v.put k (v.objs j)).put j (some none)) := by
  refine ⟨⟨?_, ?_, ?_⟩, ?_, r.fresh, r.out⟩
  · intro i q hi
    simp only [State.bindObj] at hi ⊢
    split_ifs at hi with e1 e2
    · cases hi
    · cases hi; exact r.alive j q hj
    · exact r.alive i q hi
  · intro i l q hi hl
    simp only [State.bindObj] at hi hl
    by_cases i1 : i = j
    · rw [if_pos i1] at hi; cases hi
    by_cases l1 : l = j
    · rw [if_pos l1] at hl; cases hl
    rw [if_neg i1] at hi
    rw [if_neg l1] at hl
    split_ifs at hi hl with e1 e2 e2
    · rw [e1, e2]
    · cases hi; exact absurd (r.single j l q hj hl).symm l1
    · cases hl; exact absurd (r.single i j q hi hj) i1
    · exact r.single i l q hi hl
  · intro q hq
    obtain ⟨i, hi⟩ := r.owned q hq
    simp only [State.bindObj] at hq ⊢
    by_cases e : i = j
    · subst e
      rw [hj] at hi
      exact ⟨k, by rw [if_neg hkj, if_pos rfl]; exact hi⟩
    · refine ⟨i, ?_⟩
      rw [if_neg e, if_neg]
      · exact hi
      · rintro rfl; exact h q hi
  · intro i
    simp only [State.bindObj, Vals.put]
    split_ifs with e1 e2
    · rfl
    · rw [r.vals j, hj]
    · exact r.vals i

theorem Rel.kill {s : State α} {v : Vals α} (r : Rel s v) {k : Nat} (h : Bare s k) :
    Rel { s with objs := fun i => if i = k then none else s.objs i } (v.put k none) := by
  refine ⟨⟨?_, ?_, ?_⟩, ?_, r.fresh, r.out⟩
  · intro i p hi
    simp only at hi ⊢
    split_ifs at hi
    exact r.alive i p hi
  · intro i j p hi hj
    simp only at hi hj
    split_ifs at hi hj
    exact r.single i j p hi hj
  · intro p hp
    obtain ⟨i, hi⟩ := r.owned p hp
    refine ⟨i, ?_⟩
    simp only
    rw [if_neg]
    · exact hi
    · rintro rfl; exact h p hi
  · intro i
    simp only [Vals.put]
    split_ifs
    · rfl
    · exact r.vals i

theorem put_put (v : Vals α) (k : Nat) (x y : Option (Option α)) : (v.put k x).put k y = v.put k y := by
  unfold Vals.put
  congr 1
  funext i
  simp only
  split_ifs <;> rfl

theorem put_self (v : Vals α) (k : Nat) : v.put k (v.objs k) = v := by
  unfold Vals.put
  cases v
  congr 1
  funext i
  simp only
  split_ifs with h
  · rw [h]
  · rfl

theorem bare_bind (s : State α) (k : Nat) : Bare (s.bindObj k none) k := by
  intro p
  simp [State.bindObj]

theorem bind_bind (s : State α) (k : Nat) (x y : Option Nat) : (s.bindObj k x).bindObj k y = s.bindObj k y := by
  refine State.ext' ?_ rfl rfl rfl
  funext i
  simp only [State.bindObj]
  split_ifs <;> rfl

/-- A clone for an object without model. -/
theorem Rel.clone {s : State α} {v : Vals α} (r : Rel s v) {k j : Nat} (h : Bare s k) {p : Option Nat} (hj : s.objs j = some p) :
    ∃ t, s.clone p = .ok t ∧ Rel (t.2.bindObj k t.1) (v.put k (v.objs j)) := by
  rw [r.vals j, hj]
  cases p with
  | none => exact ⟨(none, s), rfl, r.bindNone h⟩
  | some p =>
    cases hh : s.heap p with
    | none => exact absurd hh (r.alive j p hj)
    | some g =>
      refine ⟨(some (s.alloc g).1, (s.alloc g).2), by simp [State.clone, hh], ?_⟩
      have := r.give h g
      simpa [hh, State.alloc] using this

/-- One statement keeps exclusive ownership and does what the values say. -/
theorem step_rel {s : State α} {v v' : Vals α} (r : Rel s v) (o : Op α) (h : vstep v o = some v') (hm : MoveOk v o) : ∃ s', step s o = .ok s' ∧ Rel s' v' := by
  have hn : ∀ k, v.objs k = none → s.objs k = none := fun k hk => by
    rw [r.vals k] at hk; simpa using hk
  have hs : ∀ k, v.objs k ≠ none → ∃ p, s.objs k = some p := fun k hk => by
    rw [r.vals k] at hk
    cases h : s.objs k with
    | none => rw [h] at hk; exact absurd rfl hk
    | some p => exact ⟨p, rfl⟩
  have hb : ∀ k, s.objs k = none → Bare s k := fun k hk p => by rw [hk]; simp
  cases o with
  | create k =>
    simp only [vstep] at h
    split_ifs at h with hk
    cases h
    have := hn k hk
    exact ⟨_, by simp only [step, this], r.bindNone (hb k this)⟩
  | createWith k g =>
    simp only [vstep] at h
    split_ifs at h with hk
    cases h
    have := hn k hk
    exact ⟨_, by simp only [step, this]; rfl, r.give (hb k this) g⟩
  | copyCreate k j =>
    simp only [vstep] at h
    split_ifs at h with hk
    cases h
    have e1 := hn k hk.1
    obtain ⟨p, e2⟩ := hs j hk.2
    obtain ⟨t, e3, hr⟩ := r.clone (hb k e1) e2
    exact ⟨_, by simp only [step, e1, e2, e3, Res.bind], hr⟩
  | moveCreate k j =>
    simp only [vstep] at h
    split_ifs at h with hk
    cases h
    have e1 := hn k hk.1
    obtain ⟨p, e2⟩ := hs j hk.2
    exact ⟨_, by simp only [step, e1, e2], r.pass (by rintro rfl; exact hk.2 hk.1) (hb k e1) e2⟩
  | copyAssign k j =>
    simp only [vstep] at h
    split_ifs at h with hk
    cases h
    obtain ⟨q, e1⟩ := hs k hk.1
    obtain ⟨p, e2⟩ := hs j hk.2
    by_cases e : k = j
    · subst e
      refine ⟨s, by simp only [step, e1, if_true], ?_⟩
      rw [put_self]; exact r
    · obtain ⟨s1, f1, f2, f3⟩ := r.free e1
      have e2' : (s1.bindObj k none).objs j = some p := by simp only [State.bindObj, f2]; rw [if_neg (Ne.symm e)]; exact e2
      obtain ⟨t, e3, hr⟩ := f3.clone (bare_bind s1 k) e2'
      have hv : (v.put k (some none)).objs j = v.objs j := by simp only [Vals.put]; rw [if_neg (Ne.symm e)]
      rw [hv, put_put] at hr
      cases hc : s1.clone p with
      | ok t' =>
        refine ⟨_, by simp only [step, e1, e2, if_neg e, f1, Res.bind, hc]; rfl, ?_⟩
        have : t'.2.bindObj k t'.1 = t.2.bindObj k t.1 := by
          cases p with
          | none =>
            simp only [State.clone, Res.ok.injEq] at e3 hc
            subst e3; subst hc
            exact (bind_bind s1 k none none).symm
          | some p =>
            simp only [State.clone, State.bindObj] at e3 hc
            cases hh : s1.heap p with
            | none => rw [hh] at hc; cases hc
            | some g =>
              rw [hh] at e3 hc
              simp only [Res.ok.injEq] at e3 hc
              subst e3; subst hc
              refine State.ext' ?_ rfl rfl rfl
              funext i
              simp only [State.bindObj, State.alloc]
              split_ifs <;> rfl
        rw [this]
        exact hr
      | ub => exfalso; cases p with
        | none => simp [State.clone] at hc
        | some p => simp only [State.clone, State.bindObj] at e3 hc
                    cases hh : s1.heap p with
                    | none => rw [hh] at e3; cases e3
                    | some g => rw [hh] at hc; cases hc
      | abort => exfalso; cases p with
        | none => simp [State.clone] at hc
        | some p => simp only [State.clone] at hc; split at hc <;> cases hc
      | throw => exfalso; cases p with
        | none => simp [State.clone] at hc
        | some p => simp only [State.clone] at hc; split at hc <;> cases hc
  | moveAssign k j =>
    simp only [vstep] at h
    split_ifs at h with hk
    cases h
    obtain ⟨q, e1⟩ := hs k hk.1
    obtain ⟨p, e2⟩ := hs j hk.2
    obtain ⟨s1, f1, f2, f3⟩ := r.free e1
    by_cases e : k = j
    · subst e
      rw [put_self]
      rw [e1] at e2
      cases e2
      cases q with
      | none =>
        simp only [State.free, Res.ok.injEq] at f1
        subst f1
        refine ⟨s, by simp only [step, e1, State.free, Res.bind], ?_⟩
        have : s.bindObj k none = s := by
          refine State.ext' ?_ rfl rfl rfl
          funext i
          simp only [State.bindObj]
          split_ifs with hi
          · rw [hi, e1]
          · rfl
        rw [this] at f3
        exact f3
      | some q =>
        refine ⟨_, by simp only [step, e1, f1, Res.bind]; rfl, ?_⟩
        rw [bind_bind]
        exact f3
    · have e2' : (s1.bindObj k none).objs j = some p := by simp only [State.bindObj, f2]; rw [if_neg (Ne.symm e)]; exact e2
      have hv : (v.put k (some none)).objs j = v.objs j := by simp only [Vals.put]; rw [if_neg (Ne.symm e)]
      have hr := f3.pass e (bare_bind s1 k) e2'
      rw [hv, put_put, bind_bind] at hr
      cases p with
      | none =>
        have hj : v.objs j = some none := by rw [r.vals j, e2]; rfl
        have hq := hm hj
        rw [r.vals k, e1] at hq
        have hq' : q = none := by
          cases q with
          | none => rfl
          | some q =>
            simp only [Option.map_some, Option.some.injEq, Option.bind_some] at hq
            exact absurd hq (r.alive k q e1)
        subst hq'
        simp only [State.free, Res.ok.injEq] at f1
        subst f1
        refine ⟨s, by simp only [step, e1, e2, State.free, Res.bind], ?_⟩
        have : (s.bindObj k none).bindObj j none = s := by
          refine State.ext' ?_ rfl rfl rfl
          funext i
          simp only [State.bindObj]
          split_ifs with hi hi2
          · rw [hi, e2]
          · rw [hi2, e1]
          · rfl
        rw [this] at hr
        exact hr
      | some p => exact ⟨_, by simp only [step, e1, e2, f1, Res.bind], hr⟩
  | set k g =>
    simp only [vstep] at h
    split_ifs at h with hk
    cases h
    obtain ⟨q, e1⟩ := hs k hk
    obtain ⟨s1, f1, f2, f3⟩ := r.free e1
    refine ⟨_, by simp only [step, e1, f1, Res.bind]; rfl, ?_⟩
    have hr := f3.give (bare_bind s1 k) g
    rw [put_put] at hr
    have : ((s1.bindObj k none).alloc g).2.bindObj k (some (s1.bindObj k none).next) = (s1.alloc g).2.bindObj k (some (s1.alloc g).1) := by
      refine State.ext' ?_ rfl rfl rfl
      funext i
      simp only [State.bindObj, State.alloc]
      split_ifs <;> rfl
    rw [this] at hr
    exact hr
  | eval k =>
    simp only [vstep] at h
    cases hv : v.objs k with
    | none => rw [hv] at h; cases h
    | some x =>
      rw [hv] at h
      cases h
      obtain ⟨q, e1⟩ := hs k (by rw [hv]; simp)
      rw [r.vals k, e1] at hv
      cases q with
      | none =>
        simp at hv
        subst hv
        refine ⟨{ s with out := s.out ++ [none] }, by simp only [step, e1], ⟨r.alive, r.single, r.owned⟩, r.vals, r.fresh, ?_⟩
        simp [r.out]
      | some q =>
        cases hh : s.heap q with
        | none => exact absurd hh (r.alive k q e1)
        | some g =>
          simp [hh] at hv
          subst hv
          refine ⟨{ s with out := s.out ++ [some g] }, by simp only [step, e1, hh], ⟨r.alive, r.single, r.owned⟩, r.vals, r.fresh, ?_⟩
          simp [r.out]
  | destroy k =>
    simp only [vstep] at h
    split_ifs at h with hk
    cases h
    obtain ⟨q, e1⟩ := hs k hk
    obtain ⟨s1, f1, f2, f3⟩ := r.free e1
    refine ⟨_, by simp only [step, e1, f1, Res.bind]; rfl, ?_⟩
    have hr := f3.kill (bare_bind s1 k)
    rw [put_put] at hr
    have : ({ s1.bindObj k none with objs := fun i => if i = k then none else (s1.bindObj k none).objs i } : State α) =
        { s1 with objs := fun i => if i = k then none else s1.objs i } := by
      refine State.ext' ?_ rfl rfl rfl
      funext i
      simp only [State.bindObj]
      split_ifs <;> rfl
    rw [this] at hr
    exact hr

theorem run_rel (os : List (Op α)) : ∀ {s : State α} {v v' : Vals α}, Rel s v → vrun v os = some v' → MovesOk v os →
    ∃ s', run s os = .ok s' ∧ Rel s' v' := by
  induction os with
  | nil =>
    intro s v v' r h _
    simp only [vrun, Option.some.injEq] at h
    subst h
    exact ⟨s, rfl, r⟩
  | cons o os ih =>
    intro s v v' r h hm
    simp only [vrun] at h
    cases hv : vstep v o with
    | none => rw [hv] at h; cases h
    | some v1 =>
      rw [hv] at h
      obtain ⟨s1, e1, r1⟩ := step_rel r o hv hm.1
      obtain ⟨s2, e2, r2⟩ := ih r1 h (hm.2 v1 hv)
      exact ⟨s2, by simp only [run, e1, Res.bind, e2], r2⟩

/-- C44, partial: in every program whose move assignments have a source with a model or a target without one, nothing is undefined;
after each prefix every model is owned by exactly one object, and no object holds a freed one; evaluations read the model the
program gave to the object. Missing: move assignments from an object without a model to one with (`move_assign_fails`). -/
theorem ownership_partial (os : List (Op α)) (v : Vals α) (h : vrun Vals.init os = some v) (hm : MovesOk Vals.init os) :
    ∃ s, run init os = .ok s ∧ Exclusive s ∧ s.out = v.out ∧ (∀ k, s.objs k = none ↔ v.objs k = none) ∧
      ((∀ k, v.objs k = none) → ∀ p, s.heap p = none) := by
  obtain ⟨s, e, r⟩ := run_rel os rel_init h hm
  refine ⟨s, e, r.toExclusive, r.out, fun k => ?_, fun hv p => ?_⟩
  · rw [r.vals k]; simp
  · by_contra hp
    obtain ⟨k, hk⟩ := r.owned p hp
    have := hv k
    rw [r.vals k, hk] at this
    cases this

/-- A program with every kind of statement, including a self move. -/
example : let os : List (Op Nat) := [.createWith 0 7, .create 1, .copyCreate 2 0, .moveAssign 1 0, .moveAssign 0 2, .set 2 9, .copyAssign 0 1,
      .moveCreate 3 1, .eval 3, .eval 1, .moveAssign 2 2, .eval 0, .destroy 0, .destroy 1, .destroy 2, .destroy 3]
    (vrun Vals.init os).isSome = true ∧ MovesOk Vals.init os ∧ ((vrun Vals.init os).map Vals.out) = some [some 7, none, some 7] := by
  refine ⟨by decide, ?_, by decide⟩
  simp [MovesOk, MoveOk, vstep, Vals.put, Vals.init]

/-- C44 fails: after `a = std::move(b)` where `a` had a model and `b` none, `a` still points to the freed model: evaluating it reads
freed memory and destroying it frees it twice. -/
theorem move_assign_fails (g : α) :
    let os : List (Op α) := [.createWith 0 g, .create 1, .moveAssign 0 1]
    (∃ s, run init os = .ok s ∧ ∃ p, s.objs 0 = some (some p) ∧ s.heap p = none) ∧
    (∃ v, vrun Vals.init (os ++ [.eval 0, .destroy 0]) = some v) ∧
    run init (os ++ [.eval 0]) = .ub ∧ run init (os ++ [.destroy 0]) = .ub := by
  simp [run, step, init, State.bindObj, State.alloc, State.free, Res.bind, vrun, vstep, Vals.put, Vals.init]

end Verif.OceanOwn
