import Verif.Spec.Aod1bOwn
import Mathlib.Tactic.SplitIfs
/-
C86: moving a dealiasing stream.
-/
namespace Verif.Aod1b.Own
variable {α δ : Type} (husk : α → α)

/-- The memory holds these streams: each one points to its own file and has an array of its own, and there are no other arrays. -/
structure Rep (s : State α δ) (v : Nat → Option (Option (α × Option δ))) : Prop where
  none : ∀ k, v k = none → s.objs k = none
  some : ∀ k x, v k = some x → ∃ a d p, x = Option.some (a, d) ∧ s.objs k = Option.some ⟨a, k, Option.some p, d⟩ ∧ s.heap p = true ∧ p < s.next
  sep : ∀ k j o o', s.objs k = Option.some o → s.objs j = Option.some o' → o.buf = o'.buf → k = j
  own : ∀ p, s.heap p = true → ∃ k o, s.objs k = Option.some o ∧ o.buf = Option.some p

theorem rep_run : ∀ (os : List (Op α δ)) (s : State α δ) (v v' : Nat → Option (Option (α × Option δ))) (ys : List (α × Option δ)),
    Rep s v → (∀ o ∈ os, ¬ o.Moves) → want v os = some (v', ys) → ∃ s', run husk s os = .ok s' ∧ Rep s' v' ∧ s'.out = s.out ++ ys := by
  intro os
  induction os with
  | nil =>
    intro s v v' ys hR _ hw
    simp only [want, Option.some.injEq, Prod.mk.injEq] at hw
    obtain ⟨rfl, rfl⟩ := hw
    exact ⟨s, rfl, hR, by simp⟩
  | cons o os ih =>
    intro s v v' ys hR hm hw
    have hm' : ∀ o ∈ os, ¬ o.Moves := fun o h => hm o (List.mem_cons_of_mem _ h)
    cases o with
    | create k a dir =>
      simp only [want] at hw
      cases hv : v k with
      | some x => rw [hv] at hw; cases hw
      | none =>
        rw [hv] at hw
        simp only at hw
        have hk := hR.none k hv
        have hobj : ∀ j o, s.objs j = some o → ∃ p, o.buf = some p ∧ p < s.next := by
          intro j o ho
          cases hj : v j with
          | none => rw [hR.none j hj] at ho; cases ho
          | some x =>
            obtain ⟨a, d, p, -, e, -, hp⟩ := hR.some j x hj
            rw [e] at ho; cases ho
            exact ⟨p, rfl, hp⟩
        have hR' : Rep ({ s with heap := fun p => if p = s.next then true else s.heap p, next := s.next + 1 }.put k (some ⟨a, k, some s.next, dir⟩))
            (Function.update v k (some (some (a, dir)))) := by
          refine ⟨?_, ?_, ?_, ?_⟩
          · intro j hj
            by_cases e : j = k
            · subst e; simp at hj
            · rw [Function.update_of_ne e] at hj
              simp [State.put, e, hR.none j hj]
          · intro j x hj
            by_cases e : j = k
            · subst e
              simp at hj
              subst hj
              exact ⟨a, dir, s.next, rfl, by simp [State.put], by simp [State.put], by simp [State.put]⟩
            · rw [Function.update_of_ne e] at hj
              obtain ⟨a', d', p, h1, h2, h3, h4⟩ := hR.some j x hj
              exact ⟨a', d', p, h1, by simp [State.put, e, h2], by simp [State.put, h3], by simp [State.put]; omega⟩
          · intro i j o o' hi hj he
            simp only [State.put] at hi hj
            split_ifs at hi hj with e1 e2 e2
            · rw [e1, e2]
            · cases hi
              obtain ⟨p, hp, hl⟩ := hobj j o' hj
              rw [hp] at he; cases he; omega
            · cases hj
              obtain ⟨p, hp, hl⟩ := hobj i o hi
              rw [hp] at he; cases he; omega
            · exact hR.sep i j o o' hi hj he
          · intro p hp
            simp only [State.put] at hp
            split_ifs at hp with e
            · exact ⟨k, ⟨a, k, some s.next, dir⟩, by simp [State.put], by simp [e]⟩
            · obtain ⟨j, o, h1, h2⟩ := hR.own p hp
              refine ⟨j, o, ?_, h2⟩
              have : j ≠ k := by rintro rfl; rw [hk] at h1; cases h1
              simp [State.put, this, h1]
        obtain ⟨s', h1, h2, h3⟩ := ih _ _ v' ys hR' hm' hw
        · refine ⟨s', ?_, h2, h3⟩
          simp only [run, step, hk, Res.bind]
          exact h1
    | moveCreate k j => exact absurd trivial (hm _ List.mem_cons_self)
    | moveAssign k j =>
      have e : k = j := not_not.mp (hm _ List.mem_cons_self)
      subst e
      simp only [want] at hw
      cases hv : v k with
      | none => rw [hv] at hw; cases hw
      | some x =>
        obtain ⟨a, d, p, rfl, e, -, -⟩ := hR.some k x hv
        rw [hv] at hw
        simp only [if_true] at hw
        obtain ⟨s', h1, h2, h3⟩ := ih s v v' ys hR hm' hw
        refine ⟨s', ?_, h2, h3⟩
        simp only [run, step, e, if_true, Res.bind]
        exact h1
    | query k =>
      simp only [want] at hw
      cases hv : v k with
      | none => rw [hv] at hw; cases hw
      | some x =>
        obtain ⟨a, d, p, rfl, e, hp, hl⟩ := hR.some k x hv
        rw [hv] at hw
        simp only [Option.map_eq_some_iff, Prod.mk.injEq, Prod.exists] at hw
        obtain ⟨v1, y1, hw, rfl, rfl⟩ := hw
        obtain ⟨s', h1, h2, h3⟩ := ih { s with out := s.out ++ [(a, d)] } v v1 y1 ⟨hR.none, hR.some, hR.sep, hR.own⟩ hm' hw
        refine ⟨s', ?_, h2, by rw [h3]; simp⟩
        simp only [run, step, e, hp, if_true, Res.bind]
        exact h1
    | feed k a' =>
      simp only [want] at hw
      cases hv : v k with
      | none => rw [hv] at hw; cases hw
      | some x =>
        obtain ⟨a, d, p, rfl, e, hp, hl⟩ := hR.some k x hv
        rw [hv] at hw
        simp only at hw
        have hR' : Rep (s.put k (some ⟨a', k, some p, d⟩))
            (Function.update v k (some (some (a', d)))) := by
          refine ⟨?_, ?_, ?_, ?_⟩
          · intro j hj
            by_cases e' : j = k
            · subst e'; simp at hj
            · rw [Function.update_of_ne e'] at hj
              simp [State.put, e', hR.none j hj]
          · intro j x hj
            by_cases e' : j = k
            · subst e'
              simp at hj
              subst hj
              exact ⟨a', d, p, rfl, by simp [State.put], hp, hl⟩
            · rw [Function.update_of_ne e'] at hj
              obtain ⟨a1, d1, p1, h1, h2, h3, h4⟩ := hR.some j x hj
              exact ⟨a1, d1, p1, h1, by simp [State.put, e', h2], h3, h4⟩
          · intro i j o o' hi hj he
            simp only [State.put] at hi hj
            split_ifs at hi hj with e1 e2 e2
            · rw [e1, e2]
            · cases hi; rw [e1]; exact hR.sep k j _ o' e hj he
            · cases hj; rw [e2]; exact hR.sep i k o _ hi e he
            · exact hR.sep i j o o' hi hj he
          · intro q hq
            obtain ⟨j, o, h1, h2⟩ := hR.own q hq
            by_cases e' : j = k
            · subst e'
              rw [e] at h1; cases h1
              exact ⟨j, ⟨a', j, some p, d⟩, by simp [State.put], h2⟩
            · exact ⟨j, o, by simp [State.put, e', h1], h2⟩
        obtain ⟨s', h1, h2, h3⟩ := ih _ _ v' ys hR' hm' hw
        · refine ⟨s', ?_, h2, h3⟩
          simp only [run, step, e, hp, if_true, Res.bind]
          exact h1
    | destroy k =>
      simp only [want] at hw
      cases hv : v k with
      | none => rw [hv] at hw; cases hw
      | some x =>
        obtain ⟨a, d, p, rfl, e, hp, hl⟩ := hR.some k x hv
        rw [hv] at hw
        simp only at hw
        have hR' : Rep ({ s with heap := fun q => if q = p then false else s.heap q }.put k none)
            (Function.update v k none) := by
          refine ⟨?_, ?_, ?_, ?_⟩
          · intro j hj
            by_cases e' : j = k
            · subst e'; simp [State.put]
            · rw [Function.update_of_ne e'] at hj
              simp [State.put, e', hR.none j hj]
          · intro j x hj
            by_cases e' : j = k
            · subst e'; simp at hj
            · rw [Function.update_of_ne e'] at hj
              obtain ⟨a1, d1, p1, h1, h2, h3, h4⟩ := hR.some j x hj
              refine ⟨a1, d1, p1, h1, by simp [State.put, e', h2], ?_, h4⟩
              have : p1 ≠ p := by rintro rfl; exact e' (hR.sep j k _ _ h2 e rfl)
              simp [State.put, this, h3]
          · intro i j o o' hi hj he
            simp only [State.put] at hi hj
            split_ifs at hi hj with e1 e2 e2
            exact hR.sep i j o o' hi hj he
          · intro q hq
            simp only [State.put] at hq
            split_ifs at hq with e1
            obtain ⟨j, o, h1, h2⟩ := hR.own q hq
            refine ⟨j, o, ?_, h2⟩
            have : j ≠ k := by
              rintro rfl
              rw [e] at h1; cases h1
              simp at h2; exact e1 h2.symm
            simp [State.put, this, h1]
        obtain ⟨s', h1, h2, h3⟩ := ih _ _ v' ys hR' hm' hw
        · refine ⟨s', ?_, h2, h3⟩
          simp only [run, step, e, hp, if_true, Res.bind]
          exact h1

/-- C86, without moves: a program that creates, queries, feeds and destroys any number of streams, in any order, runs; every query
sees the file its stream was built on or fed with last and its directory; when all streams are destroyed nothing is leaked.
Missing: programs that move streams (`stream_moves_fails`). -/
theorem stream_lifetimes_partial (os : List (Op α δ)) (hm : ∀ o ∈ os, ¬ o.Moves) (v : Nat → Option (Option (α × Option δ)))
    (ys : List (α × Option δ)) (hw : want (fun _ => none) os = some (v, ys)) :
    ∃ s, run husk init os = .ok s ∧ s.out = ys ∧ (∀ k, s.objs k = none ↔ v k = none) ∧ ((∀ k, v k = none) → ∀ p, s.heap p = false) := by
  obtain ⟨s, h1, h2, h3⟩ := rep_run husk os init (fun _ => none) v ys ⟨fun _ _ => rfl, fun _ _ h => by simp at h, fun _ _ _ _ h => by simp [init] at h, fun _ h => by simp [init] at h⟩ hm hw
  refine ⟨s, h1, by simpa [init] using h3, ?_, ?_⟩
  · intro k
    refine ⟨fun h => ?_, h2.none k⟩
    cases hv : v k with
    | none => rfl
    | some x =>
      obtain ⟨_, _, _, _, e, _⟩ := h2.some k x hv
      rw [h] at e; cases e
  · intro hn p
    cases hp : s.heap p with
    | false => rfl
    | true =>
      obtain ⟨k, o, e, -⟩ := h2.own p hp
      rw [h2.none k (hn k)] at e; cases e

/-- Some stream has no array. -/
def Hollow (s : State α δ) : Prop := ∃ k o, s.objs k = some o ∧ o.buf = none

theorem hollow_step {s s' : State α δ} (o : Op α δ) (h : step husk s o = .ok s') (hs : Hollow s ∨ o.Moves) : Hollow s' := by
  cases o with
  | create k a dir =>
    obtain ⟨i, o, h1, h2⟩ := hs.resolve_right id
    simp only [step] at h
    cases hk : s.objs k with
    | some q => rw [hk] at h; cases h
    | none =>
      rw [hk] at h
      simp only [Res.ok.injEq] at h
      subst h
      have : i ≠ k := by rintro rfl; rw [hk] at h1; cases h1
      exact ⟨i, o, by simp [State.put, this, h1], h2⟩
  | moveCreate k j =>
    simp only [step] at h
    cases hk : s.objs k with
    | some q => rw [hk] at h; cases h
    | none =>
      cases hj : s.objs j with
      | none => rw [hk, hj] at h; cases h
      | some q =>
        rw [hk, hj] at h
        simp only [Res.ok.injEq] at h
        subst h
        exact ⟨j, { q with stream := husk q.stream, buf := none }, by simp [State.put], rfl⟩
  | moveAssign k j =>
    simp only [step] at h
    cases hk : s.objs k with
    | none => rw [hk] at h; cases h
    | some r =>
      cases hj : s.objs j with
      | none => rw [hk, hj] at h; cases h
      | some q =>
        rw [hk, hj] at h
        simp only at h
        split_ifs at h with e
        · cases h
          exact hs.resolve_right fun hm => hm e
        · cases h
          exact ⟨j, { q with stream := husk q.stream, buf := none }, by simp [State.put], rfl⟩
  | query k =>
    obtain ⟨i, o, h1, h2⟩ := hs.resolve_right id
    simp only [step] at h
    cases hk : s.objs k with
    | none => rw [hk] at h; cases h
    | some q =>
      rw [hk] at h
      simp only at h
      split at h
      · split_ifs at h
        cases h
        exact ⟨i, o, h1, h2⟩
      · cases h
  | feed k a =>
    obtain ⟨i, o, h1, h2⟩ := hs.resolve_right id
    simp only [step] at h
    cases hk : s.objs k with
    | none => rw [hk] at h; cases h
    | some q =>
      rw [hk] at h
      cases hb : q.buf with
      | none => simp only [hb] at h; cases h
      | some p =>
        simp only [hb] at h
        split_ifs at h
        cases h
        have : i ≠ k := by rintro rfl; rw [hk] at h1; cases h1; rw [hb] at h2; cases h2
        exact ⟨i, o, by simp [State.put, this, h1], h2⟩
  | destroy k =>
    obtain ⟨i, o, h1, h2⟩ := hs.resolve_right id
    simp only [step] at h
    cases hk : s.objs k with
    | none => rw [hk] at h; cases h
    | some q =>
      rw [hk] at h
      cases hb : q.buf with
      | none => simp only [hb] at h; cases h
      | some p =>
        simp only [hb] at h
        split_ifs at h
        cases h
        have : i ≠ k := by rintro rfl; rw [hk] at h1; cases h1; rw [hb] at h2; cases h2
        exact ⟨i, o, by simp [State.put, this, h1], h2⟩

theorem hollow_run : ∀ (os : List (Op α δ)) (s s' : State α δ), run husk s os = .ok s' → (Hollow s ∨ ∃ o ∈ os, o.Moves) → Hollow s' := by
  intro os
  induction os with
  | nil =>
    intro s s' h hs
    cases h
    exact hs.resolve_right (by simp)
  | cons o os ih =>
    intro s s' h hs
    simp only [run] at h
    cases h1 : step husk s o with
    | ok s1 =>
      rw [h1] at h
      simp only [Res.bind] at h
      refine ih s1 s' h ?_
      rcases hs with hs | ⟨o', ho, hm⟩
      · exact .inl (hollow_step husk o h1 (.inl hs))
      · rcases List.mem_cons.mp ho with rfl | ho
        · exact .inl (hollow_step husk o' h1 (.inr hm))
        · exact .inr ⟨o', ho, hm⟩
    | ub => rw [h1] at h; cases h
    | abort => rw [h1] at h; cases h
    | throw => rw [h1] at h; cases h

/-- C86 fails for every program that moves a stream: there is always an object left whose destruction is undefined behaviour, so
no such program can end its objects' lifetimes. The destructor dereferences the null pointer that a move leaves behind. -/
theorem stream_moves_fails (os : List (Op α δ)) (hm : ∃ o ∈ os, o.Moves) (s : State α δ) (h : run husk init os = .ok s) :
    ∃ k, s.objs k ≠ none ∧ step husk s (.destroy k) = .ub := by
  obtain ⟨k, o, h1, h2⟩ := hollow_run husk os init s h (.inr hm)
  exact ⟨k, by rw [h1]; exact nofun, by simp only [step, h1, h2]⟩

/-- C86 fails: a moved-to stream has lost its directory and reads through the object it was moved from, so that it cannot be used
after the end of that object. -/
theorem stream_moved_to_fails (a : α) (d : δ) :
    (∃ s, run husk init [.create 0 a (some d), .moveCreate 1 0, .query 1] = .ok s ∧ s.out = [(husk a, (none : Option δ))]) ∧
    want (fun _ => none) [.create 0 a (some d), .moveCreate 1 0, .query 1] =
      some (fun k => if k = 0 then some none else if k = 1 then some (some (a, some d)) else none, [(a, some d)]) := by
  constructor
  · exact ⟨_, rfl, rfl⟩
  · simp only [want, Function.update]
    simp
    funext k
    simp only [Function.update_apply]
    split_ifs <;> rfl

/-- C86 fails: the array of a stream that is assigned to is leaked. -/
theorem stream_assign_leak_fails (a b : α) (d : Option δ) :
    ∃ s, run husk init [.create 0 a d, .create 1 b d, .moveAssign 0 1] = .ok s ∧ s.heap 0 = true ∧ ∀ k o, s.objs k = some o → o.buf ≠ some 0 := by
  refine ⟨_, rfl, rfl, ?_⟩
  intro k o h
  simp only [State.put] at h
  split_ifs at h
  · cases h; simp
  · cases h; simp
  · cases h

/-- Two streams with overlapping lifetimes, one of them fed with a second file. -/
example : ∃ s, run (δ := Nat) (fun x : Nat => x) init
    [.create 0 5 (some 1), .create 1 6 none, .query 0, .feed 0 7, .query 1, .query 0, .destroy 0, .query 1, .destroy 1] = .ok s ∧
    s.out = [(5, some 1), (6, none), (7, some 1), (6, none)] ∧ ∀ p, s.heap p = false := by
  obtain ⟨s, h1, h2, -, h4⟩ := stream_lifetimes_partial (δ := Nat) (fun x : Nat => x)
    [.create 0 5 (some 1), .create 1 6 none, .query 0, .feed 0 7, .query 1, .query 0, .destroy 0, .query 1, .destroy 1]
    (by simp [Op.Moves]) (fun _ => none) [(5, some 1), (6, none), (7, some 1), (6, none)]
    (by simp [want]; funext k; simp only [Function.update_apply]; split_ifs <;> rfl)
  exact ⟨s, h1, h2, h4 (fun _ => rfl)⟩

/-- A program that moves a stream. -/
example : ∃ s, run (δ := Nat) (fun x : Nat => x) init [.create 0 5 (some 1), .moveCreate 1 0, .destroy 1] = .ok s ∧
    ∃ k, s.objs k ≠ none ∧ step (fun x => x) s (.destroy k) = .ub :=
  ⟨_, rfl, stream_moves_fails (fun x : Nat => x) [.create 0 5 (some 1), .moveCreate 1 0, .destroy 1] ⟨.moveCreate 1 0, by simp, trivial⟩ _ rfl⟩

end Verif.Aod1b.Own
