import Verif.Proof.Matrix
/- The memory invariant of matrix programs, one operation at a time. -/
namespace Verif.Matrix
open Verif Storage

variable {α : Type}

/-- working invariant -/
def Inv (s : State α) : Prop := MemOk s ∧ ∀ b, s.next ≤ b → s.heap b = none

theorem inv_init : Inv (State.init : State α) := by
  refine ⟨⟨?_, ?_⟩, ?_⟩
  · intro x o h; simp [State.init] at h
  · rintro x y b ⟨o, h, _⟩; simp [State.init] at h
  · intro b _; rfl

theorem owned_lt {s : State α} (hi : Inv s) {x b : Nat} (h : Owns s x b) : b < s.next := by
  obtain ⟨o, ho, hp⟩ := h
  have h1 := (hi.1.1 x o ho).2.2
  rw [hp] at h1
  obtain ⟨buf, hb, _⟩ := h1
  by_contra hc
  rw [hi.2 b (by omega)] at hb
  cases hb

/-- general update of one variable and of the heap -/
theorem inv_update {s : State α} (hi : Inv s) (x : Nat) (o' : Obj) (heap' : Nat → Option (List α))
    (next' : Nat)
    (h1 : ∀ y b, y ≠ x → Owns s y b → heap' b = s.heap b)
    (h2 : ∀ b, next' ≤ b → heap' b = none)
    (h3 : ObjOk heap' o')
    (h4 : ∀ y b, y ≠ x → Owns s y b → o'.ptr ≠ some b) :
    Inv (State.setVar ⟨heap', next', s.var⟩ x (some o')) := by
  refine ⟨⟨?_, ?_⟩, h2⟩
  · intro y o hy
    simp only [State.setVar] at hy ⊢
    split at hy
    · injection hy with hy; subst hy; exact h3
    · next hne =>
      obtain ⟨a1, a2, a3⟩ := hi.1.1 y o hy
      refine ⟨a1, a2, ?_⟩
      cases hp : o.ptr with
      | none => rw [hp] at a3; exact a3
      | some b =>
        rw [hp] at a3
        obtain ⟨buf, hb, hl⟩ := a3
        exact ⟨buf, by rw [h1 y b hne ⟨o, hy, hp⟩]; exact hb, hl⟩
  · rintro y z b ⟨o, hy, hp⟩ ⟨o2, hz, hp2⟩
    simp only [State.setVar] at hy hz
    split at hy
    · next e =>
      injection hy with hy; subst hy
      split at hz
      · next e2 => rw [e, e2]
      · next e2 => exact absurd hp (h4 z b e2 ⟨o2, hz, hp2⟩)
    · next e =>
      split at hz
      · next e2 => injection hz with hz; subst hz; exact absurd hp2 (h4 y b e ⟨o, hy, hp⟩)
      · exact hi.1.2 y z b ⟨o, hy, hp⟩ ⟨o2, hz, hp2⟩

theorem inv_destroyVar {s : State α} (hi : Inv s) (x : Nat) (heap' : Nat → Option (List α))
    (next' : Nat)
    (h1 : ∀ y b, y ≠ x → Owns s y b → heap' b = s.heap b)
    (h2 : ∀ b, next' ≤ b → heap' b = none) :
    Inv (State.setVar ⟨heap', next', s.var⟩ x none) := by
  refine ⟨⟨?_, ?_⟩, h2⟩
  · intro y o hy
    simp only [State.setVar] at hy ⊢
    split at hy
    · cases hy
    · next hne =>
      obtain ⟨a1, a2, a3⟩ := hi.1.1 y o hy
      refine ⟨a1, a2, ?_⟩
      cases hp : o.ptr with
      | none => rw [hp] at a3; exact a3
      | some b =>
        rw [hp] at a3
        obtain ⟨buf, hb, hl⟩ := a3
        exact ⟨buf, by rw [h1 y b hne ⟨o, hy, hp⟩]; exact hb, hl⟩
  · rintro y z b ⟨o, hy, hp⟩ ⟨o2, hz, hp2⟩
    simp only [State.setVar] at hy hz
    split at hy
    · cases hy
    · split at hz
      · cases hz
      · exact hi.1.2 y z b ⟨o, hy, hp⟩ ⟨o2, hz, hp2⟩

/-- content of a live object -/
theorem load_ok {s : State α} (hi : Inv s) {x : Nat} {o : Obj} (h : s.var x = some o) :
    ∃ d, s.load o.ptr = .ok d ∧ d.length = o.cap := by
  have h1 := (hi.1.1 x o h).2.2
  unfold State.load
  cases hp : o.ptr with
  | none => rw [hp] at h1; exact ⟨[], rfl, by simp [h1]⟩
  | some b =>
    rw [hp] at h1
    obtain ⟨buf, hb, hl⟩ := h1
    exact ⟨buf, by simp [hb], hl⟩

/-- overwriting the content of a live object keeps the invariant -/
theorem store_ok {s : State α} (hi : Inv s) {x : Nat} {o : Obj} (h : s.var x = some o)
    (d : List α) (hd : d.length = o.cap) :
    ∃ s', s.store o.ptr d = .ok s' ∧ Inv s' ∧ s'.var = s.var ∧ s'.next = s.next ∧
      s'.load o.ptr = .ok d ∧ (∀ b, o.ptr ≠ some b → s'.heap b = s.heap b) := by
  have h1 := (hi.1.1 x o h).2.2
  unfold State.store State.load
  cases hp : o.ptr with
  | none =>
    rw [hp] at h1
    have : d = [] := by apply List.eq_nil_of_length_eq_zero; omega
    subst this
    refine ⟨s, by simp, hi, rfl, rfl, by simp, by intros; rfl⟩
  | some b =>
    rw [hp] at h1
    obtain ⟨buf, hb, hl⟩ := h1
    have hlt : b < s.next := owned_lt hi ⟨o, h, hp⟩
    refine ⟨s.setBuf b (some d), by simp [hb], ?_, rfl, rfl, by simp [State.setBuf], ?_⟩
    · refine ⟨⟨?_, hi.1.2⟩, ?_⟩
      · intro y oy hy
        obtain ⟨a1, a2, a3⟩ := hi.1.1 y oy hy
        refine ⟨a1, a2, ?_⟩
        cases hq : oy.ptr with
        | none => rw [hq] at a3; exact a3
        | some c =>
          rw [hq] at a3
          obtain ⟨bf, hc, hcl⟩ := a3
          by_cases e : c = b
          · subst e
            have : y = x := hi.1.2 y x c ⟨oy, hy, hq⟩ ⟨o, h, hp⟩
            subst this
            have hy' : s.var y = some oy := hy
            rw [h] at hy'; injection hy' with hy'; subst hy'
            exact ⟨d, by simp [State.setBuf], hd⟩
          · exact ⟨bf, by simp [State.setBuf, e, hc], hcl⟩
      · intro c hc
        have hc' : s.next ≤ c := hc
        simp only [State.setBuf]
        rw [if_neg (by omega)]
        exact hi.2 c hc'
    · intro c hc
      simp only [State.setBuf]
      rw [if_neg (by intro e; exact hc (by rw [e]))]

theorem free_ok {s : State α} (hi : Inv s) {x : Nat} {o : Obj} (h : s.var x = some o) :
    ∃ s', s.free o.ptr = .ok s' ∧ s'.var = s.var ∧ s'.next = s.next ∧
      (∀ b, s'.heap b = if o.ptr = some b then none else s.heap b) := by
  have h1 := (hi.1.1 x o h).2.2
  unfold State.free
  cases hp : o.ptr with
  | none => exact ⟨s, rfl, rfl, rfl, by intro b; simp⟩
  | some b =>
    rw [hp] at h1
    obtain ⟨buf, hb, hl⟩ := h1
    refine ⟨s.setBuf b none, by simp [hb], rfl, rfl, ?_⟩
    intro c
    simp only [State.setBuf, Option.some.injEq]
    by_cases e : c = b
    · simp [e]
    · rw [if_neg e, if_neg (by intro e'; exact e e'.symm)]

theorem make_cases (l : Layout) (r c : Nat) :
    (St.make l r c = .abort ∧ St.square l = true ∧ r ≠ c) ∨
    (St.make l r c = .ok ⟨l, r, c⟩ ∧ (⟨l, r, c⟩ : St).WF) := by
  by_cases h : St.square l = true → r = c
  · exact Or.inr ⟨make_ok l r c h, h⟩
  · simp only [Classical.not_imp] at h
    refine Or.inl ⟨?_, h⟩
    unfold St.make
    simp [h.1, h.2]

/-- dimensions of another object of the same layout are acceptable -/
theorem setDims_ok {a b : St} (hb : b.WF) (e : a.layout = b.layout) :
    ∃ st, a.setDimensions b.nrows b.ncols = .ok st ∧ st.WF ∧ st.layout = b.layout ∧
      st.rows = b.rows ∧ st.cols = b.cols := by
  unfold St.setDimensions
  have hc : b.ncols = b.cols := by
    unfold St.ncols
    split
    · next h => exact hb h
    · rfl
  rw [hc, e]
  refine ⟨⟨b.layout, b.nrows, b.cols⟩, make_ok _ _ _ ?_, ?_, rfl, rfl, rfl⟩
  · intro h; exact hb h
  · intro h; exact hb h

theorem st_ext {a b : St} (h1 : a.layout = b.layout) (h2 : a.rows = b.rows) (h3 : a.cols = b.cols) :
    a = b := by cases a; cases b; simp_all

theorem setDims_zero (a : St) : a.setDimensions 0 0 = .ok ⟨a.layout, 0, 0⟩ ∧
    (⟨a.layout, 0, 0⟩ : St).WF ∧ (⟨a.layout, 0, 0⟩ : St).numElements = 0 := by
  refine ⟨make_ok _ _ _ (by intro; rfl), fun _ => rfl, ?_⟩
  unfold St.numElements
  cases a.layout <;> simp

/-- the state after allocating and giving the new buffer (with content `d`) to `x` -/
theorem inv_alloc {s : State α} (hi : Inv s) (x : Nat) (st : St) (hw : st.WF) (d : List α)
    (hd : d.length = st.numElements) (heap0 : Nat → Option (List α))
    (h0 : ∀ y b, y ≠ x → Owns s y b → heap0 b = s.heap b)
    (h0' : ∀ b, s.next ≤ b → heap0 b = none) :
    Inv (State.setVar ⟨fun a => if a = s.next then some d else heap0 a, s.next + 1, s.var⟩ x
      (some ⟨st, some s.next, st.numElements⟩)) := by
  apply inv_update hi
  · intro y b hy hb
    have := owned_lt hi hb
    rw [if_neg (by omega)]; exact h0 y b hy hb
  · intro b hb
    rw [if_neg (by omega)]; exact h0' b (by omega)
  · exact ⟨hw, le_refl _, d, by simp, hd⟩
  · intro y b hy hb hc
    have := owned_lt hi hb
    simp at hc; omega

end Verif.Matrix
