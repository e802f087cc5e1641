import Verif.Proof.MatrixInv
/- Effect of each matrix operation: success, invariant, contents, frame, leaks. -/
namespace Verif.Matrix
open Verif Storage

variable {α : Type}

/-- variable `x` holds object `o` whose buffer content is `d` -/
def Content (s : State α) (x : Nat) (o : Obj) (d : List α) : Prop :=
  s.var x = some o ∧ s.load o.ptr = .ok d

/-- variables outside `X` keep object and content -/
def Frame (s s' : State α) (X : Nat → Prop) : Prop :=
  ∀ y, ¬ X y → s'.var y = s.var y ∧ ∀ o, s.var y = some o → s'.load o.ptr = s.load o.ptr

theorem content_of {s : State α} (hi : Inv s) {x : Nat} {o : Obj} (h : s.var x = some o) :
    ∃ d, Content s x o d ∧ d.length = o.cap := by
  obtain ⟨d, h1, h2⟩ := load_ok hi h
  exact ⟨d, ⟨h, h1⟩, h2⟩

theorem load_congr {s s' : State α} (p : Option Nat) (h : ∀ b, p = some b → s'.heap b = s.heap b) :
    s'.load p = s.load p := by
  unfold State.load
  cases p with
  | none => rfl
  | some b => simp only [h b rfl]

variable [Mul α]

/-! construct -/

theorem step_construct {s : State α} (hi : Inv s) {x l r c} {junk : Nat → α}
    (hx : s.var x = none) (hsq : St.square l = true → r = c) :
    ∃ s', step s (.construct x l r c junk) = .ok s' ∧ Inv s' ∧ Frame s s' (· = x) ∧
      (∃ p, Content s' x ⟨⟨l, r, c⟩, p, (⟨l, r, c⟩ : St).numElements⟩
        (fresh (⟨l, r, c⟩ : St).numElements junk)) ∧
      (NoLeak s → NoLeak s') := by
  have hm := make_ok l r c hsq
  have hw : (⟨l, r, c⟩ : St).WF := hsq
  by_cases h0 : 0 < (⟨l, r, c⟩ : St).numElements
  · refine ⟨_, by simp only [step, hx, hm, Res.bind_ok, h0]; rfl, ?_, ?_, ?_, ?_⟩
    · exact inv_alloc hi x _ hw (fresh _ junk) (by simp) s.heap (by intros; rfl) hi.2
    · intro y hy
      refine ⟨by simp [State.setVar, State.alloc, hy], ?_⟩
      intro o ho
      apply load_congr
      intro b hb
      have := owned_lt hi ⟨o, ho, hb⟩
      simp only [State.setVar, State.alloc]
      rw [if_neg (by omega)]
    · refine ⟨some s.next, by simp [State.setVar], ?_⟩
      simp [State.setVar, State.alloc, State.load]
    · intro hl b buf hb
      simp only [State.setVar, State.alloc] at hb
      split at hb
      · next e => subst e; exact ⟨x, _, if_pos rfl, rfl⟩
      · obtain ⟨y, o, ho, hp⟩ := hl b buf hb
        refine ⟨y, o, ?_, hp⟩
        have : y ≠ x := by rintro rfl; rw [hx] at ho; cases ho
        simp [State.setVar, State.alloc, this, ho]
  · have h00 : (⟨l, r, c⟩ : St).numElements = 0 := by omega
    refine ⟨_, by simp only [step, hx, hm, Res.bind_ok, h0]; rfl, ?_, ?_, ?_, ?_⟩
    · apply inv_update hi x ⟨⟨l, r, c⟩, none, _⟩ s.heap s.next
      · intros; rfl
      · exact hi.2
      · exact ⟨hw, le_refl _, h00⟩
      · intro y b _ _ h; cases h
    · intro y hy
      exact ⟨by simp [State.setVar, hy], by intros; rfl⟩
    · refine ⟨none, by simp [State.setVar], ?_⟩
      simp [State.load, h00, fresh]
    · intro hl b buf hb
      obtain ⟨y, o, ho, hp⟩ := hl b buf hb
      refine ⟨y, o, ?_, hp⟩
      have : y ≠ x := by rintro rfl; rw [hx] at ho; cases ho
      simp [State.setVar, this, ho]

/-! copy constructor -/

omit [Mul α] in
theorem memcpy_prefix {src : List α} (n : Nat) (hn : n ≤ src.length) (dst : List α)
    (hd : n ≤ dst.length) :
    memcpy dst 0 src 0 n = .ok (src.take n ++ dst.drop n) := by
  unfold memcpy
  by_cases h : n = 0
  · subst h; simp
  · rw [if_neg (by omega), if_pos (by omega)]
    simp

theorem step_copyCtor {s : State α} (hi : Inv s) {x y} {o : Obj} {d : List α} {junk : Nat → α}
    (hx : s.var x = none) (hy : Content s y o d) :
    ∃ s', step s (.copyCtor x y junk) = .ok s' ∧ Inv s' ∧ Frame s s' (· = x) ∧
      (∃ p, Content s' x ⟨o.st, p, o.st.numElements⟩ (d.take o.st.numElements)) ∧
      (NoLeak s → NoLeak s') := by
  obtain ⟨hvy, hld⟩ := hy
  have hok := hi.1.1 y o hvy
  obtain ⟨d', hd', hlen⟩ := load_ok hi hvy
  rw [hld] at hd'; injection hd' with hd'; subst hd'
  have hload : (s.alloc o.st.numElements junk).load o.ptr = .ok d := by
    rw [← hld]; apply load_congr
    intro b hb
    have := owned_lt hi ⟨o, hvy, hb⟩
    simp only [State.alloc]; rw [if_neg (by omega)]
  have hcp := memcpy_prefix o.st.numElements (src := d) (by have := hok.2.1; omega)
    (fresh o.st.numElements junk) (by simp)
  have hdrop : (fresh o.st.numElements junk).drop o.st.numElements = [] := by
    apply List.drop_of_length_le; simp
  rw [hdrop, List.append_nil] at hcp
  have hst : (s.alloc o.st.numElements junk).store (some s.next) (d.take o.st.numElements) =
      .ok ⟨fun a => if a = s.next then some (d.take o.st.numElements) else s.heap a, s.next + 1,
        s.var⟩ := by
    simp only [State.store, State.alloc, if_true, State.setBuf]
    congr 2
    funext a
    by_cases h : a = s.next <;> simp [h]
  refine ⟨_, by simp only [step, hx, State.obj, hvy, Res.bind_ok, hload, hcp, hst]; rfl, ?_, ?_, ?_, ?_⟩
  · exact inv_alloc hi x _ hok.1 (d.take o.st.numElements) (by
      rw [List.length_take]; have := hok.2.1; omega) s.heap (by intros; rfl) hi.2
  · intro z hz
    refine ⟨by simp [State.setVar, hz], ?_⟩
    intro oz hoz
    apply load_congr
    intro b hb
    have := owned_lt hi ⟨oz, hoz, hb⟩
    simp only [State.setVar]
    rw [if_neg (by omega)]
  · exact ⟨some s.next, by simp [State.setVar], by simp [State.setVar, State.load]⟩
  · intro hl b buf hb
    simp only [State.setVar] at hb
    split at hb
    · next e => subst e; exact ⟨x, _, if_pos rfl, rfl⟩
    · obtain ⟨z, oz, ho, hp⟩ := hl b buf hb
      refine ⟨z, oz, ?_, hp⟩
      have : z ≠ x := by rintro rfl; rw [hx] at ho; cases ho
      simp [State.setVar, this, ho]

/-! move constructor -/

theorem step_moveCtor {s : State α} (hi : Inv s) {x y} {o : Obj} {d : List α}
    (hx : s.var x = none) (hy : Content s y o d) :
    ∃ s', step s (.moveCtor x y) = .ok s' ∧ Inv s' ∧ Frame s s' (fun z => z = x ∨ z = y) ∧
      Content s' x o d ∧ Content s' y ⟨⟨o.st.layout, 0, 0⟩, none, 0⟩ [] ∧
      (NoLeak s → NoLeak s') := by
  obtain ⟨hvy, hld⟩ := hy
  have hok := hi.1.1 y o hvy
  have hne : x ≠ y := by rintro rfl; rw [hx] at hvy; cases hvy
  have hne' : y ≠ x := fun e => hne e.symm
  obtain ⟨z1, z2, z3⟩ := setDims_zero o.st
  refine ⟨_, by simp only [step, hx, State.obj, hvy, Res.bind_ok, z1]; rfl, ?_, ?_, ?_, ?_, ?_⟩
  · have i1 : Inv (State.setVar s y (some ⟨⟨o.st.layout, 0, 0⟩, none, 0⟩)) := by
      apply inv_update hi y _ s.heap s.next
      · intros; rfl
      · exact hi.2
      · exact ⟨z2, by simp [z3], rfl⟩
      · intro a b _ _ h; cases h
    have i2 := inv_update i1 x o s.heap s.next (by intros; rfl) hi.2 hok (by
      rintro z b hz ⟨oz, hoz, hpz⟩ hb
      simp only [State.setVar] at hoz
      split at hoz
      · injection hoz with hoz; subst hoz; cases hpz
      · next e => exact e (hi.1.2 z y b ⟨oz, hoz, hpz⟩ ⟨o, hvy, hb⟩))
    have e : (s.setVar x (some o)).setVar y (some ⟨⟨o.st.layout, 0, 0⟩, none, 0⟩) =
        State.setVar ⟨s.heap, s.next, (State.setVar s y
          (some ⟨⟨o.st.layout, 0, 0⟩, none, 0⟩)).var⟩ x (some o) := by
      simp only [State.setVar]
      congr 1
      funext z
      by_cases h1 : z = y
      · subst h1; simp [hne']
      · simp [h1]
    rw [e]; exact i2
  · intro z hz
    simp only [not_or] at hz
    exact ⟨by simp [State.setVar, hz.1, hz.2], by intros; rfl⟩
  · exact ⟨by simp [State.setVar, hne], hld⟩
  · exact ⟨by simp [State.setVar], rfl⟩
  · intro hl b buf hb
    obtain ⟨z, oz, ho, hp⟩ := hl b buf hb
    by_cases h1 : z = y
    · subst h1
      rw [hvy] at ho; injection ho with ho; subst ho
      exact ⟨x, o, by simp [State.setVar, hne], hp⟩
    · refine ⟨z, oz, ?_, hp⟩
      have : z ≠ x := by rintro rfl; rw [hx] at ho; cases ho
      simp [State.setVar, this, ho, h1]

/-! destructor -/

theorem step_destroy {s : State α} (hi : Inv s) {x} {o : Obj} (hx : s.var x = some o) :
    ∃ s', step s (.destroy x) = .ok s' ∧ Inv s' ∧ Frame s s' (· = x) ∧ s'.var x = none ∧
      (NoLeak s → NoLeak s') := by
  obtain ⟨s1, f1, f2, f3, f4⟩ := free_ok hi hx
  refine ⟨s1.setVar x none, by simp only [step, State.obj, hx, Res.bind_ok, f1], ?_, ?_, ?_, ?_⟩
  · have := inv_destroyVar hi x s1.heap s1.next (by
      rintro y b hy hb
      rw [f4, if_neg]
      intro hp
      exact hy (hi.1.2 y x b hb ⟨o, hx, hp⟩)) (by
      intro b hb
      rw [f4]
      split
      · rfl
      · exact hi.2 b (by rw [f3] at hb; exact hb))
    have e : s1.setVar x none = State.setVar ⟨s1.heap, s1.next, s.var⟩ x none := by
      rw [← f2]
    rw [e]; exact this
  · intro y hy
    refine ⟨by simp [State.setVar, hy, f2], ?_⟩
    intro oy hoy
    apply load_congr
    intro b hb
    show s1.heap b = s.heap b
    rw [f4, if_neg]
    intro hp
    exact hy (hi.1.2 y x b ⟨oy, hoy, hb⟩ ⟨o, hx, hp⟩)
  · simp [State.setVar]
  · intro hl b buf hb
    have hb' : s1.heap b = some buf := hb
    rw [f4] at hb'
    split at hb'
    · cases hb'
    · next hne =>
      obtain ⟨z, oz, ho, hp⟩ := hl b buf hb'
      refine ⟨z, oz, ?_, hp⟩
      have : z ≠ x := by
        rintro rfl; rw [hx] at ho; injection ho with ho; subst ho; exact hne hp
      simp [State.setVar, this, f2, ho]

/-! overwriting the content of one variable: fill, multiply, write -/

omit [Mul α] in
theorem store_frame {s s' : State α} (hi : Inv s) {x : Nat} {o : Obj} (h : s.var x = some o)
    (hv : s'.var = s.var) (hh : ∀ b, o.ptr ≠ some b → s'.heap b = s.heap b) :
    Frame s s' (· = x) := by
  intro y hy
  refine ⟨by rw [hv], ?_⟩
  intro oy hoy
  apply load_congr
  intro b hb
  apply hh
  intro hp
  exact hy (hi.1.2 y x b ⟨oy, hoy, hb⟩ ⟨o, h, hp⟩)

omit [Mul α] in
theorem store_noleak {s s' : State α} {p : Option Nat} {d : List α} (h : s.store p d = .ok s')
    (hl : NoLeak s) : NoLeak s' := by
  unfold State.store at h
  cases p with
  | none =>
    simp only at h
    split at h
    · injection h with h; rw [← h]; exact hl
    · cases h
  | some b =>
    simp only at h
    split at h
    · cases h
    · next c hc =>
      injection h with h
      subst h
      intro a buf ha
      simp only [State.setBuf] at ha
      split at ha
      · next e => subst e; obtain ⟨z, oz, ho, hp⟩ := hl _ _ hc; exact ⟨z, oz, ho, hp⟩
      · obtain ⟨z, oz, ho, hp⟩ := hl _ _ ha; exact ⟨z, oz, ho, hp⟩

theorem step_fill {s : State α} (hi : Inv s) {x} {o : Obj} {d : List α} {v : α}
    (hx : Content s x o d) :
    ∃ s', step s (.fill x v) = .ok s' ∧ Inv s' ∧ Frame s s' (· = x) ∧
      Content s' x o (List.replicate o.cap v) ∧ (NoLeak s → NoLeak s') := by
  obtain ⟨hv, hd⟩ := hx
  obtain ⟨d', hd', hlen⟩ := load_ok hi hv
  rw [hd] at hd'; injection hd' with hd'; subst hd'
  have hdrop : d.drop o.cap = [] := by apply List.drop_of_length_le; omega
  obtain ⟨s', e1, e2, e3, e4, e5, e6⟩ := store_ok hi hv (List.replicate o.cap v) (by simp)
  refine ⟨s', ?_, e2, store_frame hi hv e3 e6, ⟨by rw [e3]; exact hv, e5⟩, store_noleak e1⟩
  simp only [step, State.obj, hv, Res.bind_ok, hd, hlen, le_refl, if_true, hdrop, List.append_nil, e1]

theorem step_multiply {s : State α} (hi : Inv s) {x} {o : Obj} {d : List α} {f : α}
    (hx : Content s x o d) :
    ∃ s', step s (.multiply x f) = .ok s' ∧ Inv s' ∧ Frame s s' (· = x) ∧
      Content s' x o ((d.take o.st.numElements).map (· * f) ++ d.drop o.st.numElements) ∧
      (NoLeak s → NoLeak s') := by
  obtain ⟨hv, hd⟩ := hx
  obtain ⟨d', hd', hlen⟩ := load_ok hi hv
  rw [hd] at hd'; injection hd' with hd'; subst hd'
  have hn := (hi.1.1 x o hv).2.1
  obtain ⟨s', e1, e2, e3, e4, e5, e6⟩ := store_ok hi hv
    ((d.take o.st.numElements).map (· * f) ++ d.drop o.st.numElements) (by simp; omega)
  refine ⟨s', ?_, e2, store_frame hi hv e3 e6, ⟨by rw [e3]; exact hv, e5⟩, store_noleak e1⟩
  simp only [step, State.obj, hv, Res.bind_ok, hd]
  rw [if_pos (by omega), e1]

theorem step_write {s : State α} (hi : Inv s) {x} {o : Obj} {d : List α} {i j : Int} {v : α}
    (hx : Content s x o d) (he : o.st.HasElement i j) :
    ∃ s', step s (.write x i j v) = .ok s' ∧ Inv s' ∧ Frame s s' (· = x) ∧
      Content s' x o (d.set (o.st.index i j).toNat v) ∧ (NoLeak s → NoLeak s') := by
  obtain ⟨hv, hd⟩ := hx
  obtain ⟨d', hd', hlen⟩ := load_ok hi hv
  rw [hd] at hd'; injection hd' with hd'; subst hd'
  have hok := hi.1.1 x o hv
  have hb := index_in_bounds o.st hok.1 i j he
  obtain ⟨s', e1, e2, e3, e4, e5, e6⟩ := store_ok hi hv
    (d.set (o.st.index i j).toNat v) (by simp; omega)
  refine ⟨s', ?_, e2, store_frame hi hv e3 e6, ⟨by rw [e3]; exact hv, e5⟩, store_noleak e1⟩
  simp only [step, State.obj, hv, Res.bind_ok, hd]
  rw [if_pos (by have := hok.2.1; omega), e1]

/-! swap -/

theorem step_swap {s : State α} (hi : Inv s) {x y} {ox oy : Obj} {dx dy : List α}
    (hx : Content s x ox dx) (hy : Content s y oy dy) :
    ∃ s', step s (.swap x y) = .ok s' ∧ Inv s' ∧ Frame s s' (fun z => z = x ∨ z = y) ∧
      Content s' x oy dy ∧ Content s' y ox dx ∧ (NoLeak s → NoLeak s') := by
  obtain ⟨hvx, hdx⟩ := hx
  obtain ⟨hvy, hdy⟩ := hy
  by_cases hxy : x = y
  · subst hxy
    rw [hvx] at hvy; injection hvy with hvy; subst hvy
    rw [hdx] at hdy; injection hdy with hdy; subst hdy
    have e : (s.setVar x (some ox)).setVar x (some ox) = s := by
      cases s
      simp only [State.setVar] at hvx ⊢
      congr 1
      funext z
      by_cases h : z = x
      · subst h; simp [hvx]
      · simp [h]
    refine ⟨s, by simp only [step, State.obj, hvx, Res.bind_ok, e], hi, ?_, ⟨hvx, hdx⟩, ⟨hvx, hdx⟩, id⟩
    intro z _; exact ⟨rfl, by intros; rfl⟩
  · have hyx : y ≠ x := fun e => hxy e.symm
    refine ⟨_, by simp only [step, State.obj, hvx, hvy, Res.bind_ok]; rfl, ?_, ?_, ?_, ?_, ?_⟩
    · refine ⟨⟨?_, ?_⟩, hi.2⟩
      · intro z o hz
        simp only [State.setVar] at hz
        split at hz
        · injection hz with hz; subst hz; exact hi.1.1 x _ hvx
        · split at hz
          · injection hz with hz; subst hz; exact hi.1.1 y _ hvy
          · exact hi.1.1 z o hz
      · have key : ∀ z b, Owns ((s.setVar x (some oy)).setVar y (some ox)) z b →
            Owns s (if z = y then x else if z = x then y else z) b := by
          rintro z b ⟨o, hz, hp⟩
          simp only [State.setVar] at hz
          split at hz
          · next e => injection hz with hz; subst hz; simp [e]; exact ⟨_, hvx, hp⟩
          · next e =>
            split at hz
            · next e2 => injection hz with hz; subst hz; simp [e2, hxy]; exact ⟨_, hvy, hp⟩
            · next e2 => simp [e, e2]; exact ⟨o, hz, hp⟩
        intro z w b hz hw
        have h := hi.1.2 _ _ b (key z b hz) (key w b hw)
        by_cases a1 : z = y <;> by_cases a2 : w = y <;> by_cases a3 : z = x <;> by_cases a4 : w = x <;>
          simp_all
    · intro z hz
      simp only [not_or] at hz
      exact ⟨by simp [State.setVar, hz.1, hz.2], by intros; rfl⟩
    · exact ⟨by simp [State.setVar, hxy], hdy⟩
    · exact ⟨by simp [State.setVar], hdx⟩
    · intro hl b buf hb
      obtain ⟨z, oz, ho, hp⟩ := hl b buf hb
      by_cases h1 : z = y
      · subst h1
        rw [hvy] at ho; injection ho with ho; subst ho
        exact ⟨x, oy, by simp [State.setVar, hxy], hp⟩
      · by_cases h2 : z = x
        · subst h2
          rw [hvx] at ho; injection ho with ho; subst ho
          exact ⟨y, ox, by simp [State.setVar], hp⟩
        · exact ⟨z, oz, by simp [State.setVar, h1, h2, ho], hp⟩

/-! move assignment -/

theorem step_moveAssign {s : State α} (hi : Inv s) {x y} {ox oy : Obj} {dy : List α}
    (hvx : s.var x = some ox) (hy : Content s y oy dy) (hl : ox.st.layout = oy.st.layout) :
    ∃ s', step s (.moveAssign x y) = .ok s' ∧ Inv s' ∧ Frame s s' (fun z => z = x ∨ z = y) ∧
      (x ≠ y → Content s' x oy dy) ∧
      Content s' y ⟨⟨oy.st.layout, 0, 0⟩, none, 0⟩ [] ∧ s'.heap = s.heap ∧
      (x ≠ y → ox.ptr = none → NoLeak s → NoLeak s') := by
  obtain ⟨hvy, hld⟩ := hy
  have hok := hi.1.1 y oy hvy
  obtain ⟨z1, z2, z3⟩ := setDims_zero oy.st
  obtain ⟨st, t1, t2, t3, t4, t5⟩ := setDims_ok (a := ox.st) hok.1 hl
  have hst : st = oy.st := st_ext t3 t4 t5
  subst hst
  refine ⟨_, by simp only [step, State.obj, hvx, hvy, Res.bind_ok, z1, t1]; rfl, ?_, ?_, ?_, ?_, ?_, ?_⟩
  · have i1 : Inv (State.setVar s y (some ⟨⟨oy.st.layout, 0, 0⟩, none, 0⟩)) := by
      apply inv_update hi y _ s.heap s.next
      · intros; rfl
      · exact hi.2
      · exact ⟨z2, by simp [z3], rfl⟩
      · intro a b _ _ h; cases h
    by_cases hxy : x = y
    · subst hxy
      have e : (s.setVar x (some ⟨oy.st, oy.ptr, oy.cap⟩)).setVar x
          (some ⟨⟨oy.st.layout, 0, 0⟩, none, 0⟩) = s.setVar x
          (some ⟨⟨oy.st.layout, 0, 0⟩, none, 0⟩) := by
        simp only [State.setVar]
        congr 1
        funext z
        by_cases h : z = x <;> simp [h]
      rw [e]; exact i1
    · have i2 := inv_update i1 x oy s.heap s.next (by intros; rfl) hi.2 hok (by
        rintro z b hz ⟨oz, hoz, hpz⟩ hb
        simp only [State.setVar] at hoz
        split at hoz
        · injection hoz with hoz; subst hoz; cases hpz
        · next e => exact e (hi.1.2 z y b ⟨oz, hoz, hpz⟩ ⟨oy, hvy, hb⟩))
      have e : (s.setVar x (some oy)).setVar y (some ⟨⟨oy.st.layout, 0, 0⟩, none, 0⟩) =
          State.setVar ⟨s.heap, s.next, (State.setVar s y
            (some ⟨⟨oy.st.layout, 0, 0⟩, none, 0⟩)).var⟩ x (some oy) := by
        simp only [State.setVar]
        congr 1
        funext z
        by_cases h1 : z = y
        · subst h1; simp [Ne.symm hxy]
        · simp [h1]
      show Inv ((s.setVar x (some oy)).setVar y _)
      rw [e]; exact i2
  · intro z hz
    simp only [not_or] at hz
    exact ⟨by simp [State.setVar, hz.1, hz.2], by intros; rfl⟩
  · intro hxy; exact ⟨by simp [State.setVar, hxy], hld⟩
  · exact ⟨by simp [State.setVar], rfl⟩
  · rfl
  · intro hxy hnull hnl b buf hb
    obtain ⟨z, oz, ho, hp⟩ := hnl b buf hb
    by_cases h1 : z = y
    · subst h1
      rw [hvy] at ho; injection ho with ho; subst ho
      exact ⟨x, oy, by simp [State.setVar, hxy], hp⟩
    · by_cases h2 : z = x
      · subst h2
        rw [hvx] at ho; injection ho with ho; subst ho
        rw [hnull] at hp; cases hp
      · exact ⟨z, oz, by simp [State.setVar, h1, h2, ho], hp⟩

/-! copy assignment, resize, cresize -/

omit [Mul α] in
/-- free the buffer of `x`, allocate a new one with content `d` -/
theorem realloc_inv {s s1 : State α} (hi : Inv s) {x} {ox : Obj} (hvx : s.var x = some ox)
    (_f2 : s1.var = s.var) (_f3 : s1.next = s.next)
    (f4 : ∀ b, s1.heap b = if ox.ptr = some b then none else s.heap b)
    (st : St) (hw : st.WF) (d : List α) (hd : d.length = st.numElements) :
    let s' : State α := State.setVar ⟨fun a => if a = s.next then some d else s1.heap a,
      s.next + 1, s.var⟩ x (some ⟨st, some s.next, st.numElements⟩)
    Inv s' ∧ Frame s s' (· = x) ∧ Content s' x ⟨st, some s.next, st.numElements⟩ d ∧
      (NoLeak s → NoLeak s') := by
  intro s'
  have hf : ∀ y b, y ≠ x → Owns s y b → s1.heap b = s.heap b := by
    intro y b hy hb
    rw [f4, if_neg]
    intro hp
    exact hy (hi.1.2 y x b hb ⟨ox, hvx, hp⟩)
  refine ⟨?_, ?_, ?_, ?_⟩
  · exact inv_alloc hi x st hw d hd s1.heap hf (by
      intro b hb
      rw [f4]
      split
      · rfl
      · exact hi.2 b hb)
  · intro y hy
    refine ⟨by simp [s', State.setVar, hy], ?_⟩
    intro oy hoy
    apply load_congr
    intro b hb
    have := owned_lt hi ⟨oy, hoy, hb⟩
    simp only [s', State.setVar]
    rw [if_neg (by omega)]
    exact hf y b hy ⟨oy, hoy, hb⟩
  · exact ⟨by simp [s', State.setVar], by simp [s', State.setVar, State.load]⟩
  · intro hl b buf hb
    simp only [s', State.setVar] at hb
    split at hb
    · next e => subst e; exact ⟨x, _, if_pos rfl, rfl⟩
    · rw [f4] at hb
      split at hb
      · cases hb
      · next hne =>
        obtain ⟨z, oz, ho, hp⟩ := hl b buf hb
        refine ⟨z, oz, ?_, hp⟩
        have : z ≠ x := by
          rintro rfl; rw [hvx] at ho; injection ho with ho; subst ho; exact hne hp
        simp [s', State.setVar, this, ho]

omit [Mul α] in
theorem alloc_store {s1 : State α} (n : Nat) (junk : Nat → α) (d : List α) :
    (s1.alloc n junk).store (some s1.next) d =
      .ok ⟨fun a => if a = s1.next then some d else s1.heap a, s1.next + 1, s1.var⟩ := by
  simp only [State.store, State.alloc, if_true, State.setBuf]
  congr 2
  funext a
  by_cases h : a = s1.next <;> simp [h]

omit [Mul α] in
/-- replace the object of `x` by one with the same pointer and capacity -/
theorem setSt_inv {s : State α} (hi : Inv s) {x} {ox : Obj} {d : List α} (hx : Content s x ox d)
    (st : St) (hw : st.WF) (hn : st.numElements ≤ ox.cap) :
    Inv (s.setVar x (some ⟨st, ox.ptr, ox.cap⟩)) ∧
    Frame s (s.setVar x (some ⟨st, ox.ptr, ox.cap⟩)) (· = x) ∧
    Content (s.setVar x (some ⟨st, ox.ptr, ox.cap⟩)) x ⟨st, ox.ptr, ox.cap⟩ d ∧
    (NoLeak s → NoLeak (s.setVar x (some ⟨st, ox.ptr, ox.cap⟩))) := by
  obtain ⟨hvx, hdx⟩ := hx
  refine ⟨?_, ?_, ?_, ?_⟩
  · apply inv_update hi x _ s.heap s.next
    · intros; rfl
    · exact hi.2
    · exact ⟨hw, hn, (hi.1.1 x ox hvx).2.2⟩
    · intro y b hy hb hp
      exact hy (hi.1.2 y x b hb ⟨ox, hvx, hp⟩)
  · intro y hy
    exact ⟨by simp [State.setVar, hy], by intros; rfl⟩
  · exact ⟨by simp [State.setVar], hdx⟩
  · intro hl b buf hb
    obtain ⟨z, oz, ho, hp⟩ := hl b buf hb
    by_cases h1 : z = x
    · subst h1
      rw [hvx] at ho; injection ho with ho; subst ho
      exact ⟨z, ⟨st, ox.ptr, ox.cap⟩, by simp [State.setVar], hp⟩
    · exact ⟨z, oz, by simp [State.setVar, h1, ho], hp⟩

omit [Mul α] in
theorem frame_trans {s s' s'' : State α} {X : Nat → Prop} (h1 : Frame s s' X) (h2 : Frame s' s'' X) :
    Frame s s'' X := by
  intro y hy
  obtain ⟨a1, a2⟩ := h1 y hy
  obtain ⟨b1, b2⟩ := h2 y hy
  refine ⟨by rw [b1, a1], ?_⟩
  intro o ho
  rw [b2 o (by rw [a1]; exact ho), a2 o ho]

theorem step_copyAssign {s : State α} (hi : Inv s) {x y} {ox oy : Obj} {dy : List α}
    {junk : Nat → α} (hxy : x ≠ y)
    (hvx : s.var x = some ox) (hy : Content s y oy dy) (hl : ox.st.layout = oy.st.layout) :
    ∃ s', step s (.copyAssign x y junk) = .ok s' ∧ Inv s' ∧ Frame s s' (· = x) ∧
      (∃ p cap rest, Content s' x ⟨oy.st, p, cap⟩ (dy.take oy.st.numElements ++ rest)) ∧
      (NoLeak s → NoLeak s') := by
  obtain ⟨hvy, hld⟩ := hy
  have hok := hi.1.1 y oy hvy
  have hokx := hi.1.1 x ox hvx
  obtain ⟨d', hd', hlen⟩ := load_ok hi hvy
  rw [hld] at hd'; injection hd' with hd'; subst hd'
  obtain ⟨st, t1, t2, t3, t4, t5⟩ := setDims_ok (a := ox.st) hok.1 hl
  have hst : st = oy.st := st_ext t3 t4 t5
  subst hst
  by_cases hc : ox.cap < oy.cap
  · obtain ⟨s1, f1, f2, f3, f4⟩ := free_ok hi hvx
    have hload : (s1.alloc oy.st.numElements junk).load oy.ptr = .ok dy := by
      rw [← hld]; apply load_congr
      intro b hb
      have := owned_lt hi ⟨oy, hvy, hb⟩
      simp only [State.alloc]; rw [if_neg (by omega), f4, if_neg]
      intro hp
      exact hxy (hi.1.2 x y b ⟨ox, hvx, hp⟩ ⟨oy, hvy, hb⟩)
    have hcp := memcpy_prefix oy.st.numElements (src := dy) (by have := hok.2.1; omega)
      (fresh oy.st.numElements junk) (by simp)
    have hdrop : (fresh oy.st.numElements junk).drop oy.st.numElements = [] := by
      apply List.drop_of_length_le; simp
    rw [hdrop, List.append_nil] at hcp
    have hre := realloc_inv hi hvx f2 f3 f4 oy.st hok.1 (dy.take oy.st.numElements) (by
      rw [List.length_take]; have := hok.2.1; omega)
    refine ⟨_, ?_, hre.1, hre.2.1, ⟨_, _, [], by rw [List.append_nil]; exact hre.2.2.1⟩, hre.2.2.2⟩
    simp only [step, State.obj, hvx, hvy, Res.bind_ok, hxy, if_false, hc, if_true, f1, hload, hcp,
      alloc_store, t1, f2, f3]
  · obtain ⟨dx, hdx, hlx⟩ := load_ok hi hvx
    have hcp := memcpy_prefix oy.st.numElements (src := dy) (by have := hok.2.1; omega) dx
      (by have := hok.2.1; omega)
    obtain ⟨s3, e1, e2, e3, e4, e5, e6⟩ := store_ok hi hvx
      (dy.take oy.st.numElements ++ dx.drop oy.st.numElements) (by
        have := hok.2.1
        simp only [List.length_append, List.length_take, List.length_drop]; omega)
    have hx3 : Content s3 x ox (dy.take oy.st.numElements ++ dx.drop oy.st.numElements) :=
      ⟨by rw [e3]; exact hvx, e5⟩
    obtain ⟨g1, g2, g3, g4⟩ := setSt_inv e2 hx3 oy.st hok.1 (by have := hok.2.1; omega)
    refine ⟨_, ?_, g1, frame_trans (store_frame hi hvx e3 e6) g2, ⟨_, _, _, g3⟩,
      fun h => g4 (store_noleak e1 h)⟩
    simp only [step, State.obj, hvx, hvy, Res.bind_ok, hxy, if_false, hc, hld, hdx, hcp, e1, t1]

theorem step_resize {s : State α} (hi : Inv s) {x} {o : Obj} {d : List α} {r c : Nat}
    {junk : Nat → α} (hx : Content s x o d) (hsq : St.square o.st.layout = true → r = c) :
    ∃ s', step s (.resize x r c junk) = .ok s' ∧ Inv s' ∧ Frame s s' (· = x) ∧
      (∃ p cap d', Content s' x ⟨⟨o.st.layout, r, c⟩, p, cap⟩ d') ∧ (NoLeak s → NoLeak s') := by
  obtain ⟨hv, hd⟩ := hx
  have hm := make_ok o.st.layout r c hsq
  have hw : (⟨o.st.layout, r, c⟩ : St).WF := hsq
  by_cases hc : o.cap < (⟨o.st.layout, r, c⟩ : St).numElements
  · obtain ⟨s1, f1, f2, f3, f4⟩ := free_ok hi hv
    have hre := realloc_inv hi hv f2 f3 f4 _ hw
      (fresh (⟨o.st.layout, r, c⟩ : St).numElements junk) (by simp)
    refine ⟨_, ?_, hre.1, hre.2.1, ⟨_, _, _, hre.2.2.1⟩, hre.2.2.2⟩
    simp only [step, State.obj, hv, Res.bind_ok, hm, hc, if_true, f1, State.alloc, f2, f3]
  · obtain ⟨g1, g2, g3, g4⟩ := setSt_inv hi ⟨hv, hd⟩ _ hw (by omega)
    refine ⟨_, ?_, g1, g2, ⟨_, _, _, g3⟩, g4⟩
    simp only [step, State.obj, hv, Res.bind_ok, hm, hc, if_false]

theorem step_cresize {s : State α} (hi : Inv s) {x} {o : Obj} {d : List α} {r c : Nat}
    {junk : Nat → α} (hx : Content s x o d) (hsq : St.square o.st.layout = true → r = c) :
    ∃ s', step s (.cresize x r c junk) = .ok s' ∧ Inv s' ∧ Frame s s' (· = x) ∧
      (∃ p cap d' st', Content s' x ⟨st', p, cap⟩ d' ∧ st'.layout = o.st.layout ∧
        st'.nrows = r ∧ st'.ncols = c ∧ st'.WF ∧
        ∀ q t : Nat, q < o.st.numSlices → q < st'.numSlices →
          (t : Int) < o.st.sliceLen q → (t : Int) < st'.sliceLen q →
          d'[(st'.slice q).toNat + t]? = d[(o.st.slice q).toNat + t]?) ∧
      (NoLeak s → NoLeak s') := by
  obtain ⟨hv, hd⟩ := hx
  have hok := hi.1.1 x o hv
  obtain ⟨d', hd', hlen⟩ := load_ok hi hv
  rw [hd] at hd'; injection hd' with hd'; subst hd'
  by_cases hne : r ≠ o.st.nrows ∨ c ≠ o.st.ncols
  · have hm := make_ok o.st.layout r c hsq
    have hw : (⟨o.st.layout, r, c⟩ : St).WF := hsq
    obtain ⟨_, _, m3, m4⟩ := make_wf _ _ _ _ hm
    cases hp : o.ptr with
    | none =>
      have hre := realloc_inv hi hv (s1 := s) rfl rfl (by intro b; simp [hp]) _ hw
        (fresh (⟨o.st.layout, r, c⟩ : St).numElements junk) (by simp)
      refine ⟨_, ?_, hre.1, hre.2.1, ⟨_, _, _, _, hre.2.2.1, rfl, m3, m4, hw, ?_⟩, hre.2.2.2⟩
      · simp only [step, State.obj, hv, Res.bind_ok, hm, hne, if_true, hp, State.alloc]
      · intro q t hq _ ht _
        exfalso
        have h0 := hok.2.2; rw [hp] at h0
        have h1 := slice_end o.st hok.1 hq
        have h2 := hok.2.1
        omega
    | some b =>
      have hload : (s.alloc (⟨o.st.layout, r, c⟩ : St).numElements junk).load (some b) = .ok d := by
        rw [← hp, ← hd]; apply load_congr
        intro b' hb
        have := owned_lt hi ⟨o, hv, hb⟩
        simp only [State.alloc]; rw [if_neg (by omega)]
      obtain ⟨dst, l1, l2, l3⟩ := cresizeLoop_spec o.st ⟨o.st.layout, r, c⟩ hok.1 hw d
        (by have := hok.2.1; omega)
        (min (⟨o.st.layout, r, c⟩ : St).numSlices o.st.numSlices) (Nat.min_le_right _ _)
        (Nat.min_le_left _ _)
        (fresh (⟨o.st.layout, r, c⟩ : St).numElements junk) (by simp)
      have hlt := owned_lt hi ⟨o, hv, hp⟩
      have hbuf := hok.2.2; rw [hp] at hbuf
      obtain ⟨buf, hb1, hb2⟩ := hbuf
      obtain ⟨s1, f1, f2, f3, f4⟩ := free_ok hi hv
      have hre := realloc_inv hi hv f2 f3 f4 _ hw dst (by rw [l2]; simp)
      refine ⟨_, ?_, hre.1, hre.2.1, ⟨_, _, _, _, hre.2.2.1, rfl, m3, m4, hw, ?_⟩, hre.2.2.2⟩
      · simp only [step, State.obj, hv, Res.bind_ok, hm, hne, if_true, hp, hload, l1, alloc_store,
          State.free]
        have : (if b = s.next then some dst else s.heap b) = some buf := by
          rw [if_neg (by omega)]; exact hb1
        simp only [this, Res.bind_ok, State.setBuf]
        congr 2
        congr 1
        funext a
        rw [f4, hp]
        by_cases h1 : a = b
        · subst h1
          have hn : a ≠ s.next := by omega
          simp [hn]
        · have h2 : ¬ b = a := fun e => h1 e.symm
          simp [h1, h2]
      · intro q t hq1 hq2 ht1 ht2
        exact l3 q t (by omega) ht1 ht2
  · refine ⟨s, ?_, hi, ?_, ⟨o.ptr, o.cap, d, o.st, ⟨hv, hd⟩, rfl, ?_, ?_, hok.1, ?_⟩, id⟩
    · simp only [step, State.obj, hv, Res.bind_ok, hne, if_false]
    · intro y _; exact ⟨rfl, by intros; rfl⟩
    · by_contra h; exact hne (Or.inl (fun e => h e.symm))
    · by_contra h; exact hne (Or.inr (fun e => h e.symm))
    · intros; rfl

end Verif.Matrix
