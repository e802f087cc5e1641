import Verif.Proof.MatrixHist
/-
C03-C07: coefficient matrices as values and as owners of memory.
-/
namespace Verif.Matrix
open Verif Storage

variable {α : Type} [Mul α]

/-! ### C04 -/

/-- C04: in every state a legal program can reach, each matrix owns a buffer of exactly its recorded
capacity, large enough for its elements, and no two matrices own the same buffer. -/
theorem matrix_reach_memOk {s : State α} (h : Reach s) : MemOk s := (reach_inv h).1

/-- C04: no legal operation ever touches freed or foreign memory (`Res.ub`) or throws; it aborts
exactly when a triangular matrix is asked for a non-square shape. -/
theorem matrix_step_defined {s : State α} (h : Reach s) {op : Op α} (hp : Pre s op) :
    step s op ≠ .ub ∧ step s op ≠ .throw ∧ (step s op = .abort ↔ ¬ SquareOk s op) ∧
      (SquareOk s op → ∃ s', step s op = .ok s') := by
  rcases step_total (reach_inv h) hp with ⟨h1, h2⟩ | ⟨h1, s1, h2, _⟩
  · rw [h2]; simp [h1]
  · rw [h2]; simp [h1]

/-- C04: reading any element of any live matrix is defined. -/
theorem matrix_read_defined {s : State α} (h : Reach s) {x : Nat} {o : Obj}
    (hx : s.var x = some o) {i j : Int} (he : o.st.HasElement i j) :
    ∃ v, read s x i j = .ok v := by
  obtain ⟨d, hd, _⟩ := content_of (reach_inv h) hx
  obtain ⟨v, _, hv⟩ := read_content (reach_inv h) hd he
  exact ⟨v, hv⟩

/-- C04: a legal operation leaves every matrix it does not name untouched, elements included. -/
theorem matrix_step_frame {s s' : State α} (h : Reach s) {op : Op α} (hp : Pre s op)
    (hs : step s op = .ok s') {y : Nat} (hy : y ∉ op.targets) (hl : s.Live y) :
    SameMatrix s y s' y :=
  frame_same (reach_inv h) (step_ok_inv (reach_inv h) hp hs).2.1 hy hl

/-! ### C05 -/

/-- C05 (partial): programs that move-assign only onto matrices without a buffer never lose memory:
every allocated buffer has an owner. Missing: move assignment onto a matrix that has a buffer, where
the claim is false (`matrix_no_leak_fails`). -/
theorem matrix_no_leak_partial {s : State α} (h : ReachNM s) : NoLeak s := by
  have : Inv s ∧ NoLeak s := by
    induction h with
    | init => exact ⟨inv_init, fun b buf hb => by cases hb⟩
    | step s s' op _ hp hm hs ih =>
      obtain ⟨h1, _, h3⟩ := step_ok_inv ih.1 hp hs
      exact ⟨h1, h3 hm ih.2⟩
  exact this.2

/-- C05 (partial): in such programs, once all matrices are destroyed nothing remains allocated. -/
theorem matrix_all_freed_partial {s : State α} (h : ReachNM s) (hd : ∀ x, s.var x = none) :
    ∀ b, s.heap b = none := by
  intro b
  by_contra hb
  obtain ⟨buf, hb⟩ := Option.ne_none_iff_exists'.mp hb
  obtain ⟨x, o, ho, _⟩ := matrix_no_leak_partial h b buf hb
  rw [hd] at ho; cases ho

/-- C05: copy-assigning a matrix to itself changes nothing. -/
theorem matrix_self_copy_assign {s : State α} {x : Nat} (hl : s.Live x) (junk : Nat → α) :
    step s (.copyAssign x x junk) = .ok s := by
  obtain ⟨o, ho⟩ := hl
  simp [step, State.obj, ho]

/-- C05: no legal operation frees memory twice (freeing a dead buffer is `Res.ub`). -/
theorem matrix_destroy_ok {s : State α} (h : Reach s) {x : Nat} (hl : s.Live x) :
    ∃ s', step s (.destroy x) = .ok s' ∧ s'.var x = none := by
  obtain ⟨o, ho⟩ := hl
  obtain ⟨s', h1, _, _, h4, _⟩ := step_destroy (reach_inv h) ho
  exact ⟨s', h1, h4⟩

/-- C05 fails for move assignment: after `A = std::move(B)` the old buffer of `A` is lost for ever. -/
theorem matrix_no_leak_fails : ∃ s : State Int, Reach s ∧ ¬ NoLeak s := by
  refine ⟨_, Reach.step _ _ (.moveAssign 0 1)
    (Reach.step _ _ (.construct 1 .rowWise 1 1 (fun _ => 7))
      (Reach.step _ _ (.construct 0 .rowWise 1 1 (fun _ => 5)) Reach.init rfl rfl) rfl rfl)
      ⟨_, _, rfl, rfl, rfl⟩ rfl, ?_⟩
  intro h
  obtain ⟨x, o, ho, hp⟩ := h 0 [5] rfl
  rcases x with _ | _ | x
  · have e : o = ⟨⟨.rowWise, 1, 1⟩, some 1, 1⟩ := (Option.some.inj ho).symm
    subst e; cases hp
  · have e : o = ⟨⟨.rowWise, 0, 0⟩, none, 0⟩ := (Option.some.inj ho).symm
    subst e; cases hp
  · have e : (none : Option Obj) = some o := ho
    cases e

/-- C05 fails for self-move-assignment: `A = std::move(A)` loses the elements of `A`. -/
theorem matrix_self_move_fails : ∃ s s' : State Int, Reach s ∧ Pre s (.moveAssign 0 0) ∧
    step s (.moveAssign 0 0) = .ok s' ∧ HasShape s 0 .rowWise 1 1 ∧ read s 0 0 0 = .ok 5 ∧
    HasShape s' 0 .rowWise 0 0 := by
  refine ⟨_, _, Reach.step _ _ (.construct 0 .rowWise 1 1 (fun _ => 5)) Reach.init rfl rfl,
    ⟨_, _, rfl, rfl, rfl⟩, rfl, ⟨_, rfl, rfl, rfl, rfl⟩, rfl, ⟨_, rfl, rfl, rfl, rfl⟩⟩

/-- Hypotheses of C05 are met by a program with a copy, a move into an empty matrix and a destructor. -/
example : ∃ s : State Int, ReachNM s ∧ (∃ x, s.Live x) := by
  refine ⟨_, ReachNM.step _ _ (.moveAssign 1 0)
    (ReachNM.step _ _ (.construct 1 .trapezoid 0 0 (fun _ => 7))
      (ReachNM.step _ _ (.construct 0 .trapezoid 5 3 (fun _ => 5)) ReachNM.init rfl trivial rfl)
      rfl trivial rfl) ⟨_, _, rfl, rfl, rfl⟩ ⟨by decide, ?_⟩ rfl, 0, _, rfl⟩
  intro o ho; injection ho with ho; subst ho; rfl

/-! ### C03 -/

/-- C03: after any sequence of element assignments, every element reads as the last value assigned to
it (or as before, if none), and every other matrix is unchanged. -/
theorem matrix_last_write {s : State α} (h : Reach s) {x : Nat} {o : Obj} (hx : s.var x = some o)
    (ws : List (Int × Int × α)) (hw : ∀ w ∈ ws, o.st.HasElement w.1 w.2.1) :
    ∃ s', run s (ws.map fun w => .write x w.1 w.2.1 w.2.2) = .ok s' ∧ s'.var x = some o ∧
      (∀ i j, o.st.HasElement i j →
        read s' x i j = match lastWrite ws i j with
          | some v => .ok v
          | none => read s x i j) ∧
      (∀ y, y ≠ x → s.Live y → SameMatrix s y s' y) := by
  have hi := reach_inv h
  clear h
  suffices hh : ∃ s', run s (ws.map fun w => .write x w.1 w.2.1 w.2.2) = .ok s' ∧
      s'.var x = some o ∧ (∀ i j, o.st.HasElement i j →
        read s' x i j = match lastWrite ws i j with
          | some v => .ok v
          | none => read s x i j) ∧ Frame s s' (· = x) by
    obtain ⟨s', h1, h2, h3, h4⟩ := hh
    exact ⟨s', h1, h2, h3, fun y hy hl => frame_same hi h4 hy hl⟩
  induction ws generalizing s with
  | nil =>
    exact ⟨s, rfl, hx, fun i j _ => rfl, fun y _ => ⟨rfl, by intros; rfl⟩⟩
  | cons w ws ih =>
    obtain ⟨d, hd, hlen⟩ := content_of hi hx
    have he := hw w (by simp)
    obtain ⟨s1, e1, e2, e3, e4, _⟩ := step_write hi (v := w.2.2) hd he
    obtain ⟨s', g1, g2, g3, g4⟩ := ih e4.1 (fun w' hw' => hw w' (by simp [hw'])) e2
    refine ⟨s', ?_, g2, ?_, frame_trans e3 g4⟩
    · simp only [List.map_cons, run, e1, Res.bind_ok, g1]
    · intro i j hij
      rw [g3 i j hij]
      have hone : read s1 x i j = if w.1 = i ∧ w.2.1 = j then .ok w.2.2 else read s x i j := by
        have hok := hi.1.1 x o hx
        obtain ⟨v, h1, h2⟩ := read_content e2 e4 hij
        obtain ⟨v0, h3, h4⟩ := read_content hi hd hij
        rw [List.getElem?_set] at h1
        have b1 := index_in_bounds o.st hok.1 i j hij
        have b2 := index_in_bounds o.st hok.1 w.1 w.2.1 he
        by_cases hc : w.1 = i ∧ w.2.1 = j
        · rw [if_pos hc, h2]
          obtain ⟨rfl, rfl⟩ := hc
          rw [if_pos rfl, if_pos (by have := hok.2.1; omega)] at h1
          injection h1 with h1
          rw [h1]
        · rw [if_neg hc, h2, h4]
          rw [if_neg, h3] at h1
          · injection h1 with h1; rw [h1]
          · intro e
            exact hc (index_injective o.st hok.1 _ _ _ _ he hij (by omega))
      have hlw : lastWrite (w :: ws) i j = match lastWrite ws i j with
          | some v => some v
          | none => if w.1 = i ∧ w.2.1 = j then some w.2.2 else none := by
        unfold lastWrite
        by_cases hc : w.1 = i ∧ w.2.1 = j
        · rw [List.filter_cons_of_pos (by simpa using hc), List.getLast?_cons]
          cases hq : (ws.filter (fun w => w.1 = i ∧ w.2.1 = j)).getLast? <;> simp [hq, hc]
        · rw [List.filter_cons_of_neg (by simpa using hc)]
          cases hq : (ws.filter (fun w => w.1 = i ∧ w.2.1 = j)).getLast? <;> simp [hc]
      rw [hlw, hone]
      cases lastWrite ws i j with
      | some v => rfl
      | none => by_cases hc : w.1 = i ∧ w.2.1 = j <;> simp [hc]

/-- Hypotheses of C03 are met: a 3×3 triangular matrix and two writes, one element written twice. -/
example : ∃ s : State Int, Reach s ∧ ∃ o, s.var 0 = some o ∧
    (∀ w ∈ [((2 : Int), (1 : Int), (4 : Int)), (2, 1, 9)], o.st.HasElement w.1 w.2.1) ∧
    lastWrite [((2 : Int), (1 : Int), (4 : Int)), (2, 1, 9)] 2 1 = some 9 := by
  refine ⟨_, Reach.step _ _ (.construct 0 .lwTriangularColWise 3 3 (fun _ => 5)) Reach.init rfl rfl,
    _, rfl, ?_, by decide⟩
  simp [St.HasElement, IsElement, Layout.lower]

/-! ### C06 -/

/-- C06: `cresize(r, c)` succeeds (for a triangular layout: if `r = c`), gives the matrix the new
shape and keeps the value of every element that exists in both shapes; other matrices unchanged. -/
theorem matrix_cresize_keeps {s : State α} (h : Reach s) {x : Nat} {o : Obj}
    (hx : s.var x = some o) (r c : Nat) (junk : Nat → α)
    (hsq : St.square o.st.layout = true → r = c) :
    ∃ s', step s (.cresize x r c junk) = .ok s' ∧ HasShape s' x o.st.layout r c ∧
      (∀ i j, IsElement o.st.layout o.st.nrows o.st.ncols i j → IsElement o.st.layout r c i j →
        ∃ v, read s x i j = .ok v ∧ read s' x i j = .ok v) ∧
      (∀ y, y ≠ x → s.Live y → SameMatrix s y s' y) := by
  have hi := reach_inv h
  obtain ⟨d, hd, hlen⟩ := content_of hi hx
  obtain ⟨s', h1, h2, h3, ⟨p, cap, d', st', h4, h5, h6, h7, h8, h9⟩, _⟩ :=
    step_cresize hi (junk := junk) hd hsq
  refine ⟨s', h1, ⟨_, h4.1, h5, h6, h7⟩, ?_, fun y hy hl => frame_same hi h3 hy hl⟩
  have hnc : ∀ st : St, st.WF → st.ncols = st.cols := by
    intro st hw
    unfold St.ncols
    split
    · next hq => exact hw hq
    · rfl
  have hok := hi.1.1 x o hx
  intro i j he he'
  have e1 : o.st.HasElement i j := by
    rw [hnc _ hok.1] at he; exact he
  have e2 : st'.HasElement i j := by
    unfold St.HasElement
    rw [← hnc _ h8, h7, h5]
    have : st'.rows = r := h6
    rw [this]; exact he'
  obtain ⟨v, a1, a2⟩ := read_content hi hd e1
  obtain ⟨w, b1, b2⟩ := read_content h2 h4 e2
  obtain ⟨a, rfl⟩ := Int.eq_ofNat_of_zero_le e1.1
  obtain ⟨b, rfl⟩ := Int.eq_ofNat_of_zero_le e1.2.2.1
  have q1 := o.st.index_eq hok.1 e1
  have q2 := st'.index_eq h8 e2
  have l1 := o.st.slc_lt hok.1 e1
  have l2 := st'.slc_lt h8 e2
  have m1 := o.st.pos_lt e1
  have m2 := st'.pos_lt e2
  have es : st'.slc a b = o.st.slc a b := by unfold St.slc; rw [h5]
  have ep : st'.pos a b = o.st.pos a b := by unfold St.pos; rw [h5]
  rw [es, ep] at q2
  rw [es] at l2 m2
  rw [ep] at m2
  have key := h9 _ _ l1 l2 m1 m2
  have n1 := o.st.slice_nonneg hok.1 _ (Nat.le_of_lt l1)
  have n2 := st'.slice_nonneg h8 _ (Nat.le_of_lt l2)
  have t1 : (o.st.index a b).toNat = (o.st.slice (o.st.slc a b)).toNat + o.st.pos a b := by
    rw [q1]; omega
  have t2 : (st'.index a b).toNat = (st'.slice (o.st.slc a b)).toNat + o.st.pos a b := by
    rw [q2]; omega
  rw [t2, key, ← t1, a1] at b1
  injection b1 with b1
  subst b1
  exact ⟨v, a2, b2⟩

/-- C06: after `resize(r, c)` the matrix has the new shape (its elements are unspecified). -/
theorem matrix_resize_shape {s : State α} (h : Reach s) {x : Nat} {o : Obj}
    (hx : s.var x = some o) (r c : Nat) (junk : Nat → α)
    (hsq : St.square o.st.layout = true → r = c) :
    ∃ s', step s (.resize x r c junk) = .ok s' ∧ HasShape s' x o.st.layout r c := by
  have hi := reach_inv h
  obtain ⟨d, hd, hlen⟩ := content_of hi hx
  obtain ⟨s', h1, h2, h3, ⟨p, cap, d', h4⟩, _⟩ := step_resize hi (junk := junk) hd hsq
  obtain ⟨_, _, m3, m4⟩ := make_wf _ _ _ _ (make_ok o.st.layout r c hsq)
  exact ⟨s', h1, _, h4.1, rfl, m3, m4⟩

/-- Hypotheses of C06 are met: grow a 2×2 trapezoid matrix to 5×3; (1,1) exists in both. -/
example : ∃ s : State Int, Reach s ∧ ∃ o, s.var 0 = some o ∧
    (St.square o.st.layout = true → 5 = 3) ∧
    IsElement o.st.layout o.st.nrows o.st.ncols 1 1 ∧ IsElement o.st.layout 5 3 1 1 := by
  refine ⟨_, Reach.step _ _ (.construct 0 .trapezoid 2 2 (fun _ => 5)) Reach.init rfl rfl,
    _, rfl, ?_⟩
  simp [IsElement, Layout.lower, St.square, St.nrows, St.ncols]

/-! ### C07 -/

/-- C07: the copy constructor yields a matrix of the same shape and elements. -/
theorem matrix_copy_ctor {s s' : State α} (h : Reach s) {x y : Nat} {junk : Nat → α}
    (hp : Pre s (.copyCtor x y junk)) (hs : step s (.copyCtor x y junk) = .ok s') :
    SameMatrix s y s' x ∧ SameMatrix s y s' y := by
  have hi := reach_inv h
  obtain ⟨hx, o, hy⟩ := hp
  obtain ⟨d, hd, _⟩ := content_of hi hy
  obtain ⟨s1, h1, h2, h3, ⟨p, h4⟩, _⟩ := step_copyCtor hi (junk := junk) hx hd
  rw [hs] at h1; injection h1 with h1; subst h1
  have hne : y ≠ x := by rintro rfl; rw [hx] at hy; cases hy
  refine ⟨same_of_content hi h2 hd h4 rfl ?_, frame_same hi h3 hne ⟨o, hy⟩⟩
  intro k hk
  rw [List.getElem?_take, if_pos hk]

/-- C07: copy assignment yields a matrix of the same shape and elements, whatever the target held. -/
theorem matrix_copy_assign {s s' : State α} (h : Reach s) {x y : Nat} {junk : Nat → α}
    (hp : Pre s (.copyAssign x y junk)) (hs : step s (.copyAssign x y junk) = .ok s') :
    SameMatrix s y s' x ∧ SameMatrix s y s' y := by
  have hi := reach_inv h
  obtain ⟨ox, oy, hx, hy, hl⟩ := hp
  obtain ⟨d, hd, hlen⟩ := content_of hi hy
  by_cases hxy : x = y
  · subst hxy
    rw [matrix_self_copy_assign ⟨_, hx⟩] at hs
    injection hs with hs; subst hs
    exact ⟨same_of_content hi hi hd hd rfl (by intros; rfl),
      same_of_content hi hi hd hd rfl (by intros; rfl)⟩
  · obtain ⟨s1, h1, h2, h3, ⟨p, cap, rest, h4⟩, _⟩ :=
      step_copyAssign hi (junk := junk) hxy hx hd hl
    rw [hs] at h1; injection h1 with h1; subst h1
    refine ⟨same_of_content hi h2 hd h4 rfl ?_, frame_same hi h3 (Ne.symm hxy) ⟨oy, hy⟩⟩
    intro k hk
    have := (hi.1.1 y oy hy).2.1
    rw [List.getElem?_append_left (by rw [List.length_take]; omega), List.getElem?_take, if_pos hk]

/-- C07: moving (by construction, or by assignment between different variables) hands over shape and
elements and leaves the source an empty 0×0 matrix. -/
theorem matrix_move {s s' : State α} (h : Reach s) {x y : Nat} {op : Op α}
    (hop : op = .moveCtor x y ∨ (op = .moveAssign x y ∧ x ≠ y)) (hp : Pre s op)
    (hs : step s op = .ok s') :
    SameMatrix s y s' x ∧ ∃ l, HasShape s' y l 0 0 := by
  have hi := reach_inv h
  rcases hop with rfl | ⟨rfl, hxy⟩
  · obtain ⟨hx, o, hy⟩ := hp
    obtain ⟨d, hd, _⟩ := content_of hi hy
    obtain ⟨s1, h1, h2, h3, h4, h5, _⟩ := step_moveCtor hi hx hd
    rw [hs] at h1; injection h1 with h1; subst h1
    exact ⟨same_of_content hi h2 hd h4 rfl (by intros; rfl), _, _, h5.1, rfl, rfl,
      by simp [St.ncols]⟩
  · obtain ⟨ox, oy, hx, hy, hl⟩ := hp
    obtain ⟨d, hd, _⟩ := content_of hi hy
    obtain ⟨s1, h1, h2, h3, h4, h5, _⟩ := step_moveAssign hi hx hd hl
    rw [hs] at h1; injection h1 with h1; subst h1
    exact ⟨same_of_content hi h2 hd (h4 hxy) rfl (by intros; rfl), _, _, h5.1, rfl, rfl,
      by simp [St.ncols]⟩

/-- C07: `swap` exchanges shapes and elements. -/
theorem matrix_swap {s s' : State α} (h : Reach s) {x y : Nat} (hp : Pre s (.swap x y))
    (hs : step s (.swap x y) = .ok s') : SameMatrix s y s' x ∧ SameMatrix s x s' y := by
  have hi := reach_inv h
  obtain ⟨ox, oy, hx, hy, hl⟩ := hp
  obtain ⟨d, hd, _⟩ := content_of hi hy
  obtain ⟨d', hd', _⟩ := content_of hi hx
  obtain ⟨s1, h1, h2, h3, h4, h5, _⟩ := step_swap hi hd' hd
  rw [hs] at h1; injection h1 with h1; subst h1
  exact ⟨same_of_content hi h2 hd h4 rfl (by intros; rfl),
    same_of_content hi h2 hd' h5 rfl (by intros; rfl)⟩

/-- C07: independence of copies: no legal program that does not name `y` changes `y`, however the
other matrices (copies of `y` included) are written, resized, moved or destroyed. -/
theorem matrix_copies_independent {s s' : State α} (h : Reach s) {ops : List (Op α)}
    (he : Exec s ops s') {y : Nat} (hl : s.Live y) (hy : ∀ op ∈ ops, y ∉ op.targets) :
    SameMatrix s y s' y := by
  have hi := reach_inv h
  refine frame_same hi (exec_inv he hi).2 ?_ hl
  rintro ⟨op, ho, hm⟩
  exact hy op ho hm

/-- `fill_with(v)` sets every element, `multiply(f)` scales every element; shape unchanged. -/
theorem matrix_fill_multiply {s : State α} (h : Reach s) {x : Nat} {o : Obj}
    (hx : s.var x = some o) (v : α) :
    (∃ s', step s (.fill x v) = .ok s' ∧ s'.var x = some o ∧
      ∀ i j, o.st.HasElement i j → read s' x i j = .ok v) ∧
    (∃ s', step s (.multiply x v) = .ok s' ∧ s'.var x = some o ∧
      ∀ i j, o.st.HasElement i j → ∃ w, read s x i j = .ok w ∧ read s' x i j = .ok (w * v)) := by
  have hi := reach_inv h
  obtain ⟨d, hd, hlen⟩ := content_of hi hx
  have hok := hi.1.1 x o hx
  constructor
  · obtain ⟨s', h1, h2, h3, h4, _⟩ := step_fill hi (v := v) hd
    refine ⟨s', h1, h4.1, ?_⟩
    intro i j he
    obtain ⟨w, a1, a2⟩ := read_content h2 h4 he
    rw [a2]
    have := List.mem_of_getElem? a1
    rw [List.eq_of_mem_replicate this]
  · obtain ⟨s', h1, h2, h3, h4, _⟩ := step_multiply hi (f := v) hd
    refine ⟨s', h1, h4.1, ?_⟩
    intro i j he
    obtain ⟨w, a1, a2⟩ := read_content hi hd he
    obtain ⟨w', b1, b2⟩ := read_content h2 h4 he
    refine ⟨w, a2, ?_⟩
    have hb := index_in_bounds o.st hok.1 i j he
    have := hok.2.1
    rw [List.getElem?_append_left (by simp; omega), List.getElem?_map, List.getElem?_take,
      if_pos (by omega), a1] at b1
    simp only [Option.map_some, Option.some.injEq] at b1
    rw [b2, b1]

/-- Hypotheses of C07 are met: a copy onto a matrix of larger capacity, then the copy is overwritten. -/
example : ∃ s s' : State Int, Reach s ∧ s.Live 1 ∧
    Exec s [.copyAssign 0 1 (fun _ => 0), .write 0 0 0 3] s' ∧
    (∀ op ∈ ([.copyAssign 0 1 (fun _ => 0), .write 0 0 0 3] : List (Op Int)), 1 ∉ op.targets) ∧
    read s' 0 0 0 = .ok 3 ∧ read s' 1 0 0 = .ok 7 := by
  refine ⟨_, _, Reach.step _ _ (.construct 1 .rowWise 2 1 (fun _ => 7))
      (Reach.step _ _ (.construct 0 .rowWise 3 2 (fun _ => 5)) Reach.init rfl rfl) rfl rfl,
      ⟨_, rfl⟩, Exec.cons _ _ _ _ _ ⟨_, _, rfl, rfl, rfl⟩ rfl
        (Exec.cons _ _ _ _ _ ⟨_, rfl, ?_⟩ rfl (Exec.nil _)), ?_, rfl, rfl⟩
  · simp [St.HasElement, IsElement, Layout.lower, St.nrows, St.ncols, St.square]
  · simp [Op.targets]

end Verif.Matrix
