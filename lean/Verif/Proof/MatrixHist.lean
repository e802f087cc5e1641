import Verif.Proof.MatrixOps
/- Lifting the per-operation lemmas to histories. -/
namespace Verif.Matrix
open Verif Storage

variable {α : Type} [Mul α]

theorem make_abort {l : Layout} {r c : Nat} (h : ¬ (St.square l = true → r = c)) :
    St.make l r c = .abort := by
  unfold St.make
  rw [if_pos]
  simp only [Bool.and_eq_true, bne_iff_ne, ne_eq]
  exact ⟨by by_contra h2; exact h (fun h3 => absurd h3 h2), fun h2 => h (fun _ => h2)⟩

/-- every legal operation either aborts on a non-square triangular shape or succeeds -/
theorem step_total {s : State α} (hi : Inv s) {op : Op α} (hp : Pre s op) :
    (¬ SquareOk s op ∧ step s op = .abort) ∨
    (SquareOk s op ∧ ∃ s', step s op = .ok s' ∧ Inv s' ∧ Frame s s' (· ∈ op.targets) ∧
      (MoveOntoEmpty s op → NoLeak s → NoLeak s')) := by
  cases op with
  | construct x l r c junk =>
    by_cases hsq : St.square l = true → r = c
    · right
      obtain ⟨s', h1, h2, h3, _, h5⟩ := step_construct hi (junk := junk) hp hsq
      exact ⟨hsq, s', h1, h2, by simpa [Op.targets] using h3, fun _ => h5⟩
    · left
      refine ⟨hsq, ?_⟩
      have hx : s.var x = none := hp
      simp [step, hx, make_abort hsq]
  | copyCtor x y junk =>
    right
    obtain ⟨hx, o, hy⟩ := hp
    obtain ⟨d, hd, _⟩ := content_of hi hy
    obtain ⟨s', h1, h2, h3, _, h5⟩ := step_copyCtor hi (junk := junk) hx hd
    exact ⟨trivial, s', h1, h2, by simpa [Op.targets] using h3, fun _ => h5⟩
  | moveCtor x y =>
    right
    obtain ⟨hx, o, hy⟩ := hp
    obtain ⟨d, hd, _⟩ := content_of hi hy
    obtain ⟨s', h1, h2, h3, _, _, h5⟩ := step_moveCtor hi hx hd
    exact ⟨trivial, s', h1, h2, by simpa [Op.targets] using h3, fun _ => h5⟩
  | destroy x =>
    right
    obtain ⟨o, hx⟩ := hp
    obtain ⟨s', h1, h2, h3, _, h5⟩ := step_destroy hi hx
    exact ⟨trivial, s', h1, h2, by simpa [Op.targets] using h3, fun _ => h5⟩
  | copyAssign x y junk =>
    right
    obtain ⟨ox, oy, hx, hy, hl⟩ := hp
    by_cases hxy : x = y
    · refine ⟨trivial, s, by simp [step, State.obj, hx, hy, hxy], hi, ?_, fun _ => id⟩
      intro z _; exact ⟨rfl, by intros; rfl⟩
    · obtain ⟨d, hd, _⟩ := content_of hi hy
      obtain ⟨s', h1, h2, h3, _, h5⟩ := step_copyAssign hi (junk := junk) hxy hx hd hl
      exact ⟨trivial, s', h1, h2, by simpa [Op.targets] using h3, fun _ => h5⟩
  | moveAssign x y =>
    right
    obtain ⟨ox, oy, hx, hy, hl⟩ := hp
    obtain ⟨d, hd, _⟩ := content_of hi hy
    obtain ⟨s', h1, h2, h3, _, _, _, h5⟩ := step_moveAssign hi hx hd hl
    exact ⟨trivial, s', h1, h2, by simpa [Op.targets] using h3,
      fun hm => h5 hm.1 (hm.2 ox hx)⟩
  | swap x y =>
    right
    obtain ⟨ox, oy, hx, hy, hl⟩ := hp
    obtain ⟨d, hd, _⟩ := content_of hi hy
    obtain ⟨d', hd', _⟩ := content_of hi hx
    obtain ⟨s', h1, h2, h3, _, _, h5⟩ := step_swap hi hd' hd
    exact ⟨trivial, s', h1, h2, by simpa [Op.targets] using h3, fun _ => h5⟩
  | resize x r c junk =>
    obtain ⟨o, hx⟩ := hp
    obtain ⟨d, hd, _⟩ := content_of hi hx
    by_cases hsq : St.square o.st.layout = true → r = c
    · right
      obtain ⟨s', h1, h2, h3, _, h5⟩ := step_resize hi (junk := junk) hd hsq
      refine ⟨?_, s', h1, h2, by simpa [Op.targets] using h3, fun _ => h5⟩
      intro o' ho'; rw [hx] at ho'; injection ho' with ho'; subst ho'; exact hsq
    · left
      refine ⟨fun h => hsq (h o hx), ?_⟩
      simp [step, State.obj, hx, make_abort hsq]
  | cresize x r c junk =>
    obtain ⟨o, hx⟩ := hp
    obtain ⟨d, hd, _⟩ := content_of hi hx
    by_cases hsq : St.square o.st.layout = true → r = c
    · right
      obtain ⟨s', h1, h2, h3, _, h5⟩ := step_cresize hi (junk := junk) hd hsq
      refine ⟨?_, s', h1, h2, by simpa [Op.targets] using h3, fun _ => h5⟩
      intro o' ho'; rw [hx] at ho'; injection ho' with ho'; subst ho'; exact hsq
    · left
      refine ⟨fun h => hsq (h o hx), ?_⟩
      have hne : r ≠ o.st.nrows ∨ c ≠ o.st.ncols := by
        by_contra hn
        simp only [not_or, Decidable.not_not] at hn
        apply hsq
        intro hq
        rw [hn.1, hn.2]
        simp [St.nrows, St.ncols, hq]
      simp [step, State.obj, hx, make_abort hsq, hne]
  | fill x v =>
    right
    obtain ⟨o, hx⟩ := hp
    obtain ⟨d, hd, _⟩ := content_of hi hx
    obtain ⟨s', h1, h2, h3, _, h5⟩ := step_fill hi (v := v) hd
    exact ⟨trivial, s', h1, h2, by simpa [Op.targets] using h3, fun _ => h5⟩
  | multiply x v =>
    right
    obtain ⟨o, hx⟩ := hp
    obtain ⟨d, hd, _⟩ := content_of hi hx
    obtain ⟨s', h1, h2, h3, _, h5⟩ := step_multiply hi (f := v) hd
    exact ⟨trivial, s', h1, h2, by simpa [Op.targets] using h3, fun _ => h5⟩
  | write x i j v =>
    right
    obtain ⟨o, hx, he⟩ := hp
    obtain ⟨d, hd, _⟩ := content_of hi hx
    obtain ⟨s', h1, h2, h3, _, h5⟩ := step_write hi (v := v) hd he
    exact ⟨trivial, s', h1, h2, by simpa [Op.targets] using h3, fun _ => h5⟩

theorem step_ok_inv {s s' : State α} (hi : Inv s) {op : Op α} (hp : Pre s op)
    (h : step s op = .ok s') : Inv s' ∧ Frame s s' (· ∈ op.targets) ∧
      (MoveOntoEmpty s op → NoLeak s → NoLeak s') := by
  rcases step_total hi hp with ⟨_, h1⟩ | ⟨_, s1, h1, h2⟩
  · rw [h] at h1; cases h1
  · rw [h] at h1; injection h1 with h1; subst h1; exact h2

theorem reach_inv {s : State α} (h : Reach s) : Inv s := by
  induction h with
  | init => exact inv_init
  | step s s' op _ hp hs ih => exact (step_ok_inv ih hp hs).1

omit [Mul α] in
theorem read_content {s : State α} (hi : Inv s) {x : Nat} {o : Obj} {d : List α}
    (hc : Content s x o d) {i j : Int} (he : o.st.HasElement i j) :
    ∃ v, d[(o.st.index i j).toNat]? = some v ∧ read s x i j = .ok v := by
  obtain ⟨hv, hd⟩ := hc
  have hok := hi.1.1 x o hv
  obtain ⟨d', hd', hlen⟩ := load_ok hi hv
  rw [hd] at hd'; injection hd' with hd'; subst hd'
  have hb := index_in_bounds o.st hok.1 i j he
  have hlt : (o.st.index i j).toNat < d.length := by have := hok.2.1; omega
  refine ⟨d[(o.st.index i j).toNat], by simp [hlt], ?_⟩
  simp [read, State.obj, hv, hd, hb.1, hlt]

omit [Mul α] in
theorem frame_read {s s' : State α} {X : Nat → Prop} (h : Frame s s' X) {y : Nat} (hy : ¬ X y)
    (i j : Int) : read s' y i j = read s y i j := by
  obtain ⟨h1, h2⟩ := h y hy
  unfold read State.obj
  rw [h1]
  cases hv : s.var y with
  | none => rfl
  | some o => simp only [Res.bind_ok]; rw [h2 o hv]

omit [Mul α] in
theorem frame_same {s s' : State α} (hi : Inv s) {X : Nat → Prop} (h : Frame s s' X) {y : Nat}
    (hy : ¬ X y) (hl : s.Live y) : SameMatrix s y s' y := by
  obtain ⟨o, ho⟩ := hl
  obtain ⟨d, hd, _⟩ := content_of hi ho
  refine ⟨o, o, ho, by rw [(h y hy).1]; exact ho, rfl, rfl, rfl, ?_⟩
  intro i j he
  obtain ⟨v, _, hv⟩ := read_content hi hd he
  exact ⟨v, hv, by rw [frame_read h hy]; exact hv⟩

omit [Mul α] in
/-- equal contents up to `num_elements` give the same matrix -/
theorem same_of_content {s s' : State α} (hi : Inv s) (hi' : Inv s') {x y : Nat} {o o' : Obj}
    {d d' : List α} (hx : Content s x o d) (hy : Content s' y o' d') (hs : o.st = o'.st)
    (hd : ∀ k, k < o.st.numElements → d[k]? = d'[k]?) : SameMatrix s x s' y := by
  refine ⟨o, o', hx.1, hy.1, by rw [hs], by rw [hs], by rw [hs], ?_⟩
  intro i j he
  obtain ⟨v, h1, h2⟩ := read_content hi hx he
  obtain ⟨w, h3, h4⟩ := read_content hi' hy (hs ▸ he)
  have hok := hi.1.1 x o hx.1
  have hb := index_in_bounds o.st hok.1 i j he
  have := hd (o.st.index i j).toNat (by omega)
  rw [h1, hs, h3] at this
  injection this with this
  subst this
  exact ⟨v, h2, h4⟩

theorem exec_inv {s s' : State α} {ops : List (Op α)} (h : Exec s ops s') (hi : Inv s) :
    Inv s' ∧ Frame s s' (fun y => ∃ op ∈ ops, y ∈ op.targets) := by
  induction h with
  | nil s => exact ⟨hi, fun y _ => ⟨rfl, by intros; rfl⟩⟩
  | cons s s1 s' op ops hp hs _ ih =>
    obtain ⟨h1, h2, _⟩ := step_ok_inv hi hp hs
    obtain ⟨h3, h4⟩ := ih h1
    refine ⟨h3, ?_⟩
    apply frame_trans (s' := s1)
    · intro y hy; exact h2 y (fun hm => hy ⟨op, by simp, hm⟩)
    · intro y hy
      exact h4 y (fun ⟨o, ho, hm⟩ => hy ⟨o, by simp [ho], hm⟩)

end Verif.Matrix
