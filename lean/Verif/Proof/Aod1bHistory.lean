import Verif.Spec.Aod1bHistory
import Verif.Props.Aod1bStream
/-
Lemmas on the dealiasing stream for any history of queries.
-/
namespace Verif.Aod1b
open Verif.Chars Verif.Icgem

variable {T : Type} {E : Env T}

variable [LinearOrder T]

/-- The stream stands as the window says. -/
structure Sees (E : Env T) (d : Ds T) (w : Window T) : Prop where
  inv : Inv E d w.s0 w.s1 w.s2 w.rest
  order : w.rest.Pairwise fun s s' => s.epoch < s'.epoch
  later0 : ∀ s ∈ w.rest, w.s0.epoch < s.epoch
  later1 : ∀ s ∈ w.rest, w.s1.epoch < s.epoch
  later2 : ∀ s ∈ w.rest, w.s2.epoch < s.epoch
  least : ∀ s ∈ w.rest, E.min < s.epoch

theorem rest_length {a : Aod T} {it : It T} {s : DataSet T} {fut : List (DataSet T)} (h : AtSet E a it (s :: fut)) :
    fut.length ≤ it.s.rest.length := by
  obtain ⟨b, post, rfl, -, -, -, -, hs⟩ := h
  have h1 : fut.length ≤ post.length := by
    rw [← hs.length_eq]
    exact List.length_filter_le _ _
  have h2 : ∀ post : List (Block T), post.length ≤ (blocksText post).length := by
    intro post
    induction post with
    | nil => simp
    | cons b bs ih =>
      simp only [blocksText, List.map_cons, List.flatten_cons, List.length_append, List.length_cons] at ih ⊢
      have : 1 ≤ b.text.length := by simp [Block.text, unlines]; omega
      omega
  have := h2 post
  simp only [At, List.length_append]
  omega

/-- The loop that reads to the end of the file. -/
theorem skip_all {t : T} : ∀ (fut : List (DataSet T)) (s : DataSet T) (k : Nat) (d : Ds T), 0 ≤ d.a.maxDegree → Room d.a.maxDegree d.c0 →
    AtSet E d.a d.it (s :: fut) → (s :: fut).Pairwise (fun s s' => s.epoch < s'.epoch) → t ≤ s.epoch → fut.length + 2 ≤ k →
    ∃ d', Ds.skipTo E t k 0 d = .ok (-1, d') ∧ d'.a = d.a ∧ d'.dir = d.dir ∧ d'.c1 = d.c1 ∧ d'.c2 = d.c2 ∧ d'.h1 = d.h1 ∧ d'.h2 = d.h2 ∧
      AtSet E d.a d'.it [] ∧ Buf d.a.maxDegree d'.c0 d'.h0 (fut.getLastD s) := by
  intro fut
  induction fut with
  | nil =>
    intro s k d hn hr hit hp ht hk
    obtain ⟨k, rfl⟩ : ∃ k', k = k' + 2 := ⟨k - 2, by omega⟩
    have he : d.it.hdr.epoch = s.epoch := by obtain ⟨b, post, e, -, hs, -⟩ := hit; rw [e]; exact hs.1
    obtain ⟨it1, c1, e1, k1, a1, b1⟩ := coll_ok hn hit hr
    obtain ⟨it2, e2, a2⟩ := adv_ok a1
    rw [if_pos rfl] at e2
    rw [Ds.skipTo, if_pos ⟨by rw [he]; exact ht, rfl⟩]
    simp only [e1, Res.bind, e2]
    rw [Ds.skipTo, if_neg (fun hh => by simp at hh)]
    exact ⟨_, rfl, rfl, rfl, rfl, rfl, rfl, rfl, a2, by rw [k1]; exact b1⟩
  | cons s' fut ih =>
    intro s k d hn hr hit hp ht hk
    obtain ⟨k, rfl⟩ : ∃ k', k = k' + 1 := ⟨k - 1, by simp at hk; omega⟩
    have he : d.it.hdr.epoch = s.epoch := by obtain ⟨b, post, e, -, hs, -⟩ := hit; rw [e]; exact hs.1
    obtain ⟨it1, c1, e1, k1, a1, b1⟩ := coll_ok hn hit hr
    obtain ⟨it2, e2, a2⟩ := adv_ok a1
    rw [if_neg (by simp)] at e2
    rw [Ds.skipTo, if_pos ⟨by rw [he]; exact ht, rfl⟩]
    simp only [e1, Res.bind, e2]
    rw [List.pairwise_cons] at hp
    obtain ⟨d', e3, f1, f2, f3, f4, f5, f6, f7, f8⟩ := ih s' k { d with it := it2, c0 := c1, h0 := it1.hdr } hn b1.2.1 a2 hp.2
      (ht.trans (hp.1 s' (by simp)).le) (by simp at hk; omega)
    exact ⟨d', e3, f1, f2, f3, f4, f5, f6, f7, by
      rw [show (s' :: fut).getLastD s = fut.getLastD s' by cases fut <;> simp [List.getLastD]]; exact f8⟩

/-- What `hunt_range` found: its index, or a negative number; -100 at the end of the file. -/
def Look.Index (E : Env T) (d : Ds T) (i : Int) : Look T → Prop
  | .found s1 s2 w => Sees E d w ∧ s1.epoch < s2.epoch ∧ (i = 0 ∧ Buf d.a.maxDegree d.c0 d.h0 s1 ∧ Buf d.a.maxDegree d.c1 d.h1 s2 ∨
      i = 1 ∧ Buf d.a.maxDegree d.c1 d.h1 s1 ∧ Buf d.a.maxDegree d.c2 d.h2 s2)
  | .refused w => Sees E d w ∧ i < 0 ∧ i ≠ -100
  | .ended w => Sees E d w ∧ w.rest = [] ∧ i = -100
  | .back => False

theorem eof_iff {d : Ds T} {w : Window T} (h : Sees E d w) : Ds.eof E d.it = decide (w.rest = []) := by
  have hit := h.inv.it
  have hl := h.least
  cases hr : w.rest with
  | nil =>
    rw [hr] at hit
    unfold Ds.eof; rw [hit.1, hit.2]; simp
  | cons s rest =>
    rw [hr] at hit hl
    obtain ⟨b, post, e, -, hs, -⟩ := hit
    have : d.it.hdr.epoch = s.epoch := by rw [e]; exact hs.1
    unfold Ds.eof
    rw [this]
    simp [(hl s (by simp)).ne']

theorem forward_ok {d : Ds T} {w : Window T} (h : Sees E d w) {t : T} {s : DataSet T} {rest : List (DataSet T)}
    (hr : w.rest = s :: rest) (ht : w.s2.epoch ≤ t) :
    ∃ i d', Ds.huntOn E t d = .ok (i, d') ∧ d'.a = d.a ∧ d'.dir = d.dir ∧ (w.forward E.min t s rest).Index E d' i := by
  obtain ⟨⟨hn, b0, b1, b2, hit⟩, ho, l0, l1, l2, hl⟩ := h
  rw [hr] at hit ho l0 l1 l2 hl
  have he : d.it.hdr.epoch = s.epoch := by obtain ⟨b, post, e, -, hs, -⟩ := hit; rw [e]; exact hs.1
  rw [List.pairwise_cons] at ho
  have hs2 : w.s2.epoch < s.epoch := l2 s (by simp)
  unfold Ds.huntOn Window.forward
  by_cases c : t < s.epoch
  · rw [he, if_pos c, if_pos c]
    obtain ⟨it1, c2, e1, k1, a1, b3⟩ := coll_ok hn hit b0.2.1
    obtain ⟨it2, e2, a2⟩ := adv_ok a1
    simp only [e1, e2, Res.bind]
    exact ⟨_, _, rfl, rfl, rfl, ⟨⟨hn, b1, b2, b3, a2⟩, ho.2, fun x hx => l1 x (by simp [hx]), fun x hx => l2 x (by simp [hx]),
      fun x hx => ho.1 x hx, fun x hx => hl x (by simp [hx])⟩, hs2, Or.inr ⟨rfl, b2, b3⟩⟩
  · rw [he, if_neg c, if_neg c]
    by_cases ce : t = s.epoch
    · rw [if_pos ce]
      obtain ⟨d', e3, f1, f2, f3, f4, f5, f6, f7, f8⟩ := skip_all (t := t) rest s (d.it.s.rest.length + 2) d hn b0.2.1 hit
        (List.pairwise_cons.mpr ho) ce.le (by have := rest_length hit; omega)
      simp only [e3, Res.bind]
      rw [if_pos (by omega)]
      refine ⟨_, d', rfl, f1, f2, ⟨⟨by rw [f1]; exact hn, by rw [f1]; exact f8, by rw [f1, f3, f5]; exact b1, by rw [f1, f4, f6]; exact b2,
        by rw [f1]; exact f7⟩, by simp, by simp, by simp, by simp, by simp⟩, by omega, by omega⟩
    · rw [if_neg ce]
      have h3 : s.epoch < t := lt_of_le_of_ne (not_lt.mp c) (Ne.symm ce)
      obtain ⟨it1, c1, e1, k1, a1, b3⟩ := coll_ok hn hit b1.2.1
      obtain ⟨it2, e2, a2⟩ := adv_ok a1
      have hs : Ds.skipTo E t (d.it.s.rest.length + 2) 0 d = .ok (0, d) := by
        rw [Ds.skipTo, if_neg (by rw [he]; exact fun hh => absurd hh.1 (not_le.mpr h3))]
      rw [hs]
      cases rest with
      | nil =>
        simp only [if_true] at e2
        simp only [Res.bind, e1, e2, ne_eq, not_true, if_false, show (-1 : Int) < 0 by omega, if_true]
        obtain ⟨m1, m2⟩ := a2
        refine ⟨_, _, rfl, rfl, rfl, ⟨⟨hn, b0, by simp only; rw [k1]; exact b3, ⟨rfl, b2.2⟩, ⟨rfl, m2⟩⟩, by simp, by simp, by simp, by simp, by simp⟩,
          l0 s (by simp), Or.inl ⟨rfl, b0, by simp only; rw [k1]; exact b3⟩⟩
      | cons s4 fut =>
        simp only [reduceCtorEq, if_false] at e2
        obtain ⟨it3, c2, e3, k3, a3, b4⟩ := coll_ok hn a2 b2.2.1
        obtain ⟨it4, e4, a4⟩ := adv_ok a3
        simp only [Res.bind, e1, e2, e3, e4, ne_eq, not_true, if_false, lt_irrefl, gt_iff_lt]
        have ho2 := ho.2
        rw [List.pairwise_cons] at ho2
        exact ⟨_, _, rfl, rfl, rfl, ⟨⟨hn, b0, by simp only; rw [k1]; exact b3, by simp only; rw [k3]; exact b4, a4⟩, ho2.2,
          fun x hx => l0 x (by simp [hx]), fun x hx => ho.1 x (by simp [hx]), fun x hx => ho2.1 x hx, fun x hx => hl x (by simp [hx])⟩,
          l0 s (by simp), Or.inl ⟨rfl, b0, by simp only; rw [k1]; exact b3⟩⟩

/-- The function that looks, except for the step back. -/
theorem look_ok {d : Ds T} {w : Window T} (h : Sees E d w) (t : T) :
    (w.look E.min t = .back ∧ t < w.s0.epoch ∧ Ds.hunt1 E t d = if t < d.a.first then .ok (some (-4, d)) else .ok none) ∨
    (∃ i d', Ds.hunt1 E t d = .ok (some (i, d')) ∧ d'.a = d.a ∧ d'.dir = d.dir ∧ (w.look E.min t).Index E d' i) := by
  have he := eof_iff h
  have i0 := h.inv.b0
  have i1 := h.inv.b1
  have i2 := h.inv.b2
  unfold Ds.hunt1 Window.look
  rw [i0.1, i1.1, i2.1, he]
  by_cases c0 : w.s0.epoch ≤ t ∧ t < w.s1.epoch
  · rw [if_pos c0, if_pos c0]
    exact Or.inr ⟨0, d, rfl, rfl, rfl, h, c0.1.trans_lt c0.2, Or.inl ⟨rfl, i0, i1⟩⟩
  rw [if_neg c0, if_neg c0]
  by_cases c1 : w.s1.epoch ≤ t ∧ t < w.s2.epoch
  · rw [if_pos c1, if_pos c1]
    exact Or.inr ⟨1, d, rfl, rfl, rfl, h, c1.1.trans_lt c1.2, Or.inr ⟨rfl, i1, i2⟩⟩
  rw [if_neg c1, if_neg c1]
  have key : ¬ t < w.s0.epoch → w.s2.epoch ≤ t := fun hb =>
    not_lt.mp fun hh => c1 ⟨not_lt.mp fun h' => c0 ⟨not_lt.mp hb, h'⟩, hh⟩
  cases hr : w.rest with
  | nil =>
    simp only [decide_true, Bool.true_eq_false, and_false, if_false]
    by_cases hb : t < w.s0.epoch
    · rw [if_pos hb, if_pos hb]
      exact Or.inl ⟨rfl, hb, rfl⟩
    · rw [if_neg hb, if_neg hb, if_pos ⟨key hb, trivial⟩]
      exact Or.inr ⟨_, d, rfl, rfl, rfl, h, hr, rfl⟩
  | cons s rest =>
    simp only [reduceCtorEq, decide_false, and_true]
    by_cases h2 : w.s2.epoch ≤ t
    · rw [if_pos h2, if_pos h2]
      obtain ⟨i, d', e, f⟩ := forward_ok h hr h2
      rw [e]
      exact Or.inr ⟨i, d', rfl, f⟩
    · have hb : t < w.s0.epoch := not_le.mp fun hh => h2 (key (not_lt.mpr hh))
      rw [if_neg h2, if_neg h2, if_pos hb]
      exact Or.inl ⟨rfl, hb, rfl⟩

theorem sees_start {d : Ds T} {x0 x1 x2 x3 : DataSet T} {xs : List (DataSet T)} (hi : Inv E d x0 x1 x2 (x3 :: xs))
    (hx : Chron E.min (x0 :: x1 :: x2 :: x3 :: xs)) : Sees E d ⟨x0, x1, x2, x3 :: xs⟩ := by
  obtain ⟨hp, hm⟩ := hx
  rw [List.pairwise_cons, List.pairwise_cons, List.pairwise_cons] at hp
  exact ⟨hi, hp.2.2.2, fun s hs => hp.1 s (by simp [List.mem_cons.mp hs]), fun s hs => hp.2.1 s (by simp [List.mem_cons.mp hs]),
    fun s hs => hp.2.2.1 s hs, fun s hs => hm s (by simp [List.mem_cons.mp hs])⟩

theorem four {sets : List (DataSet T)} (h : 4 ≤ sets.length) : ∃ x0 x1 x2 x3 xs, sets = x0 :: x1 :: x2 :: x3 :: xs := by
  rcases sets with _ | ⟨x0, _ | ⟨x1, _ | ⟨x2, _ | ⟨x3, xs⟩⟩⟩⟩
  all_goals first | (simp at h; done) | exact ⟨_, _, _, _, _, rfl⟩

/-- The file that is open: its data sets, at least four, in order; its header has the first epoch. -/
structure Open (E : Env T) (a : Aod T) (sets : List (DataSet T)) : Prop where
  file : FileOf E.date E.ty a sets
  four : 4 ≤ sets.length
  chron : Chron E.min sets
  first : ∀ s ∈ sets.head?, a.first = s.epoch

/-- The function that looks. -/
theorem seek_ok {d : Ds T} {w : Window T} {sets : List (DataSet T)} (h : Sees E d w) (hf : Open E d.a sets) (t : T) :
    ∃ i d', Ds.hunt E t d = .ok (i, d') ∧ d'.a = d.a ∧ d'.dir = d.dir ∧ (w.seek E.min sets t).Index E d' i := by
  obtain ⟨x0, x1, x2, x3, xs, rfl⟩ := four hf.four
  have hfirst := hf.first x0 (by simp)
  have hseek : w.seek E.min (x0 :: x1 :: x2 :: x3 :: xs) t = match w.look E.min t with
      | .back => if t < x0.epoch then .refused w else Window.look E.min ⟨x0, x1, x2, x3 :: xs⟩ t
      | r => r := by
    unfold Window.seek Window.top
    cases w.look E.min t <;> rfl
  rw [hseek]
  unfold Ds.hunt
  rcases look_ok h t with ⟨hl, hb, e⟩ | ⟨i, d', e, ha, hd, hi⟩
  · rw [hl, e, hfirst]
    by_cases c : t < x0.epoch
    · simp only [if_pos c, Res.bind]
      exact ⟨_, d, rfl, rfl, rfl, h, by omega, by omega⟩
    · simp only [if_neg c, Res.bind]
      obtain ⟨d1, e1, hi1, ha1, hd1⟩ := init_inv hf.file h.inv.b0.2.1 h.inv.b1.2.1 h.inv.b2.2.1
      rw [if_neg (by simp)] at e1
      simp only [e1, ne_eq, not_true, if_false]
      rcases look_ok (sees_start hi1 hf.chron) t with ⟨-, hb', -⟩ | ⟨i, d', e, ha, hd, hi⟩
      · exact absurd hb' c
      · rw [e]
        exact ⟨i, d', rfl, ha.trans ha1, hd.trans hd1, hi⟩
  · rw [e]
    refine ⟨i, d', rfl, ha, hd, ?_⟩
    revert hi
    cases w.look E.min t with
    | back => exact fun hh => hh.elim
    | _ => exact id

/-- Nothing in the window fails `P`. -/
def Window.All (P : DataSet T → Prop) (w : Window T) : Prop := P w.s0 ∧ P w.s1 ∧ P w.s2 ∧ ∀ s ∈ w.rest, P s

/-- Nothing that is found or left after a look fails `P`. -/
def Look.All (P : DataSet T → Prop) : Look T → Prop
  | .found a b w => P a ∧ P b ∧ w.All P
  | .refused w | .ended w => w.All P
  | .back => True

theorem look_all {P : DataSet T → Prop} {min : T} (hm : ∀ s, P s → P { s with epoch := min }) {w : Window T} (h : w.All P) (t : T) :
    (w.look min t).All P := by
  obtain ⟨h0, h1, h2, hr⟩ := h
  unfold Window.look
  by_cases c0 : w.s0.epoch ≤ t ∧ t < w.s1.epoch
  · rw [if_pos c0]; exact ⟨h0, h1, h0, h1, h2, hr⟩
  rw [if_neg c0]
  by_cases c1 : w.s1.epoch ≤ t ∧ t < w.s2.epoch
  · rw [if_pos c1]; exact ⟨h1, h2, h0, h1, h2, hr⟩
  rw [if_neg c1]
  cases hw : w.rest with
  | nil =>
    dsimp only
    split_ifs
    · trivial
    · exact ⟨h0, h1, h2, hr⟩
  | cons s rest =>
    rw [hw] at hr
    dsimp only
    by_cases c2 : w.s2.epoch ≤ t
    · rw [if_pos c2]
      unfold Window.forward
      have hs := hr s (by simp)
      by_cases c3 : t < s.epoch
      · rw [if_pos c3]; exact ⟨h2, hs, h1, h2, hs, fun x hx => hr x (by simp [hx])⟩
      rw [if_neg c3]
      by_cases c4 : t = s.epoch
      · rw [if_pos c4]
        refine ⟨?_, h1, h2, by simp⟩
        show P (rest.getLastD s)
        cases hl : rest.getLast? with
        | none => rw [List.getLastD_eq_getLast?, hl]; exact hs
        | some x => rw [List.getLastD_eq_getLast?, hl]; exact hr x (List.mem_cons_of_mem _ (List.mem_of_getLast? hl))
      rw [if_neg c4]
      cases rest with
      | nil => exact ⟨h0, hs, h0, hs, hm _ h2, by simp⟩
      | cons s' rest => exact ⟨h0, hs, h0, hs, hr s' (by simp), fun x hx => hr x (by simp [hx])⟩
    · rw [if_neg c2]; trivial

theorem top_all {P : DataSet T → Prop} {sets : List (DataSet T)} (hs : ∀ s ∈ sets, P s) {w : Window T} (h0 : Window.top sets = some w) : w.All P := by
  rcases sets with _ | ⟨x0, _ | ⟨x1, _ | ⟨x2, xs⟩⟩⟩
  all_goals simp [Window.top] at h0
  subst h0
  exact ⟨hs _ (by simp), hs _ (by simp), hs _ (by simp), fun s hx => hs _ (by simp [hx])⟩

theorem seek_all {P : DataSet T → Prop} {min : T} (hm : ∀ s, P s → P { s with epoch := min }) {w : Window T} (h : w.All P) {sets : List (DataSet T)}
    (hs : ∀ s ∈ sets, P s) (t : T) : (w.seek min sets t).All P := by
  have hl := look_all hm h t
  unfold Window.seek
  cases h0 : Window.top sets with
  | none => revert hl; cases w.look min t <;> exact id
  | some w0 =>
    revert hl
    cases w.look min t with
    | back =>
      intro _
      dsimp only
      split_ifs
      · exact h
      · exact look_all hm (top_all hs h0) t
    | _ => exact id

/-- The data set found first is not after the query. -/
def Look.Before (t : T) : Look T → Prop
  | .found a _ _ => a.epoch ≤ t
  | _ => True

theorem look_before {w : Window T} {min : T} (h : ∀ s ∈ w.rest, w.s0.epoch < s.epoch) (t : T) : (w.look min t).Before t := by
  unfold Window.look
  by_cases c0 : w.s0.epoch ≤ t ∧ t < w.s1.epoch
  · rw [if_pos c0]; exact c0.1
  rw [if_neg c0]
  by_cases c1 : w.s1.epoch ≤ t ∧ t < w.s2.epoch
  · rw [if_pos c1]; exact c1.1
  rw [if_neg c1]
  cases hw : w.rest with
  | nil => dsimp only; split_ifs <;> trivial
  | cons s rest =>
    rw [hw] at h
    dsimp only
    by_cases c2 : w.s2.epoch ≤ t
    · rw [if_pos c2]
      unfold Window.forward
      by_cases c3 : t < s.epoch
      · rw [if_pos c3]; exact c2
      rw [if_neg c3]
      by_cases c4 : t = s.epoch
      · rw [if_pos c4]; trivial
      rw [if_neg c4]
      have : w.s0.epoch ≤ t := ((h s (by simp)).trans_le (not_lt.mp c3)).le
      cases rest <;> exact this
    · rw [if_neg c2]; trivial

theorem seek_before {w : Window T} {min : T} (h : ∀ s ∈ w.rest, w.s0.epoch < s.epoch) {sets : List (DataSet T)} (hc : Chron min sets) (t : T) :
    (w.seek min sets t).Before t := by
  have hl := look_before (min := min) h t
  unfold Window.seek
  cases h0 : Window.top sets with
  | none => revert hl; cases w.look min t <;> exact id
  | some w0 =>
    revert hl
    cases w.look min t with
    | back =>
      intro _
      dsimp only
      split_ifs
      · trivial
      · refine look_before ?_ t
        rcases sets with _ | ⟨x0, _ | ⟨x1, _ | ⟨x2, xs⟩⟩⟩
        all_goals simp [Window.top] at h0
        subst h0
        exact fun s hs => (List.pairwise_cons.mp hc.1).1 s (by simp [hs])
    | _ => exact id

/-- A window on a single file: only the third data set may be marked, and only at the end. -/
structure Window.One (min : T) (sets : List (DataSet T)) (w : Window T) : Prop where
  m0 : w.s0 ∈ sets
  m1 : w.s1 ∈ sets
  m2 : w.s2 ∈ sets ∨ w.s2.epoch = min ∧ w.rest = []
  mr : ∀ s ∈ w.rest, s ∈ sets

/-- The data sets found are in the file. -/
def Look.One (min : T) (sets : List (DataSet T)) : Look T → Prop
  | .found a b w => a ∈ sets ∧ b ∈ sets ∧ w.One min sets
  | .refused w | .ended w => w.One min sets
  | .back => True

theorem look_one {min : T} {sets : List (DataSet T)} (hc : Chron min sets) {w : Window T} (h : w.One min sets) (t : T) : (w.look min t).One min sets := by
  obtain ⟨h0, h1, h2, hr⟩ := h
  unfold Window.look
  by_cases c0 : w.s0.epoch ≤ t ∧ t < w.s1.epoch
  · rw [if_pos c0]; exact ⟨h0, h1, h0, h1, h2, hr⟩
  rw [if_neg c0]
  by_cases c1 : w.s1.epoch ≤ t ∧ t < w.s2.epoch
  · rw [if_pos c1]
    rcases h2 with h2 | ⟨h2, h3⟩
    · exact ⟨h1, h2, h0, h1, Or.inl h2, hr⟩
    · rw [h2] at c1
      exact absurd ((hc.2 _ h1).trans_le c1.1) (not_lt.mpr c1.2.le)
  rw [if_neg c1]
  cases hw : w.rest with
  | nil =>
    dsimp only
    split_ifs
    · trivial
    · exact ⟨h0, h1, h2, hr⟩
  | cons s rest =>
    rw [hw] at hr h2
    have h2 : w.s2 ∈ sets := by rcases h2 with h2 | ⟨-, h2⟩; exacts [h2, by simp at h2]
    dsimp only
    by_cases c2 : w.s2.epoch ≤ t
    · rw [if_pos c2]
      unfold Window.forward
      have hs := hr s (by simp)
      by_cases c3 : t < s.epoch
      · rw [if_pos c3]; exact ⟨h2, hs, h1, h2, Or.inl hs, fun x hx => hr x (by simp [hx])⟩
      rw [if_neg c3]
      by_cases c4 : t = s.epoch
      · rw [if_pos c4]
        refine ⟨?_, h1, Or.inl h2, by simp⟩
        show rest.getLastD s ∈ sets
        cases hl : rest.getLast? with
        | none => rw [List.getLastD_eq_getLast?, hl]; exact hs
        | some x => rw [List.getLastD_eq_getLast?, hl]; exact hr x (List.mem_cons_of_mem _ (List.mem_of_getLast? hl))
      rw [if_neg c4]
      cases rest with
      | nil => exact ⟨h0, hs, h0, hs, Or.inr ⟨rfl, rfl⟩, by simp⟩
      | cons s' rest => exact ⟨h0, hs, h0, hs, Or.inl (hr s' (by simp)), fun x hx => hr x (by simp [hx])⟩
    · rw [if_neg c2]; trivial

theorem seek_one {min : T} {sets : List (DataSet T)} (hc : Chron min sets) {w : Window T} (h : w.One min sets) (t : T) :
    (w.seek min sets t).One min sets := by
  have hl := look_one hc h t
  unfold Window.seek
  cases h0 : Window.top sets with
  | none => revert hl; cases w.look min t <;> exact id
  | some w0 =>
    revert hl
    cases w.look min t with
    | back =>
      intro _
      dsimp only
      split_ifs
      · exact h
      · obtain ⟨a, b, c, d⟩ := top_all (P := fun s => s ∈ sets) (fun _ hs => hs) h0
        exact look_one hc ⟨a, b, Or.inl c, d⟩ t
    | _ => exact id

/-- The stream stands as the desk says. -/
structure Keeps (E : Env T) (d : Ds T) (k : Desk T) : Prop where
  sees : Sees E d k.w
  opened : Open E d.a k.file
  more : d.dir = true ∧ Series E.date E.ty E.feed d.a k.later ∨ d.dir = false ∧ k.later = []
  chron : Chron E.min (k.file ++ k.later.flatten)
  below : k.w.All fun s => ∀ s' ∈ k.later.flatten, s.epoch < s'.epoch

omit [LinearOrder T] in
/-- Opening the next file. -/
theorem feed_ok {d : Ds T} {s0 s1 s2 : DataSet T} {fut : List (DataSet T)} (h : Inv E d s0 s1 s2 fut) {a : Aod T}
    (hfeed : E.feed d.a = .ok (some a)) {x0 x1 : DataSet T} {xs : List (DataSet T)} (hfile : FileOf E.date E.ty a (x0 :: x1 :: xs))
    (hsame : a.maxDegree = d.a.maxDegree) :
    ∃ d', Ds.feedNext E d = .ok (0, d') ∧ Inv E d' s1 s2 x0 (x1 :: xs) ∧ d'.a = a ∧ d'.dir = d.dir := by
  have hn : 0 ≤ a.maxDegree := by rw [hsame]; exact h.n
  obtain ⟨it1, e1, a1⟩ := begin_ok hfile (by simp) ⟨In.start a.text, d.it.hdr⟩
  obtain ⟨it2, c2, e2, k2, a2, b2⟩ := coll_ok hn a1 (c := d.c0) (by rw [hsame]; exact h.b0.2.1)
  obtain ⟨it3, e3, a3⟩ := adv_ok a2
  rw [if_neg (by simp)] at e3
  unfold Ds.feedNext
  simp only [hfeed, Res.bind, e1, e2, e3, ne_eq, not_true, if_false]
  exact ⟨_, rfl, ⟨hn, by simp only; rw [hsame]; exact h.b1, by simp only; rw [hsame]; exact h.b2, by simp only; rw [k2]; exact b2, a3⟩, rfl, rfl⟩

/-- The end of a query that found two data sets. -/
theorem at_found (hday : StrictMono E.day) {d : Ds T} {i : Int} {s1 s2 : DataSet T} {w : Window T} (hf : (Look.found s1 s2 w).Index E d i) {t : T}
    {cs : Coeffs ℝ} (hfit : Fits d.a.maxDegree cs) :
    0 ≤ i ∧ ∃ cs', Ds.atIndex E t i d cs = .ok (0, d, cs') ∧ OnLine E.day d.a.maxDegree t s1 s2 cs cs' := by
  obtain ⟨-, hlt, ⟨rfl, b1, b2⟩ | ⟨rfl, b1, b2⟩⟩ := hf
  · obtain ⟨cs', e, hl⟩ := interp_ok (t := t) b1 b2 hfit (hday hlt).ne
    refine ⟨by omega, cs', ?_, hl⟩
    unfold Ds.atIndex
    rw [if_pos rfl, e]; rfl
  · obtain ⟨cs', e, hl⟩ := interp_ok (t := t) b1 b2 hfit (hday hlt).ne
    refine ⟨by omega, cs', ?_, hl⟩
    unfold Ds.atIndex
    rw [if_neg (by omega), if_pos rfl, e]; rfl

/-- `coefficients_at` does not need the checks before `hunt_range`. -/
theorem coeffsAt_hunt {t : T} {d : Ds T} {cs : Coeffs ℝ} : Ds.coeffsAt E t d cs = (Ds.hunt E t d).bind fun (i, d) =>
    if 0 ≤ i then Ds.atIndex E t i d cs
    else if i = -100 ∧ d.dir = true then
      (Ds.feedNext E d).bind fun (j, d) =>
      if j ≠ 0 then .ok (1, d, cs)
      else (Ds.hunt E t d).bind fun (i, d) => if i < 0 then .ok (1, d, cs) else Ds.atIndex E t i d cs
    else .ok (1, d, cs) := by
  unfold Ds.coeffsAt
  by_cases c0 : d.h0.epoch ≤ t ∧ t < d.h1.epoch
  · have : Ds.hunt E t d = .ok (0, d) := by
      unfold Ds.hunt Ds.hunt1; rw [if_pos c0]; rfl
    rw [if_pos c0, this]
    simp only [Res.bind]
    rw [if_pos (by omega)]
  · rw [if_neg c0]
    by_cases c1 : d.h1.epoch ≤ t ∧ t < d.h2.epoch
    · have : Ds.hunt E t d = .ok (1, d) := by
        unfold Ds.hunt Ds.hunt1; rw [if_neg c0, if_pos c1]; rfl
      rw [if_pos c1, this]
      simp only [Res.bind]
      rw [if_pos (by omega)]
    · rw [if_neg c1]

/-- A query in any state. -/
theorem query_any (hday : StrictMono E.day) {d : Ds T} {k : Desk T} (h : Keeps E d k) {t : T} {cs : Coeffs ℝ} (hfit : Fits d.a.maxDegree cs) :
    ∃ r d', Ds.coeffsAt E t d cs = .ok (r.1, d', r.2) ∧ d'.a.maxDegree = d.a.maxDegree ∧ Answered E.day d.a.maxDegree (t, cs) r (k.answer E.min t).1 ∧
      Keeps E d' (k.answer E.min t).2 := by
  obtain ⟨hs, ho, hm, hc, hb⟩ := h
  rw [coeffsAt_hunt]
  have hmin : ∀ s ∈ k.later.flatten, E.min < s.epoch := fun s hs => hc.2 s (by simp only [List.mem_append]; exact Or.inr hs)
  have hfl : ∀ s ∈ k.file, ∀ s' ∈ k.later.flatten, s.epoch < s'.epoch := fun s hs s' hs' =>
    (List.pairwise_append.mp hc.1).2.2 s hs s' hs'
  have hall := seek_all (P := fun s => ∀ s' ∈ k.later.flatten, s.epoch < s'.epoch) (min := E.min) (fun _ _ => hmin) hb hfl t
  obtain ⟨i, d1, e, ha, hd, hi⟩ := seek_ok hs ho t
  have hbf := seek_before (min := E.min) hs.later0 ho.chron t
  simp only [e, Res.bind]
  have hm1 : d1.dir = true ∧ Series E.date E.ty E.feed d1.a k.later ∨ d1.dir = false ∧ k.later = [] := by rw [hd, ha]; exact hm
  have ho1 : Open E d1.a k.file := by rw [ha]; exact ho
  unfold Desk.answer
  cases hk : k.w.seek E.min k.file t with
  | back => rw [hk] at hi; exact hi.elim
  | found s1 s2 w =>
    rw [hk] at hi hall hbf
    obtain ⟨h0, cs', e2, hl⟩ := at_found hday hi (t := t) (cs := cs) (by rw [ha]; exact hfit)
    rw [if_pos h0, e2]
    exact ⟨(0, cs'), d1, rfl, by rw [ha], ⟨rfl, hbf, hi.2.1, by rw [← ha]; exact hl⟩, hi.1, ho1, hm1, hc, hall.2.2⟩
  | refused w =>
    rw [hk] at hi hall
    rw [if_neg (by have := hi.2.1; omega), if_neg (fun hh => hi.2.2 hh.1)]
    exact ⟨(1, cs), d1, rfl, by rw [ha], ⟨rfl, rfl⟩, hi.1, ho1, hm1, hc, hall⟩
  | ended w =>
    rw [hk] at hi hall
    obtain ⟨hi1, hi2, rfl⟩ := hi
    rw [if_neg (by omega)]
    rcases hm1 with ⟨hdir, hser⟩ | ⟨hdir, hlat⟩
    · rw [if_pos ⟨rfl, hdir⟩]
      obtain ⟨kf, kw, kl⟩ := k
      simp only at hser hall hc hk ho1 hmin hfl ⊢
      cases hser with
      | last hfeed =>
        have : Ds.feedNext E d1 = .ok (2, d1) := by unfold Ds.feedNext; simp only [hfeed, Res.bind]
        simp only [this]
        rw [if_pos (by omega)]
        exact ⟨(1, cs), d1, rfl, by rw [ha], ⟨rfl, rfl⟩, hi1, ho1, Or.inl ⟨hdir, .last hfeed⟩, hc, hall⟩
      | @next _ a' sets later hfeed hfile h4 hfirst hsame hser =>
        obtain ⟨x0, x1, x2, x3, xs, rfl⟩ := four h4
        obtain ⟨d2, e2, hi3, ha2, hd2⟩ := feed_ok hi1.inv hfeed hfile hsame
        simp only [e2]
        rw [if_neg (by simp)]
        have hc1 : Chron E.min ((x0 :: x1 :: x2 :: x3 :: xs) ++ later.flatten) := by
          refine ⟨(List.pairwise_append.mp hc.1).2.1, fun s hs => hc.2 s ?_⟩
          simp only [List.flatten_cons, List.mem_append] at hs ⊢
          exact Or.inr hs
        have hc2 : Chron E.min (x0 :: x1 :: x2 :: x3 :: xs) :=
          ⟨(List.pairwise_append.mp hc1.1).1, fun s hs => hc1.2 s (List.mem_append_left _ hs)⟩
        have hopen : Open E d2.a (x0 :: x1 :: x2 :: x3 :: xs) := by rw [ha2]; exact ⟨hfile, h4, hc2, hfirst⟩
        obtain ⟨w0, w1, w2, -⟩ := hall
        have hin : ∀ s, s ∈ x1 :: x2 :: x3 :: xs → s ∈ (List.flatten ((x0 :: x1 :: x2 :: x3 :: xs) :: later)) := fun s hs => by
          rw [List.flatten_cons]; exact List.mem_append_left _ (List.mem_cons_of_mem _ hs)
        have hin2 : ∀ s, s ∈ later.flatten → s ∈ (List.flatten ((x0 :: x1 :: x2 :: x3 :: xs) :: later)) := fun s hs => by
          rw [List.flatten_cons]; exact List.mem_append_right _ hs
        have hp := List.pairwise_cons.mp hc2.1
        have hs2 : Sees E d2 ⟨w.s1, w.s2, x0, x1 :: x2 :: x3 :: xs⟩ :=
          ⟨hi3, hp.2, fun s hs => w1 s (hin s hs), fun s hs => w2 s (hin s hs), fun s hs => hp.1 s hs, fun s hs => hc2.2 s (List.mem_cons_of_mem _ hs)⟩
        have hcross := (List.pairwise_append.mp hc1.1).2.2
        have hall2 := seek_all (P := fun s => ∀ s' ∈ later.flatten, s.epoch < s'.epoch) (min := E.min) (fun _ _ s hs => hmin s (hin2 s hs))
          (w := ⟨w.s1, w.s2, x0, x1 :: x2 :: x3 :: xs⟩)
          ⟨fun s hs => w1 s (hin2 s hs), fun s hs => w2 s (hin2 s hs), fun s hs => hcross x0 (by simp) s hs,
            fun s' hs' s hs => hcross s' (List.mem_cons_of_mem _ hs') s hs⟩ (sets := x0 :: x1 :: x2 :: x3 :: xs) (fun s' hs' s hs => hcross s' hs' s hs) t
        obtain ⟨i, d3, e3, ha3, hd3, hi4⟩ := seek_ok hs2 hopen t
        have hbf2 := seek_before (min := E.min) hs2.later0 hopen.chron t
        simp only [e3]
        have hm3 : d3.dir = true ∧ Series E.date E.ty E.feed d3.a later ∨ d3.dir = false ∧ later = [] :=
          Or.inl ⟨by rw [hd3, hd2, hdir], by rw [ha3, ha2]; exact hser⟩
        have hn : d3.a.maxDegree = d.a.maxDegree := by rw [ha3, ha2, hsame, ha]
        have ho3 : Open E d3.a (x0 :: x1 :: x2 :: x3 :: xs) := by rw [ha3]; exact hopen
        cases hk2 : Window.seek E.min (x0 :: x1 :: x2 :: x3 :: xs) ⟨w.s1, w.s2, x0, x1 :: x2 :: x3 :: xs⟩ t with
        | back => rw [hk2] at hi4; exact hi4.elim
        | found s1 s2 w' =>
          rw [hk2] at hi4 hall2 hbf2
          obtain ⟨h0, cs', e4, hl⟩ := at_found hday hi4 (t := t) (cs := cs) (by rw [hn]; exact hfit)
          rw [if_neg (by omega), e4]
          exact ⟨(0, cs'), d3, rfl, hn, ⟨rfl, hbf2, hi4.2.1, by rw [← hn]; exact hl⟩, hi4.1, ho3, hm3, hc1, hall2.2.2⟩
        | refused w' =>
          rw [hk2] at hi4 hall2
          rw [if_pos hi4.2.1]
          exact ⟨(1, cs), d3, rfl, hn, ⟨rfl, rfl⟩, hi4.1, ho3, hm3, hc1, hall2⟩
        | ended w' =>
          rw [hk2] at hi4 hall2
          rw [if_pos (by rw [hi4.2.2]; omega)]
          exact ⟨(1, cs), d3, rfl, hn, ⟨rfl, rfl⟩, hi4.1, ho3, hm3, hc1, hall2⟩
    · rw [if_neg (fun hh => by rw [hdir] at hh; simp at hh)]
      obtain ⟨kf, kw, kl⟩ := k
      simp only at hlat hall hc hk ho1 ⊢
      subst hlat
      exact ⟨(1, cs), d1, rfl, by rw [ha], ⟨rfl, rfl⟩, hi1, ho1, Or.inr ⟨hdir, rfl⟩, hc, hall⟩

theorem history_run (hday : StrictMono E.day) : ∀ (qs : List (T × Coeffs ℝ)) (d : Ds T) (k : Desk T), Keeps E d k →
      (∀ q ∈ qs, Fits d.a.maxDegree q.2) →
      ∃ rs d', Ds.run E qs d = .ok (rs, d') ∧ rs.length = qs.length ∧
        List.Forall₂ (fun (qr : (T × Coeffs ℝ) × (Int × Coeffs ℝ)) ans => Answered E.day d.a.maxDegree qr.1 qr.2 ans) (qs.zip rs)
          (k.answers E.min (qs.map Prod.fst))
  | [], d, _, _, _ => ⟨[], d, rfl, rfl, .nil⟩
  | (t, cs) :: qs, d, k, h, hq => by
    obtain ⟨r, d1, e, ha, hr, hs⟩ := query_any hday h (t := t) (hq (t, cs) (by simp))
    obtain ⟨rs, d', e2, hl, hrs⟩ := history_run hday qs d1 _ hs (fun q hq' => by rw [ha]; exact hq q (by simp [hq']))
    refine ⟨r :: rs, d', ?_, by simp [hl], ?_⟩
    · rw [Ds.run]
      simp only [e, Res.bind, e2]
    · rw [ha] at hrs
      exact .cons hr hrs

/-- The stream after initialisation. -/
theorem keeps_start {d : Ds T} {sets : List (DataSet T)} {later : List (List (DataSet T))} (hfile : FileOf E.date E.ty d.a sets)
    (hlen : 4 ≤ sets.length) (hc : Chron E.min (sets ++ later.flatten)) (hnew : d.New) (hfirst : ∀ s ∈ sets.head?, d.a.first = s.epoch)
    (hmore : d.dir = true ∧ Series E.date E.ty E.feed d.a later ∨ d.dir = false ∧ later = []) :
    ∃ d0 w, Ds.init E d = .ok (0, d0) ∧ d0.a = d.a ∧ Window.top sets = some w ∧ Keeps E d0 ⟨sets, w, later⟩ := by
  obtain ⟨x0, x1, x2, x3, xs, rfl⟩ := four hlen
  obtain ⟨d0, e0, hi, ha, hd⟩ := init_inv hfile hnew.1 hnew.2.1 hnew.2.2
  have hc2 : Chron E.min (x0 :: x1 :: x2 :: x3 :: xs) := ⟨(List.pairwise_append.mp hc.1).1, fun s hs => hc.2 s (List.mem_append_left _ hs)⟩
  refine ⟨d0, _, by simpa using e0, ha, rfl, sees_start hi hc2, by rw [ha]; exact ⟨hfile, hlen, hc2, hfirst⟩, by rw [ha, hd]; exact hmore, hc, ?_⟩
  exact top_all (P := fun s => ∀ s' ∈ later.flatten, s.epoch < s'.epoch) (fun s hs s' hs' => (List.pairwise_append.mp hc.1).2.2 s hs s' hs')
    (sets := x0 :: x1 :: x2 :: x3 :: xs) rfl

/-- What holds of every answer, if it holds of each answer in a state that is kept. -/
theorem answers_all {P : T → Option (DataSet T × DataSet T) → Prop} {K : Desk T → Prop} {min : T}
    (step : ∀ k t, K k → P t (k.answer min t).1 ∧ K (k.answer min t).2) : ∀ (ts : List T) (k : Desk T), K k → List.Forall₂ P ts (k.answers min ts)
  | [], _, _ => .nil
  | t :: ts, k, h => .cons (step k t h).1 (answers_all step ts _ (step k t h).2)

/-- A single file: the answer names two data sets of the file. -/
theorem answer_one {min : T} {sets : List (DataSet T)} (hc : Chron min sets) (k : Desk T) (t : T)
    (h : k.file = sets ∧ k.later = [] ∧ k.w.One min sets) :
    (∀ a b, (k.answer min t).1 = some (a, b) → a ∈ sets ∧ b ∈ sets) ∧
      ((k.answer min t).2.file = sets ∧ (k.answer min t).2.later = [] ∧ (k.answer min t).2.w.One min sets) := by
  obtain ⟨kf, kw, kl⟩ := k
  obtain ⟨rfl, rfl, h⟩ := h
  have hs := seek_one hc h t
  unfold Desk.answer
  simp only at hs hc ⊢
  cases hk : kw.seek min kf t with
  | found a b w =>
    rw [hk] at hs
    refine ⟨fun a' b' hh => ?_, rfl, rfl, hs.2.2⟩
    obtain ⟨rfl, rfl⟩ := Prod.mk.inj (Option.some.inj hh)
    exact ⟨hs.1, hs.2.1⟩
  | refused w => rw [hk] at hs; exact ⟨fun a b hh => by simp at hh, rfl, rfl, hs⟩
  | ended w => rw [hk] at hs; exact ⟨fun a b hh => by simp at hh, rfl, rfl, hs⟩
  | back => exact ⟨fun a b hh => by simp at hh, rfl, rfl, h⟩

/-- A series of files: the answer names two data sets of the files, or that were marked. -/
theorem answer_origin {min : T} {all : List (DataSet T)} (k : Desk T) (t : T)
    (h : (∀ s ∈ k.file, s ∈ all) ∧ (∀ f ∈ k.later, ∀ s ∈ f, s ∈ all) ∧ k.w.All (Origin min all)) :
    (∀ a b, (k.answer min t).1 = some (a, b) → Origin min all a ∧ Origin min all b) ∧
      ((∀ s ∈ (k.answer min t).2.file, s ∈ all) ∧ (∀ f ∈ (k.answer min t).2.later, ∀ s ∈ f, s ∈ all) ∧ (k.answer min t).2.w.All (Origin min all)) := by
  have mark : ∀ s : DataSet T, Origin min all s → Origin min all { s with epoch := min } := by
    rintro s (hs | ⟨-, s', hs', e⟩)
    · exact Or.inr ⟨rfl, s, hs, rfl⟩
    · exact Or.inr ⟨rfl, s', hs', e⟩
  obtain ⟨kf, kw, kl⟩ := k
  obtain ⟨h1, h2, h⟩ := h
  have hs := seek_all mark h (fun s hs => Or.inl (h1 s hs)) t
  unfold Desk.answer
  simp only at hs h1 h2 h ⊢
  cases hk : kw.seek min kf t with
  | found a b w =>
    rw [hk] at hs
    refine ⟨fun a' b' hh => ?_, h1, h2, hs.2.2⟩
    obtain ⟨rfl, rfl⟩ := Prod.mk.inj (Option.some.inj hh)
    exact ⟨hs.1, hs.2.1⟩
  | refused w => rw [hk] at hs; exact ⟨fun a b hh => by simp at hh, h1, h2, hs⟩
  | back => exact ⟨fun a b hh => by simp at hh, h1, h2, h⟩
  | ended w =>
    rw [hk] at hs
    match kl with
    | [] => exact ⟨fun a b hh => by simp at hh, h1, h2, hs⟩
    | [] :: _ => exact ⟨fun a b hh => by simp at hh, h1, h2, hs⟩
    | (x :: rest) :: later =>
      have hx : ∀ s ∈ x :: rest, s ∈ all := h2 _ (by simp)
      have hl : ∀ f ∈ later, ∀ s ∈ f, s ∈ all := fun f hf => h2 f (by simp [hf])
      obtain ⟨-, w1, w2, -⟩ := hs
      have hs2 := seek_all mark (w := ⟨w.s1, w.s2, x, rest⟩) ⟨w1, w2, Or.inl (hx x (by simp)), fun s hs => Or.inl (hx s (by simp [hs]))⟩
        (sets := x :: rest) (fun s hs => Or.inl (hx s hs)) t
      simp only
      cases hk2 : Window.seek min (x :: rest) ⟨w.s1, w.s2, x, rest⟩ t with
      | found a b w =>
        rw [hk2] at hs2
        refine ⟨fun a' b' hh => ?_, hx, hl, hs2.2.2⟩
        obtain ⟨rfl, rfl⟩ := Prod.mk.inj (Option.some.inj hh)
        exact ⟨hs2.1, hs2.2.1⟩
      | refused w => rw [hk2] at hs2; exact ⟨fun a b hh => by simp at hh, hx, hl, hs2⟩
      | ended w => rw [hk2] at hs2; exact ⟨fun a b hh => by simp at hh, hx, hl, hs2⟩
      | back => exact ⟨fun a b hh => by simp at hh, h1, h2, h⟩

end Verif.Aod1b
