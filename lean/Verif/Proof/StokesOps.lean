import Verif.Proof.Stokes
/- Per-operation lemmas for Stokes coefficient sets. -/
namespace Verif.Stokes
open Verif Storage MatrixExpr

variable {α : Type}

theorem put_obj (s : S α) (k d o : Nat) (c t : St × List α) (i : Nat) :
    (s.put k d o c t).obj i = if i = k then some (d, o) else s.obj i := rfl

theorem put_C (s : S α) (k d o : Nat) (c t : St × List α) : (s.put k d o c t).env (2 * k) = c := by
  simp only [S.put, Env.set]
  rw [if_neg (by omega), if_pos trivial]

theorem put_S (s : S α) (k d o : Nat) (c t : St × List α) : (s.put k d o c t).env (2 * k + 1) = t := by
  simp [S.put, Env.set]

theorem put_other (s : S α) (k d o : Nat) (c t : St × List α) {y : Nat} (h1 : y ≠ 2 * k)
    (h2 : y ≠ 2 * k + 1) : (s.put k d o c t).env y = s.env y := by
  simp [S.put, Env.set, h1, h2]

theorem put_consistent {s : S α} (h : Consistent s) {k d o : Nat} {c t : St × List α} (ho : o ≤ d)
    (hc : MatOk c d) (ht : MatOk t d) : Consistent (s.put k d o c t) := by
  intro i di oi hi
  rw [put_obj] at hi
  by_cases hik : i = k
  · subst hik
    rw [if_pos rfl] at hi
    injection hi with hi
    injection hi with h1 h2
    subst h1 h2
    exact ⟨ho, d, o, by simp [put_obj], by rw [put_C]; exact hc, by rw [put_S]; exact ht⟩
  · rw [if_neg hik] at hi
    obtain ⟨h1, d', o', h2, h3, h4⟩ := h i di oi hi
    rw [hi] at h2; injection h2 with h2; injection h2 with h2 h2'; subst h2 h2'
    refine ⟨h1, di, oi, by simp [put_obj, hik, hi], ?_, ?_⟩
    · rw [put_other _ _ _ _ _ _ (by omega) (by omega)]; exact h3
    · rw [put_other _ _ _ _ _ _ (by omega) (by omega)]; exact h4

theorem tri_matOk (d : Nat) (b : List α) (h : (tri (d + 1)).numElements ≤ b.length) :
    MatOk (tri (d + 1), b) d := ⟨rfl, rfl, Nat.lt_succ_self d, h⟩

theorem junkBuf_length (n : Nat) (junk : Nat → α) : (junkBuf n junk).length = n := by simp [junkBuf]

theorem mresize_matOk (m : St × List α) (d : Nat) (junk : Nat → α) :
    MatOk (mresize m (d + 1) junk) d := by
  unfold mresize
  split
  · exact tri_matOk d _ (by rw [junkBuf_length])
  · exact tri_matOk d _ (by omega)

theorem tri_wf (n : Nat) : (tri n).WF := fun _ => rfl

theorem mcresize_spec {m : St × List α} {d0 : Nat} (h : MatOk m d0) (d : Nat) (junk : Nat → α) :
    ∃ m', mcresize m (d + 1) junk = .ok m' ∧ MatOk m' d ∧ m'.1.rows = d + 1 ∧
      ∀ n j : Int, m.1.HasElement n j → m'.1.HasElement n j →
        m'.2[(m'.1.index n j).toNat]? = m.2[(m.1.index n j).toNat]? := by
  have hw := matOk_wf h
  unfold mcresize
  by_cases hne : d + 1 ≠ m.1.nrows ∨ d + 1 ≠ m.1.ncols
  · rw [if_pos hne]
    obtain ⟨dst, l1, l2, l3⟩ := Matrix.cresizeLoop_spec m.1 (tri (d + 1)) hw (tri_wf _) m.2
      h.2.2.2 (min (tri (d + 1)).numSlices m.1.numSlices) (Nat.min_le_right _ _)
      (Nat.min_le_left _ _) (junkBuf (tri (d + 1)).numElements junk) (by rw [junkBuf_length])
    rw [junkBuf_length] at l2
    refine ⟨(tri (d + 1), dst), by rw [l1]; rfl, tri_matOk d _ (by rw [l2]), rfl, ?_⟩
    intro n j h1 h2
    obtain ⟨a, rfl⟩ := Int.eq_ofNat_of_zero_le h1.1
    obtain ⟨b, rfl⟩ := Int.eq_ofNat_of_zero_le h1.2.2.1
    have q1 := m.1.index_eq hw h1
    have q2 := (tri (d + 1)).index_eq (tri_wf _) h2
    have s1 := m.1.slc_lt hw h1
    have s2 := (tri (d + 1)).slc_lt (tri_wf _) h2
    have m1 := m.1.pos_lt h1
    have m2 := (tri (d + 1)).pos_lt h2
    have es : (tri (d + 1)).slc a b = m.1.slc a b := by unfold St.slc; rw [h.1]; rfl
    have ep : (tri (d + 1)).pos a b = m.1.pos a b := by unfold St.pos; rw [h.1]; rfl
    rw [es, ep] at q2
    rw [es] at s2 m2
    rw [ep] at m2
    have key := l3 _ _ (by omega) m1 m2
    have n1 := m.1.slice_nonneg hw _ (Nat.le_of_lt s1)
    have n2 := (tri (d + 1)).slice_nonneg (tri_wf _) _ (Nat.le_of_lt s2)
    have t1 : (m.1.index a b).toNat = (m.1.slice (m.1.slc a b)).toNat + m.1.pos a b := by
      rw [q1]; omega
    have t2 : ((tri (d + 1)).index a b).toNat =
        ((tri (d + 1)).slice (m.1.slc a b)).toNat + m.1.pos a b := by
      rw [q2]; omega
    simp only
    rw [t1, t2, key]
  · rw [if_neg hne]
    simp only [not_or, Decidable.not_not] at hne
    have : m.1.rows = d + 1 := hne.1.symm
    refine ⟨m, rfl, ⟨h.1, h.2.1, by omega, h.2.2.2⟩, this, ?_⟩
    intros; rfl

theorem mmultiply_matOk [Mul α] {m : St × List α} {d : Nat} (h : MatOk m d) (f : α) :
    MatOk (mmultiply m f) d := by
  refine ⟨h.1, h.2.1, h.2.2.1, ?_⟩
  have := h.2.2.2
  simp only [mmultiply, List.length_append, List.length_map, List.length_take, List.length_drop]
  omega

theorem mcopy_matOk {dst src : St × List α} {d : Nat} (h : MatOk src d) : MatOk (mcopy dst src) d := by
  have := h.2.2.2
  unfold mcopy
  split
  · exact ⟨h.1, h.2.1, h.2.2.1, by simp only [List.length_take]; omega⟩
  · exact ⟨h.1, h.2.1, h.2.2.1, by
      simp only [List.length_append, List.length_take, List.length_drop]; omega⟩

theorem agree_consistent {s : S α} {env' : Env α} {x : Nat} (h : Consistent s)
    (ha : Agree x s.env env') : Consistent ⟨s.obj, env'⟩ := by
  intro i d o hi
  obtain ⟨h1, d', o', h2, h3, h4⟩ := h i d o hi
  exact ⟨h1, d', o', h2, agree_matOk ha h3, agree_matOk ha h4⟩

theorem obj_get {s : S α} {k d o : Nat} (h : s.obj k = some (d, o)) : s.get k = .ok (d, o) := by
  simp [S.get, h]

theorem setCoeff_spec {s : S α} {k b : Nat} {d o d' : Nat} (hk : s.obj k = some (d, o))
    (hm : MatOk (s.env (2 * k + b)) d') {n m : Int} (he : (s.env (2 * k + b)).1.HasElement n m) (v : α) :
    ∃ env', setCoeff s k b n m v = .ok ⟨s.obj, env'⟩ ∧ Agree (2 * k + b) s.env env' ∧
      entry env' (2 * k + b) n m = some v ∧
      ∀ n' m', (s.env (2 * k + b)).1.HasElement n' m' → ¬ (n' = n ∧ m' = m) →
        entry env' (2 * k + b) n' m' = entry s.env (2 * k + b) n' m' := by
  have hw := matOk_wf hm
  have hbd := index_in_bounds _ hw _ _ he
  obtain ⟨u, hu, hr⟩ := entry_of_has hm he
  have hlt : ((s.env (2 * k + b)).1.index n m).toNat < (s.env (2 * k + b)).2.length := by
    have := hm.2.2.2; omega
  refine ⟨s.env.set (2 * k + b) ((s.env (2 * k + b)).1,
    (s.env (2 * k + b)).2.set ((s.env (2 * k + b)).1.index n m).toNat v), ?_, ?_, ?_, ?_⟩
  · simp only [setCoeff, obj_get hk, Res.bind_ok, cell, hr]
  · exact ⟨fun y hy => by simp [Env.set, hy], by simp [Env.set], by simp [Env.set]⟩
  · simp [entry, Env.set, hlt]
  · intro n' m' he' hne
    have hbd' := index_in_bounds _ hw _ _ he'
    simp only [entry, Env.set, if_true]
    rw [List.getElem?_set_ne]
    intro e
    have := index_injective _ hw _ _ _ _ he' he (by omega)
    exact hne this

/-- every legal operation succeeds or is a rejected addition -/
theorem step_total [Add α] [Mul α] [Zero α] {s : S α} (h : Consistent s) {op : Op α} (hp : Pre s op) :
    (∃ k j dk ok dj oj, op = .add k j ∧ s.obj k = some (dk, ok) ∧ s.obj j = some (dj, oj) ∧
      (dk < dj ∨ ok < oj) ∧ step s op = .throw) ∨ ∃ s', step s op = .ok s' ∧ Consistent s' := by
  cases op with
  | construct k n m junk =>
    right
    refine ⟨_, rfl, put_consistent h ?_ (tri_matOk n _ (by rw [junkBuf_length]))
      (tri_matOk n _ (by rw [junkBuf_length]))⟩
    have := hp.2
    split <;> omega
  | resize k d o junk =>
    right
    obtain ⟨⟨p, hk⟩, ho⟩ := hp
    exact ⟨_, by simp only [step, resize, obj_get hk, Res.bind_ok]; rfl,
      put_consistent h ho (mresize_matOk _ _ _) (mresize_matOk _ _ _)⟩
  | cresize k d o junk =>
    right
    obtain ⟨⟨⟨d0, o0⟩, hk⟩, ho⟩ := hp
    obtain ⟨_, d', o', h2, h3, h4⟩ := h k d0 o0 hk
    obtain ⟨c, c1, c2, _⟩ := mcresize_spec h3 d junk
    obtain ⟨t, t1, t2, _⟩ := mcresize_spec h4 d junk
    exact ⟨_, by simp only [step, cresize, obj_get hk, Res.bind_ok, c1, t1]; rfl,
      put_consistent h ho c2 t2⟩
  | shrink k d o =>
    right
    obtain ⟨⟨d0, o0⟩, hk⟩ := hp
    simp only [step, shrink, obj_get hk, Res.bind_ok]
    split
    · next hc =>
      refine ⟨_, rfl, ?_⟩
      intro i di oi hi
      simp only at hi
      by_cases hik : i = k
      · subst hik
        rw [if_pos rfl] at hi
        injection hi with hi; injection hi with e1 e2; subst e1 e2
        obtain ⟨_, d', o', h2, h3, h4⟩ := h i d0 o0 hk
        rw [hk] at h2; injection h2 with h2; injection h2 with e1 e2; subst e1 e2
        exact ⟨hc.1, d, o, by simp, matOk_mono h3 hc.2.1, matOk_mono h4 hc.2.1⟩
      · rw [if_neg hik] at hi
        obtain ⟨h1, d', o', h2, h3, h4⟩ := h i di oi hi
        exact ⟨h1, d', o', by simp [hik, h2], h3, h4⟩
    · exact ⟨_, rfl, h⟩
  | clear k =>
    right
    obtain ⟨⟨d0, o0⟩, hk⟩ := hp
    obtain ⟨h1, d', o', h2, h3, h4⟩ := h k d0 o0 hk
    rw [hk] at h2; injection h2 with h2; injection h2 with e1 e2; subst e1 e2
    refine ⟨_, by simp only [step, clear, obj_get hk, Res.bind_ok]; rfl, put_consistent h h1 ?_ ?_⟩
    · exact ⟨h3.1, h3.2.1, h3.2.2.1, by simpa using h3.2.2.2⟩
    · exact ⟨h4.1, h4.2.1, h4.2.2.1, by simpa using h4.2.2.2⟩
  | scale k f =>
    right
    obtain ⟨⟨d0, o0⟩, hk⟩ := hp
    obtain ⟨h1, d', o', h2, h3, h4⟩ := h k d0 o0 hk
    rw [hk] at h2; injection h2 with h2; injection h2 with e1 e2; subst e1 e2
    simp only [step, scale, obj_get hk, Res.bind_ok]
    split
    · exact ⟨_, rfl, put_consistent h h1 (mmultiply_matOk h3 f) (mmultiply_matOk h4 f)⟩
    · exact ⟨_, rfl, h⟩
  | set k b n m v =>
    right
    obtain ⟨hb, d, o, hk, w1, w2, w3, _⟩ := hp
    obtain ⟨h1, d', o', h2, h3, h4⟩ := h k d o hk
    rw [hk] at h2; injection h2 with h2; injection h2 with e1 e2; subst e1 e2
    have hm : MatOk (s.env (2 * k + b)) d := by
      rcases (show b = 0 ∨ b = 1 by omega) with rfl | rfl
      · exact h3
      · exact h4
    obtain ⟨env', a1, a2, _⟩ := setCoeff_spec hk hm (matOk_has hm w1 w2 w3) v
    exact ⟨_, a1, agree_consistent h a2⟩
  | add k j =>
    obtain ⟨⟨⟨dk, ok⟩, hk⟩, ⟨dj, oj⟩, hj⟩ := hp
    obtain ⟨_, d', o', h2, h3, h4⟩ := h k dk ok hk
    rw [hk] at h2; injection h2 with h2; injection h2 with e1 e2; subst e1 e2
    obtain ⟨_, d', o', h2, h5, h6⟩ := h j dj oj hj
    rw [hj] at h2; injection h2 with h2; injection h2 with e1 e2; subst e1 e2
    by_cases hc : dk < dj ∨ ok < oj
    · left
      exact ⟨k, j, dk, ok, dj, oj, rfl, hk, hj, hc, by
        simp only [step, addAssign, obj_get hk, obj_get hj, Res.bind_ok, hc, if_true]⟩
    · right
      obtain ⟨env1, a1, a2, _⟩ := addCols_spec (ord := oj) h3 h5 (by omega)
      obtain ⟨env2, b1, b2, _⟩ := addCols_spec (ord := oj) (agree_matOk a2 h4) (agree_matOk a2 h6)
        (by omega)
      refine ⟨⟨s.obj, env2⟩, ?_, agree_consistent (s := ⟨s.obj, env1⟩) (agree_consistent h a2) b2⟩
      simp only [step, addAssign, obj_get hk, obj_get hj, Res.bind_ok, hc, if_false, a1, b1]
  | copy k j =>
    right
    obtain ⟨⟨⟨dk, ok⟩, hk⟩, ⟨dj, oj⟩, hj⟩ := hp
    obtain ⟨h1, d', o', h2, h5, h6⟩ := h j dj oj hj
    rw [hj] at h2; injection h2 with h2; injection h2 with e1 e2; subst e1 e2
    simp only [step, copyAssign, obj_get hk, obj_get hj, Res.bind_ok]
    split
    · exact ⟨_, rfl, h⟩
    · exact ⟨_, rfl, put_consistent h h1 (mcopy_matOk h5) (mcopy_matOk h6)⟩

theorem reach_consistent [Add α] [Mul α] [Zero α] {s : S α} (h : Reach s) : Consistent s := by
  induction h with
  | init env => intro k d o hk; cases hk
  | step s s' op _ hp hs ih =>
    rcases step_total ih hp with ⟨_, _, _, _, _, _, _, _, _, _, ht⟩ | ⟨s1, h1, h2⟩
    · rw [hs] at ht; cases ht
    · rw [hs] at h1; injection h1 with h1; subst h1; exact h2

/-- a loop of coefficient assignments whose values are given by a function of the position -/
theorem setLoop {s : S α} {k d o : Nat} (F : Nat × Nat × Nat → α)
    (ks : List (Nat × Nat × Nat)) :
    ∀ env : Env α, s.obj k = some (d, o) → MatOk (env (2 * k)) d → MatOk (env (2 * k + 1)) d →
    (∀ q ∈ ks, q.1 < 2 ∧ q.2.2 ≤ q.2.1 ∧ q.2.1 ≤ d) →
    ∃ env', forEach ks (fun q s => setCoeff s k q.1 q.2.1 q.2.2 (F q)) ⟨s.obj, env⟩ =
        .ok ⟨s.obj, env'⟩ ∧ MatOk (env' (2 * k)) d ∧ MatOk (env' (2 * k + 1)) d ∧
      (∀ y, y ≠ 2 * k → y ≠ 2 * k + 1 → env' y = env y) ∧
      ∀ b n m : Nat, b < 2 → m ≤ n → n ≤ d →
        entry env' (2 * k + b) n m =
          if (b, n, m) ∈ ks then some (F (b, n, m)) else entry env (2 * k + b) n m := by
  induction ks with
  | nil => intro env _ h1 h2 _; exact ⟨env, rfl, h1, h2, fun _ _ _ => rfl, by simp⟩
  | cons q ks ih =>
    intro env hk h1 h2 hq
    obtain ⟨q1, q2, q3⟩ := hq q (by simp)
    have hm : MatOk (env (2 * k + q.1)) d := by
      rcases (show q.1 = 0 ∨ q.1 = 1 by omega) with e | e <;> rw [e]
      · exact h1
      · exact h2
    obtain ⟨env1, a1, a2, a3, a4⟩ := setCoeff_spec (s := ⟨s.obj, env⟩) (b := q.1) hk hm
      (n := q.2.1) (m := q.2.2) (matOk_has hm (by omega) (by omega) (by omega)) (F q)
    have a1' : setCoeff ⟨s.obj, env⟩ k q.1 q.2.1 q.2.2 (F q) = .ok ⟨s.obj, env1⟩ := a1
    obtain ⟨env', b1, b2, b3, b4, b5⟩ := ih env1 hk (agree_matOk a2 h1) (agree_matOk a2 h2)
      (fun q' hq' => hq q' (by simp [hq']))
    refine ⟨env', ?_, b2, b3, ?_, ?_⟩
    · rw [forEach_cons, a1', Res.bind_ok]; exact b1
    · intro y hy1 hy2
      rw [b4 y hy1 hy2]
      exact a2.1 y (by rcases (show q.1 = 0 ∨ q.1 = 1 by omega) with e | e <;> rw [e] <;> omega)
    · intro b n m hb hmn hnd
      rw [b5 b n m hb hmn hnd]
      by_cases hmem : (b, n, m) ∈ ks
      · rw [if_pos hmem, if_pos (by simp [hmem])]
      · rw [if_neg hmem]
        by_cases hqe : (b, n, m) = q
        · rw [if_pos (by simp [hqe])]
          subst hqe
          exact a3
        · rw [if_neg (by simp only [List.mem_cons, not_or]; exact ⟨hqe, hmem⟩)]
          by_cases hbq : b = q.1
          · subst hbq
            apply a4
            · exact matOk_has hm (by omega) (by omega) (by omega)
            · intro hc
              apply hqe
              ext
              · rfl
              · simp only; omega
              · simp only; omega
          · unfold entry
            rw [a2.1 _ (by omega)]

end Verif.Stokes
