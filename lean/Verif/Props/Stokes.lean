import Verif.Proof.StokesOps
/-
C09-C12: Stokes coefficient sets.
-/
namespace Verif.Stokes
open Verif Storage MatrixExpr

variable {α : Type}

theorem par_ne {k i b c : Nat} (hb : b < 2) (hc : c < 2) (h : ¬ (k = i ∧ b = c)) :
    2 * k + b ≠ 2 * i + c := by omega

/-! ### C10 -/

/-- C10 (partial): in every state a legal program reaches, order does not exceed degree and every set has
storage for all coefficients up to its degree. Missing: sets left over by a default construction or
as the source of a move, for which it is false (`stokes_default_fails`, `stokes_moved_from_fails`). -/
theorem stokes_consistent_partial [Add α] [Mul α] [Zero α] {s : S α} (h : Reach s) : Consistent s :=
  reach_consistent h

/-- C10: every coefficient inside degree and order can be read. -/
theorem stokes_coeff_defined [Add α] [Mul α] [Zero α] {s : S α} (h : Reach s) {k d o : Nat}
    (hk : s.obj k = some (d, o)) {b : Nat} (hb : b < 2) {n m : Int} (hw : Within d d n m) :
    ∃ v, getCoeff s k b n m = .ok v ∧ coeff s k b n m = some v := by
  obtain ⟨_, d', o', h2, h3, h4⟩ := reach_consistent h k d o hk
  rw [hk] at h2; injection h2 with h2; injection h2 with e1 e2; subst e1 e2
  have hm : MatOk (s.env (2 * k + b)) d := by
    rcases (show b = 0 ∨ b = 1 by omega) with rfl | rfl
    · exact h3
    · exact h4
  obtain ⟨v, h5, h6⟩ := entry_of_has hm (matOk_has hm hw.1 hw.2.1 hw.2.2.1)
  exact ⟨v, by simp only [getCoeff, obj_get hk, Res.bind_ok, h6], h5⟩

/-- C10: no legal operation reaches undefined behaviour or an assert; the only exception thrown is the
one of an addition of a larger set. -/
theorem stokes_step_defined [Add α] [Mul α] [Zero α] {s : S α} (h : Reach s) {op : Op α}
    (hp : Pre s op) :
    step s op ≠ .ub ∧ step s op ≠ .abort ∧
    (step s op = .throw → ∃ k j dk ok dj oj, op = .add k j ∧ s.obj k = some (dk, ok) ∧
      s.obj j = some (dj, oj) ∧ (dk < dj ∨ ok < oj)) := by
  rcases step_total (reach_consistent h) hp with ⟨k, j, dk, ok, dj, oj, h1, h2, h3, h4, ht⟩ | ⟨s1, h1, _⟩
  · rw [ht]
    exact ⟨by simp, by simp, fun _ => ⟨k, j, dk, ok, dj, oj, h1, h2, h3, h4⟩⟩
  · rw [h1]; simp

/-- C10: `shrink_dimensions` succeeds exactly for a smaller order and degree, then sets them; in all
cases no coefficient changes, and on failure nothing changes. -/
theorem stokes_shrink (s : S α) {k d o : Nat} (hk : s.obj k = some (d, o)) (nd no : Nat) :
    ∃ st s', shrink s k nd no = .ok (st, s') ∧
      (st = 0 ↔ no ≤ nd ∧ nd ≤ d ∧ no ≤ o) ∧
      (st = 0 → s'.obj k = some (nd, no)) ∧ (st ≠ 0 → s' = s) ∧
      (∀ i b n m, coeff s' i b n m = coeff s i b n m) ∧ (∀ i, i ≠ k → s'.obj i = s.obj i) := by
  by_cases hc : no ≤ nd ∧ nd ≤ d ∧ no ≤ o
  · refine ⟨0, _, by simp only [shrink, obj_get hk, Res.bind_ok]; rw [if_pos hc], by simp [hc],
      by simp, by simp, by intros; rfl, ?_⟩
    intro i hi; simp [hi]
  · refine ⟨1, s, by simp only [shrink, obj_get hk, Res.bind_ok]; rw [if_neg hc], by simp [hc],
      by simp, by simp, by intros; rfl, by intros; rfl⟩

/-- C10: the constructor's degree and order. A non-positive order argument means "order = degree". -/
theorem stokes_construct (s : S α) (k n : Nat) (m : Int) (junk : Nat → α) :
    (construct s k n m junk).obj k = some (n, if 0 < m then m.toNat else n) := by
  simp [construct, put_obj]

/-- C10: `cresize` sets degree and order and keeps every coefficient that has storage before and after. -/
theorem stokes_cresize_keeps [Add α] [Mul α] [Zero α] {s : S α} (h : Reach s) {k d o : Nat}
    (hk : s.obj k = some (d, o)) (nd no : Nat) (junk : Nat → α) :
    ∃ s', cresize s k nd no junk = .ok s' ∧ s'.obj k = some (nd, no) ∧
      (∀ b n m, b < 2 → Within d d n m → n ≤ nd → coeff s' k b n m = coeff s k b n m) ∧
      (∀ i b n m, i ≠ k → b < 2 → coeff s' i b n m = coeff s i b n m) := by
  obtain ⟨_, d', o', h2, h3, h4⟩ := reach_consistent h k d o hk
  rw [hk] at h2; injection h2 with h2; injection h2 with e1 e2; subst e1 e2
  obtain ⟨c, c1, c2, c3, c4⟩ := mcresize_spec h3 nd junk
  obtain ⟨t, t1, t2, t3, t4⟩ := mcresize_spec h4 nd junk
  refine ⟨s.put k nd no c t, by simp only [cresize, obj_get hk, Res.bind_ok, c1, t1],
    by simp [put_obj], ?_, ?_⟩
  · intro b n m hb ⟨w1, w2, w3, _⟩ hn
    unfold coeff entry
    rcases (show b = 0 ∨ b = 1 by omega) with rfl | rfl
    · rw [Nat.add_zero, put_C]
      exact c4 n m (matOk_has h3 w1 w2 w3) (matOk_has c2 w1 w2 hn)
    · rw [put_S]
      exact t4 n m (matOk_has h4 w1 w2 w3) (matOk_has t2 w1 w2 hn)
  · intro i b n m hi hb
    unfold coeff entry
    rw [put_other _ _ _ _ _ _ (by omega) (by omega)]

/-- C10 fails for a default-constructed set: degree and order are 0 but `C(0,0)` has no storage. -/
theorem stokes_default_fails : ∃ s : S Int, s.obj 0 = some (0, 0) ∧ Within 0 0 0 0 ∧
    s = default ⟨fun _ => none, fun _ => (tri 0, [])⟩ 0 ∧ getCoeff s 0 0 0 0 = .ub :=
  ⟨_, rfl, by simp [Within], rfl, rfl⟩

/-- C10 fails for a moved-from set: it keeps its degree but has no storage. -/
theorem stokes_moved_from_fails : ∃ s s' : S Int, Reach s ∧ moveAssign s 0 1 = .ok s' ∧
    s'.obj 1 = some (3, 3) ∧ getCoeff s' 1 0 2 0 = .ub := by
  refine ⟨_, _, Reach.step _ _ (.construct 1 3 (-1) (fun _ => 7))
    (Reach.step _ _ (.construct 0 3 (-1) (fun _ => 5)) (Reach.init fun _ => (tri 0, [])) ⟨rfl, by decide⟩ rfl)
    ⟨rfl, by decide⟩ rfl, rfl, rfl, rfl⟩

/-- Hypotheses of C10 are met: construct, cresize, shrink. -/
example : ∃ s : S Int, Reach s ∧ s.obj 0 = some (2, 1) := by
  refine ⟨_, Reach.step _ _ (.shrink 0 2 1) (Reach.step _ _ (.cresize 0 5 4 (fun _ => 1))
    (Reach.step _ _ (.construct 0 3 2 (fun _ => 5)) (Reach.init fun _ => (tri 0, [])) ⟨rfl, by decide⟩ rfl)
    ⟨⟨_, rfl⟩, by decide⟩ rfl) ⟨_, rfl⟩ rfl, rfl⟩

/-! ### C09 -/

/-- C09 (partial): `a += b` throws exactly when `b` has larger degree or order; otherwise every coefficient of
`b` inside its degree and order is added to that of `a`, every other coefficient of `a` and every
other set is unchanged (`k = j`, i.e. `a += a`, included). Missing: default-constructed and moved-from
operands (`stokes_add_fails`). -/
theorem stokes_add_partial [Add α] [Mul α] [Zero α] {s : S α} (h : Reach s) {k j dk ok dj oj : Nat}
    (hk : s.obj k = some (dk, ok)) (hj : s.obj j = some (dj, oj)) :
    (addAssign s k j = .throw ↔ dk < dj ∨ ok < oj) ∧
    (¬ (dk < dj ∨ ok < oj) → ∃ s', addAssign s k j = .ok s' ∧ s'.obj = s.obj ∧
      (∀ b n m, b < 2 → Within dk dk n m →
        (Within dj oj n m → ∃ u v, coeff s k b n m = some u ∧ coeff s j b n m = some v ∧
          coeff s' k b n m = some (u + v)) ∧
        (¬ Within dj oj n m → coeff s' k b n m = coeff s k b n m)) ∧
      (∀ i b n m, i ≠ k → b < 2 → coeff s' i b n m = coeff s i b n m)) := by
  have hc := reach_consistent h
  obtain ⟨_, d', o', h2, h3, h4⟩ := hc k dk ok hk
  rw [hk] at h2; injection h2 with h2; injection h2 with e1 e2; subst e1 e2
  obtain ⟨_, d', o', h2, h5, h6⟩ := hc j dj oj hj
  rw [hj] at h2; injection h2 with h2; injection h2 with e1 e2; subst e1 e2
  by_cases hlt : dk < dj ∨ ok < oj
  · refine ⟨⟨fun _ => hlt, fun _ => ?_⟩, fun hn => absurd hlt hn⟩
    simp only [addAssign, obj_get hk, obj_get hj, Res.bind_ok, hlt, if_true]
  · obtain ⟨env1, a1, a2, a3⟩ := addCols_spec (ord := oj) h3 h5 (by omega)
    obtain ⟨env2, b1, b2, b3⟩ := addCols_spec (ord := oj) (agree_matOk a2 h4) (agree_matOk a2 h6)
      (by omega)
    have hok : addAssign s k j = .ok ⟨s.obj, env2⟩ := by
      simp only [addAssign, obj_get hk, obj_get hj, Res.bind_ok, hlt, if_false, a1, b1]
    refine ⟨⟨fun ht => (by rw [hok] at ht; cases ht), fun hn => absurd hn hlt⟩, fun _ =>
      ⟨_, hok, rfl, ?_, ?_⟩⟩
    · intro b n m hb hw
      rcases (show b = 0 ∨ b = 1 by omega) with rfl | rfl
      · have := a3 n m (matOk_has h3 hw.1 hw.2.1 hw.2.2.1)
        have e1 : ∀ n m, entry env2 (2 * k) n m = entry env1 (2 * k) n m :=
          fun n m => agree_entry b2 (by omega) n m
        unfold coeff
        simp only [Nat.add_zero, e1]
        exact this
      · have := b3 n m (by
          rw [a2.st]; exact matOk_has h4 hw.1 hw.2.1 hw.2.2.1)
        have e1 : ∀ y n m, y ≠ 2 * k → entry env1 y n m = entry s.env y n m :=
          fun y n m hy => agree_entry a2 hy n m
        unfold coeff
        rw [e1 _ _ _ (by omega), e1 _ _ _ (by omega)] at this
        exact this
    · intro i b n m hi hb
      unfold coeff
      simp only
      rw [agree_entry b2 (par_ne hb (by omega) (by omega)),
        agree_entry a2 (par_ne (c := 0) hb (by omega) (by omega))]

/-- C09 fails for a default-constructed right operand: the loop reads `C(0,0)`, which has no storage. -/
theorem stokes_add_fails : ∃ s : S Int, s = default (construct ⟨fun _ => none, fun _ => (tri 0, [])⟩ 0 2
    (-1) fun _ => 5) 1 ∧ s.obj 0 = some (2, 2) ∧ s.obj 1 = some (0, 0) ∧ addAssign s 0 1 = .ub :=
  ⟨_, rfl, rfl, rfl, rfl⟩

/-- C09 on a concrete case: adding a degree-1 set to a degree-2 set. -/
example : ∃ s : S Int, Reach s ∧ s.obj 0 = some (2, 2) ∧ s.obj 1 = some (1, 1) ∧
    ∃ s', addAssign s 0 1 = .ok s' ∧ coeff s' 0 0 1 1 = some 12 ∧ coeff s' 0 0 2 1 = some 5 := by
  refine ⟨_, Reach.step _ _ (.construct 1 1 (-1) (fun _ => 7))
    (Reach.step _ _ (.construct 0 2 (-1) (fun _ => 5)) (Reach.init fun _ => (tri 0, [])) ⟨rfl, by decide⟩ rfl)
    ⟨rfl, by decide⟩ rfl, rfl, rfl, _, rfl, rfl, rfl⟩

/-! ### C12 -/

theorem entry_mmultiply [Mul α] {m : St × List α} {d : Nat} (h : MatOk m d) (f : α) {n j : Int}
    (he : m.1.HasElement n j) :
    (mmultiply m f).2[((mmultiply m f).1.index n j).toNat]? =
      (m.2[(m.1.index n j).toNat]?).map (· * f) := by
  have hb := index_in_bounds _ (matOk_wf h) _ _ he
  have := h.2.2.2
  simp only [mmultiply]
  rw [List.getElem?_append_left (by simp; omega), List.getElem?_map, List.getElem?_take,
    if_pos (by omega)]

/-- C12: `clear()` makes every coefficient of the set zero and leaves other sets alone. -/
theorem stokes_clear [Add α] [Mul α] [Zero α] {s : S α} (h : Reach s) {k d o : Nat}
    (hk : s.obj k = some (d, o)) :
    ∃ s', clear s k = .ok s' ∧ s'.obj k = some (d, o) ∧
      (∀ b n m, b < 2 → Within d d n m → coeff s' k b n m = some 0) ∧
      (∀ i b n m, i ≠ k → b < 2 → coeff s' i b n m = coeff s i b n m) := by
  obtain ⟨_, d', o', h2, h3, h4⟩ := reach_consistent h k d o hk
  rw [hk] at h2; injection h2 with h2; injection h2 with e1 e2; subst e1 e2
  refine ⟨_, by simp only [clear, obj_get hk, Res.bind_ok]; rfl, by simp [put_obj], ?_, ?_⟩
  · intro b n m hb hw
    have key : ∀ (mm : St × List α), MatOk mm d →
        (List.replicate mm.2.length (0 : α))[(mm.1.index n m).toNat]? = some 0 := by
      intro mm hmm
      have he := matOk_has hmm hw.1 hw.2.1 hw.2.2.1
      have hbd := index_in_bounds _ (matOk_wf hmm) _ _ he
      have := hmm.2.2.2
      rw [List.getElem?_replicate, if_pos (by omega)]
    unfold coeff entry
    rcases (show b = 0 ∨ b = 1 by omega) with rfl | rfl
    · simp only [Nat.add_zero]; rw [put_C]; exact key _ h3
    · rw [put_S]; exact key _ h4
  · intro i b n m hi hb
    unfold coeff entry
    rw [put_other _ _ _ _ _ _ (by omega) (by omega)]

/-- C12 (partial): for a set of degree at least one, `scale(f)` multiplies every coefficient by `f` and
leaves other sets alone. Missing: degree zero, where nothing is scaled (`stokes_scale_fails`). -/
theorem stokes_scale_partial [Add α] [Mul α] [Zero α] {s : S α} (h : Reach s) {k d o : Nat}
    (hk : s.obj k = some (d, o)) (hd : d ≠ 0) (f : α) :
    ∃ s', scale s k f = .ok s' ∧ s'.obj k = some (d, o) ∧
      (∀ b n m, b < 2 → Within d d n m → ∃ v, coeff s k b n m = some v ∧
        coeff s' k b n m = some (v * f)) ∧
      (∀ i b n m, i ≠ k → b < 2 → coeff s' i b n m = coeff s i b n m) := by
  obtain ⟨_, d', o', h2, h3, h4⟩ := reach_consistent h k d o hk
  rw [hk] at h2; injection h2 with h2; injection h2 with e1 e2; subst e1 e2
  refine ⟨_, by simp only [scale, obj_get hk, Res.bind_ok]; rw [if_pos hd], by simp [put_obj], ?_, ?_⟩
  · intro b n m hb hw
    rcases (show b = 0 ∨ b = 1 by omega) with rfl | rfl
    · have he := matOk_has h3 hw.1 hw.2.1 hw.2.2.1
      obtain ⟨v, hv, _⟩ := entry_of_has h3 he
      refine ⟨v, hv, ?_⟩
      unfold coeff entry
      simp only [Nat.add_zero]
      rw [put_C, entry_mmultiply h3 f he]
      unfold entry at hv
      rw [hv]; rfl
    · have he := matOk_has h4 hw.1 hw.2.1 hw.2.2.1
      obtain ⟨v, hv, _⟩ := entry_of_has h4 he
      refine ⟨v, hv, ?_⟩
      unfold coeff entry
      rw [put_S, entry_mmultiply h4 f he]
      unfold entry at hv
      rw [hv]; rfl
  · intro i b n m hi hb
    unfold coeff entry
    rw [put_other _ _ _ _ _ _ (by omega) (by omega)]

/-- C12: two scalings are one scaling by the product (degree at least one or not). -/
theorem stokes_scale_scale [Semigroup α] {s : S α} {k d o : Nat} (hk : s.obj k = some (d, o))
    (hm : MatOk (s.env (2 * k)) d ∧ MatOk (s.env (2 * k + 1)) d) (f g : α) :
    (do let s1 ← scale s k f; scale s1 k g) = scale s k (f * g) := by
  have key : ∀ m : St × List α, MatOk m d → mmultiply (mmultiply m f) g = mmultiply m (f * g) := by
    intro m hm
    have hl := hm.2.2.2
    have hlen : ((m.2.take m.1.numElements).map (· * f)).length = m.1.numElements := by
      simp; omega
    simp only [mmultiply]
    rw [List.take_left' hlen, List.drop_left' hlen, List.map_map]
    congr 2
    apply List.map_congr_left
    intro a _
    simp [mul_assoc]
  by_cases hd : d ≠ 0
  · have hk2 : (s.put k d o (mmultiply (s.env (2 * k)) f) (mmultiply (s.env (2 * k + 1)) f)).obj k =
        some (d, o) := by simp [put_obj]
    simp only [scale, obj_get hk, Res.bind_ok]
    rw [if_pos hd, if_pos hd, Res.bind_ok, obj_get hk2, Res.bind_ok]
    simp only
    rw [if_pos hd, put_C, put_S, key _ hm.1, key _ hm.2]
    congr 1
    simp only [S.put]
    congr 1
    · funext i; by_cases hi : i = k <;> simp [hi]
    · funext y
      simp only [Env.set]
      by_cases h1 : y = 2 * k + 1
      · simp [h1]
      · by_cases h2 : y = 2 * k
        · simp [h2]
        · simp [h1, h2]
  · simp only [scale, obj_get hk, Res.bind_ok]
    rw [if_neg hd, if_neg hd, Res.bind_ok, obj_get hk, Res.bind_ok]
    simp only
    rw [if_neg hd]

/-- C12 fails for degree zero: `scale(2)` leaves `C(0,0) = 5` as it is. -/
theorem stokes_scale_fails : ∃ s s' : S Int, Reach s ∧ s.obj 0 = some (0, 0) ∧
    scale s 0 2 = .ok s' ∧ coeff s 0 0 0 0 = some 5 ∧ coeff s' 0 0 0 0 = some 5 := by
  refine ⟨_, _, Reach.step _ _ (.construct 0 0 (-1) (fun _ => 5)) (Reach.init fun _ => (tri 0, []))
    ⟨rfl, by decide⟩ rfl, rfl, rfl, rfl, rfl⟩

/-- Hypotheses of C12 are met. -/
example : ∃ s : S Int, Reach s ∧ s.obj 0 = some (2, 2) ∧ 2 ≠ 0 ∧ Within 2 2 2 1 := by
  refine ⟨_, Reach.step _ _ (.construct 0 2 (-1) (fun _ => 5)) (Reach.init fun _ => (tri 0, []))
    ⟨rfl, by decide⟩ rfl, rfl, by decide, by simp [Within]⟩

/-! ### C11 -/

/-- Cell of the packed matrix that holds coefficient `C(n, m)` (b = 0) or `S(n, m)` (b = 1). -/
def anmCell (b n m : Nat) : Nat × Nat := if b = 0 then (n, m) else (m - 1, n)

/-- C11: the packed matrix gives every coefficient (S(n,0) aside, which is zero by definition) its own
cell of the `(d+1) × (d+1)` square, and fills the square. -/
theorem anm_cells_distinct (d : Nat) (b n m b' n' m' : Nat) (hb : b < 2) (hb' : b' < 2)
    (h : m ≤ n ∧ n ≤ d ∧ (b = 1 → 1 ≤ m)) (h' : m' ≤ n' ∧ n' ≤ d ∧ (b' = 1 → 1 ≤ m')) :
    (anmCell b n m).1 ≤ d ∧ (anmCell b n m).2 ≤ d ∧
    (anmCell b n m = anmCell b' n' m' → b = b' ∧ n = n' ∧ m = m') := by
  unfold anmCell
  rcases (show b = 0 ∨ b = 1 by omega) with rfl | rfl <;>
    rcases (show b' = 0 ∨ b' = 1 by omega) with rfl | rfl <;> simp <;> omega

/-- C11: packing: every cell of the square is defined and holds the coefficient it belongs to. -/
theorem stokes_to_anm [Add α] [Mul α] [Zero α] {s : S α} (h : Reach s) {k d o : Nat}
    (hk : s.obj k = some (d, o)) :
    (∀ r c, r ≤ d → c ≤ d → ∃ v, toAnm s k r c = .ok v) ∧
    (∀ b n m : Nat, b < 2 → m ≤ n → n ≤ d → (b = 1 → 1 ≤ m) → ∃ v, coeff s k b n m = some v ∧
      toAnm s k (anmCell b n m).1 (anmCell b n m).2 = .ok v) := by
  constructor
  · intro r c hr hc
    unfold toAnm
    split
    · obtain ⟨v, hv, _⟩ := stokes_coeff_defined h hk (b := 1) (by omega) (n := c) (m := r + 1)
        ⟨by omega, by omega, by omega, by omega⟩
      exact ⟨v, hv⟩
    · obtain ⟨v, hv, _⟩ := stokes_coeff_defined h hk (b := 0) (by omega) (n := r) (m := c)
        ⟨by omega, by omega, by omega, by omega⟩
      exact ⟨v, hv⟩
  · intro b n m hb hmn hnd h1
    obtain ⟨v, hv, hv'⟩ := stokes_coeff_defined h hk hb (n := n) (m := m)
        ⟨by omega, by omega, by omega, by omega⟩
    refine ⟨v, hv', ?_⟩
    rcases (show b = 0 ∨ b = 1 by omega) with rfl | rfl
    · simp only [anmCell, toAnm, if_true]
      rw [if_neg (by omega)]; exact hv
    · have := h1 rfl
      have e : ((m - 1 : Nat) : Int) + 1 = m := by omega
      show toAnm s k (m - 1) n = _
      unfold toAnm
      rw [if_pos (by omega), e]; exact hv

/-- Unpacking assigns every coefficient its cell. -/
theorem fromAnm_spec (s : S α) (k : Nat) (anm : Nat → Nat → α) (d : Nat) (mo : Int)
    (junk : Nat → α) :
    ∃ s' o, fromAnm s k anm (d + 1) mo junk = .ok s' ∧ s'.obj k = some (d, o) ∧
      (∀ b, b < 2 → MatOk (s'.env (2 * k + b)) d) ∧
      (∀ b n m : Nat, b < 2 → m ≤ n → n ≤ d → (b = 1 → 1 ≤ m) →
        coeff s' k b n m = some (anm (anmCell b n m).1 (anmCell b n m).2)) ∧
      (∀ i b n m, i ≠ k → b < 2 → coeff s' i b n m = coeff s i b n m) := by
  let F : Nat × Nat × Nat → α := fun q => anm (anmCell q.1 q.2.1 q.2.2).1 (anmCell q.1 q.2.1 q.2.2).2
  let keys : Nat → List (Nat × Nat × Nat) := fun m =>
    (List.range m).map (fun l => (1, m, l + 1)) ++ (List.range' m (d + 1 - m)).map (fun l => (0, l, m))
  let ord : Int := if mo < 0 then ((d + 1 : Nat) : Int) - 1 else mo
  let s0 := construct s k d ord junk
  have hobj : s0.obj k = some (d, if ord > 0 then ord.toNat else d) := by simp [s0, construct, put_obj]
  have hc : MatOk (s0.env (2 * k)) d := by
    simp only [s0, construct]; rw [put_C]; exact tri_matOk d _ (by rw [junkBuf_length])
  have ht : MatOk (s0.env (2 * k + 1)) d := by
    simp only [s0, construct]; rw [put_S]; exact tri_matOk d _ (by rw [junkBuf_length])
  have hkeys : ∀ b n m : Nat, (b, n, m) ∈ (List.range (d + 1)).flatMap keys ↔
      (b = 1 ∧ 1 ≤ m ∧ m ≤ n ∧ n ≤ d) ∨ (b = 0 ∧ m ≤ n ∧ n ≤ d) := by
    intro b n m
    simp only [keys, List.mem_flatMap, List.mem_range, List.mem_append, List.mem_map, Prod.mk.injEq,
      List.mem_range'_1]
    constructor
    · rintro ⟨a, ha, ⟨l, hl, rfl, rfl, rfl⟩ | ⟨l, hl, rfl, rfl, rfl⟩⟩
      · left; omega
      · right; omega
    · rintro (⟨rfl, h1, h2, h3⟩ | ⟨rfl, h1, h2⟩)
      · exact ⟨n, by omega, Or.inl ⟨m - 1, by omega, rfl, rfl, by omega⟩⟩
      · exact ⟨m, by omega, Or.inr ⟨n, by omega, rfl, rfl, rfl⟩⟩
  obtain ⟨env', e1, e2, e3, e4, e5⟩ := setLoop (s := s0) F ((List.range (d + 1)).flatMap keys) s0.env hobj hc ht
    (by
      rintro ⟨b, n, m⟩ hq
      rcases (hkeys b n m).mp hq with h | h <;> simp only <;> omega)
  refine ⟨⟨s0.obj, env'⟩, _, ?_, hobj, ?_, ?_, ?_⟩
  · rw [← e1]
    unfold fromAnm
    rw [forEach_flatMap]
    show forEach (List.range (d + 1)) _ s0 = _
    apply forEach_congr
    intro m _ s1
    simp only [keys, forEach_append, forEach_map, F]
    have : ∀ s2, forEach (List.range m) (fun (l : Nat) s => setCoeff s k 1 m ((l : Int) + 1) (anm l m)) s2 =
        forEach (List.range m) (fun a s => setCoeff s k 1 (m : Int) ((a + 1 : Nat) : Int)
          (anm (anmCell 1 m (a + 1)).1 (anmCell 1 m (a + 1)).2)) s2 := by
      intro s2
      apply forEach_congr
      intro l _ s3
      simp [anmCell]
    rw [this]
    cases forEach (List.range m) _ s1 with
    | ok s2 =>
      simp only [Res.bind_ok]
      rw [forEach_map]
      apply forEach_congr
      intro l _ s3
      simp [anmCell]
    | ub => rfl
    | abort => rfl
    | throw => rfl
  · intro b hb
    rcases (show b = 0 ∨ b = 1 by omega) with rfl | rfl
    · exact e2
    · exact e3
  · intro b n m hb hmn hnd h1
    have := e5 b n m hb hmn hnd
    rw [if_pos ((hkeys b n m).mpr (by omega))] at this
    exact this
  · intro i b n m hi hb
    unfold coeff entry
    simp only
    rw [e4 _ (by omega) (by omega)]
    simp only [s0, construct]
    rw [put_other _ _ _ _ _ _ (by omega) (by omega)]

/-- C11: packing a set and unpacking the result restores its degree, every `C(n, m)` and every
`S(n, m)` with `m >= 1`. -/
theorem stokes_anm_roundtrip [Add α] [Mul α] [Zero α] {s : S α} (h : Reach s) {k d o : Nat}
    (hk : s.obj k = some (d, o)) (anm : Nat → Nat → α)
    (ha : ∀ r c, r ≤ d → c ≤ d → toAnm s k r c = .ok (anm r c)) (k' : Nat) (mo : Int)
    (junk : Nat → α) :
    ∃ s' o', fromAnm s k' anm (d + 1) mo junk = .ok s' ∧ s'.obj k' = some (d, o') ∧
      ∀ b n m : Nat, b < 2 → m ≤ n → n ≤ d → (b = 1 → 1 ≤ m) →
        coeff s' k' b n m = coeff s k b n m := by
  obtain ⟨s', o', h1, h2, _, h3, _⟩ := fromAnm_spec s k' anm d mo junk
  refine ⟨s', o', h1, h2, ?_⟩
  intro b n m hb hmn hnd hm
  obtain ⟨v, hv, hv'⟩ := (stokes_to_anm h hk).2 b n m hb hmn hnd hm
  obtain ⟨c1, c2, _⟩ := anm_cells_distinct d b n m b n m hb hb ⟨hmn, hnd, hm⟩ ⟨hmn, hnd, hm⟩
  rw [ha _ _ c1 c2] at hv'
  injection hv' with hv'
  rw [h3 b n m hb hmn hnd hm, hv, hv']

/-- C11: unpacking a square matrix and packing the result restores every cell. -/
theorem stokes_from_to_anm (s : S α) (k : Nat) (anm : Nat → Nat → α) (d : Nat) (mo : Int)
    (junk : Nat → α) :
    ∃ s', fromAnm s k anm (d + 1) mo junk = .ok s' ∧
      ∀ r c, r ≤ d → c ≤ d → toAnm s' k r c = .ok (anm r c) := by
  obtain ⟨s', o', h1, h2, h2m, h3, _⟩ := fromAnm_spec s k anm d mo junk
  refine ⟨s', h1, ?_⟩
  have get : ∀ b n m : Nat, b < 2 → m ≤ n → n ≤ d → (b = 1 → 1 ≤ m) →
      getCoeff s' k b n m = .ok (anm (anmCell b n m).1 (anmCell b n m).2) := by
    intro b n m hb hmn hnd hm
    have he : (s'.env (2 * k + b)).1.HasElement (n : Int) (m : Int) :=
      matOk_has (h2m b hb) (by omega) (by omega) (by omega)
    obtain ⟨v, hv, hv'⟩ := entry_of_has (h2m b hb) he
    have hc := h3 b n m hb hmn hnd hm
    unfold coeff at hc
    have : v = anm (anmCell b n m).1 (anmCell b n m).2 := by
      have := hv.symm.trans hc
      injection this
    simp only [getCoeff, obj_get h2, Res.bind_ok, hv', this]
  intro r c hr hc
  unfold toAnm
  split
  · have := get 1 c (r + 1) (by omega) (by omega) (by omega) (by omega)
    simpa [anmCell] using this
  · have := get 0 r c (by omega) (by omega) (by omega) (by omega)
    simpa [anmCell] using this

/-- Hypotheses of C11 are met by a set of degree 2 holding distinct values. -/
example : ∃ s : S Int, Reach s ∧ s.obj 0 = some (2, 2) ∧ ∃ v, toAnm s 0 0 2 = .ok v := by
  refine ⟨_, Reach.step _ _ (.construct 0 2 (-1) (fun i => i)) (Reach.init fun _ => (tri 0, []))
    ⟨rfl, by decide⟩ rfl, rfl, _, rfl⟩

end Verif.Stokes
