import Verif.Model.Tri
import Verif.Props.Storage
/-
Cells of a triangular matrix, and loops over ranges.
-/
namespace Verif
namespace Tri

/-- An element of the matrix. -/
def Has (t : Tri) (i j : Int) : Prop := 0 ≤ j ∧ j ≤ i ∧ i < t.rows

theorem has_element {t : Tri} {i j : Int} (h : t.Has i j) : t.st.HasElement i j := by
  obtain ⟨a, b, c⟩ := h
  exact ⟨by omega, c, a, by show j < (t.rows : Int); omega, fun _ => b⟩

theorem wf (t : Tri) : t.st.WF := fun _ => rfl

theorem Has.in {t : Tri} {i j : Int} (h : t.Has i j) : t.In i j := Storage.index_in_bounds _ t.wf _ _ (has_element h)

theorem get_ok {t : Tri} {i j : Int} (h : t.Has i j) : t.get i j = .ok (t.val i j) := if_pos h.in

theorem set_ok {t : Tri} {i j : Int} (v : ℝ) (h : t.Has i j) : t.set i j v = .ok (t.upd i j v) := if_pos h.in

theorem get_bind {α : Type _} {t : Tri} {i j : Int} (h : t.Has i j) (f : ℝ → Res α) : (t.get i j).bind f = f (t.val i j) := by rw [get_ok h]; rfl

theorem set_bind {α : Type _} {t : Tri} {i j : Int} {v : ℝ} (h : t.Has i j) (f : Tri → Res α) : (t.set i j v).bind f = f (t.upd i j v) := by rw [set_ok v h]; rfl

theorem bind_of {α β : Type _} {r : Res α} {a : α} (h : r = .ok a) (f : α → Res β) : r.bind f = f a := by rw [h]; rfl

@[simp] theorem upd_rows (t : Tri) (i j : Int) (v : ℝ) : (t.upd i j v).rows = t.rows := rfl

@[simp] theorem upd_st (t : Tri) (i j : Int) (v : ℝ) : (t.upd i j v).st = t.st := rfl

theorem val_upd {t : Tri} {i j : Int} (v : ℝ) (h : t.Has i j) {i' j' : Int} (h' : t.Has i' j') :
    (t.upd i j v).val i' j' = if i' = i ∧ j' = j then v else t.val i' j' := by
  show (if t.st.index i' j' = t.st.index i j then v else t.mem (t.st.index i' j')) = _
  by_cases e : i' = i ∧ j' = j
  · obtain ⟨rfl, rfl⟩ := e
    rw [if_pos rfl, if_pos ⟨rfl, rfl⟩]
  · rw [if_neg e]
    refine if_neg fun k => e ?_
    exact Storage.index_injective _ t.wf _ _ _ _ (has_element h') (has_element h) k

theorem val_upd_same {t : Tri} {i j : Int} (v : ℝ) (h : t.Has i j) : (t.upd i j v).val i j = v := by
  rw [val_upd v h h, if_pos ⟨rfl, rfl⟩]

theorem val_upd_other {t : Tri} {i j : Int} (v : ℝ) (h : t.Has i j) {i' j' : Int} (h' : t.Has i' j') (e : ¬(i' = i ∧ j' = j)) :
    (t.upd i j v).val i' j' = t.val i' j' := by
  rw [val_upd v h h', if_neg e]

end Tri

theorem irange_nil {a b : Int} (h : b < a) : irange a b = [] := by
  unfold irange
  rw [show (b + 1 - a).toNat = 0 from by omega]
  rfl

theorem irange_cons {a b : Int} (h : a ≤ b) : irange a b = a :: irange (a + 1) b := by
  unfold irange
  rw [show (b + 1 - a).toNat = (b + 1 - (a + 1)).toNat + 1 from by omega, List.range_succ_eq_map]
  simp only [List.map_cons, List.map_map]
  congr 1
  · simp
  · apply List.map_congr_left
    intro k _
    simp only [Function.comp]
    push_cast
    omega

/-- A loop over a range: an invariant that every iteration preserves. -/
theorem loop_inv {σ : Type _} (f : Int → σ → Res σ) (I : Int → σ → Prop) (b : Int) : ∀ (k : Nat) (a : Int) (s : σ), (b + 1 - a).toNat = k → a ≤ b + 1 →
    I a s → (∀ i s, a ≤ i → i ≤ b → I i s → ∃ s', f i s = .ok s' ∧ I (i + 1) s') → ∃ s', forEach (irange a b) f s = .ok s' ∧ I (b + 1) s'
  | 0, a, s, hk, ha, h0, _ => by
    have : a = b + 1 := by omega
    subst this
    exact ⟨s, by rw [irange_nil (by omega)]; rfl, h0⟩
  | k + 1, a, s, hk, ha, h0, hs => by
    obtain ⟨s1, e1, i1⟩ := hs a s (le_refl a) (by omega) h0
    obtain ⟨s2, e2, i2⟩ := loop_inv f I b k (a + 1) s1 (by omega) (by omega) i1 (fun i s h1 h2 => hs i s (by omega) h2)
    refine ⟨s2, ?_, i2⟩
    rw [irange_cons (by omega)]
    simp only [forEach, e1]
    exact e2

theorem loop_range {σ : Type _} {f : Int → σ → Res σ} (I : Int → σ → Prop) {a b : Int} {s : σ} (ha : a ≤ b + 1) (h0 : I a s)
    (hs : ∀ i s, a ≤ i → i ≤ b → I i s → ∃ s', f i s = .ok s' ∧ I (i + 1) s') : ∃ s', forEach (irange a b) f s = .ok s' ∧ I (b + 1) s' :=
  loop_inv f I b _ a s rfl ha h0 hs

end Verif
