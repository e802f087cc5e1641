import Verif.Proof.MatrixExpr
/-
C08: matrix expressions compute the element-wise value, aliasing included.
-/
namespace Verif.MatrixExpr
open Verif Storage

variable {α : Type} [AddCommMagma α] [Mul α]

/-- C08: `x += e`. If the operand shapes of `e` fit together and `e` fits into `x` (same shape if `e`
has no reduced view, not larger otherwise), every element of `x` inside the shape of `e` grows by the
value `e` had before the assignment, the other elements and all other matrices are unchanged. `e` may
refer to `x` itself. -/
theorem expr_addAssign {l : Layout} {env : Env α} (h : EnvOk l env) (x : Nat) (e : E α)
    (hb : built env e = true)
    (hs : if contig e then (env x).1.nrows = rows env e ∧ (env x).1.ncols = cols env e
      else rows env e ≤ (env x).1.nrows ∧ cols env e ≤ (env x).1.ncols) :
    ∃ env', addAssign x e env = .ok env' ∧ (∀ y, y ≠ x → env' y = env y) ∧
      (env' x).1 = (env x).1 ∧
      ∀ i j, IsElement l (env x).1.nrows (env x).1.ncols i j →
        (IsElement l (rows env e) (cols env e) i j → ∃ u v, entry env x i j = some u ∧
          value env e i j = some v ∧ entry env' x i j = some (u + v)) ∧
        (¬ IsElement l (rows env e) (cols env e) i j → entry env' x i j = entry env x i j) := by
  obtain ⟨hl, hw, _⟩ := h x
  have conv : ∀ {i j}, IsElement l (env x).1.nrows (env x).1.ncols i j → (env x).1.HasElement i j := by
    intro i j he; rw [ncols_eq hw, ← hl] at he; exact he
  unfold addAssign
  rw [if_pos hb]
  by_cases hc : contig e = true
  · rw [if_pos hc] at hs ⊢
    rw [if_pos hs]
    obtain ⟨env', e1, e2, e3⟩ := contig_loop h (· + ·) x e hb hc hs.1 hs.2
    exact ⟨env', e1, e2.1, e2.2.1, fun i j he => e3 i j (conv he)⟩
  · rw [if_neg hc] at hs ⊢
    obtain ⟨env', e1, e2, e3⟩ := reduceCopy_spec h (· + ·) x e hb hs.1 hs.2
    exact ⟨env', e1, e2.1, e2.2.1, fun i j he => e3 i j (conv he)⟩

/-- C08: with shapes that do not fit, `x += e` stops in an assert and nothing else happens. -/
theorem expr_addAssign_abort (x : Nat) (e : E α) (env : Env α)
    (h : built env e = false ∨
      (contig e = true ∧ ¬ ((env x).1.nrows = rows env e ∧ (env x).1.ncols = cols env e)) ∨
      (contig e = false ∧ ¬ (rows env e ≤ (env x).1.nrows ∧ cols env e ≤ (env x).1.ncols))) :
    addAssign x e env = .abort := by
  unfold addAssign
  cases hb : built env e
  · simp
  · rcases h with h | ⟨h1, h2⟩ | ⟨h1, h2⟩
    · rw [hb] at h; cases h
    · simp [h1, h2]
    · simp only [if_true, h1]
      unfold reduceCopy
      simp only [Bool.false_eq_true, if_false, ge_iff_le]
      rw [if_neg h2]

/-- C08: constructing a matrix from an expression (which does not mention the new matrix) gives a
matrix of the shape of the expression whose every element is the value of the expression, whatever
the fresh memory contained. -/
theorem expr_construct {l : Layout} {env : Env α} (h : EnvOk l env) (x : Nat) (e : E α)
    (junk : Nat → α) (hx : x ∉ e.vars) (hb : built env e = true)
    (hs : St.square l = true → rows env e = cols env e) :
    ∃ env', construct l x e junk env = .ok env' ∧ (∀ y, y ≠ x → env' y = env y) ∧
      (env' x).1.layout = l ∧ (env' x).1.nrows = rows env e ∧ (env' x).1.ncols = cols env e ∧
      ∀ i j, IsElement l (rows env e) (cols env e) i j →
        ∃ v, value env e i j = some v ∧ entry env' x i j = some v := by
  let st : St := ⟨l, rows env e, cols env e⟩
  let env1 := env.set x (st, (List.range st.numElements).map junk)
  have hm := make_ok l (rows env e) (cols env e) hs
  obtain ⟨w1, w2, w3, w4⟩ := make_wf _ _ _ _ hm
  have hx1 : env1 x = (st, (List.range st.numElements).map junk) := by simp [env1, Env.set]
  have hy1 : ∀ y, y ≠ x → env1 y = env y := fun y hy => by simp [env1, Env.set, hy]
  have hok : EnvOk l env1 := by
    intro y
    by_cases hy : y = x
    · subst hy; rw [hx1]; exact ⟨rfl, w1, by simp⟩
    · rw [hy1 y hy]; exact h y
  have hvars : ∀ y ∈ e.vars, env1 y = env y := fun y hy => hy1 y (fun e => hx (e ▸ hy))
  obtain ⟨v1, v2, v3⟩ := vars_congr e hvars
  have r1 : (env1 x).1.nrows = rows env1 e := by rw [hx1, v1]; exact w3
  have r2 : (env1 x).1.ncols = cols env1 e := by rw [hx1, v2]; exact w4
  have fin : ∀ env', Updated l (fun _ v => v) x e env1 env' →
      (∀ y, y ≠ x → env' y = env y) ∧
      (env' x).1.layout = l ∧ (env' x).1.nrows = rows env e ∧ (env' x).1.ncols = cols env e ∧
      ∀ i j, IsElement l (rows env e) (cols env e) i j →
        ∃ v, value env e i j = some v ∧ entry env' x i j = some v := by
    rintro env' ⟨e2, e3⟩
    have es : (env' x).1 = st := by rw [e2.2.1, hx1]
    refine ⟨fun y hy => by rw [e2.1 y hy, hy1 y hy], by rw [es], by rw [es]; exact w3,
      by rw [es]; exact w4, ?_⟩
    intro i j hel
    have hh : (env1 x).1.HasElement i j := by rw [hx1]; exact hel
    obtain ⟨u, v, _, a2, a3⟩ := (e3 i j hh).1 (by rw [v1, v2]; exact hel)
    exact ⟨v, by rw [← value_congr e hvars]; exact a2, a3⟩
  unfold construct
  rw [if_pos hb, hm, Res.bind_ok]
  by_cases hc : contig e = true
  · rw [if_pos hc]
    obtain ⟨env', e1, e2⟩ := contig_loop hok (fun _ v => v) x e (by rw [v3]; exact hb) hc r1 r2
    refine ⟨env', ?_, fin env' e2⟩
    rw [← e1, hx1]
  · rw [if_neg hc]
    obtain ⟨env', e1, e2⟩ := reduceCopy_spec hok (fun _ v => v) x e (by rw [v3]; exact hb)
      (le_of_eq r1.symm) (le_of_eq r2.symm)
    exact ⟨env', e1, fin env' e2⟩

/-- Hypotheses of C08 are met: `A += (2*A + B).reduced(2,2)` on 3×3 triangular matrices. -/
example : ∃ env : Env Int, EnvOk .lwTriangularColWise env ∧
    built env (.view (.sum (.scale (.mat 0) 2) (.mat 1)) 2 2) = true ∧
    rows env (.view (.sum (.scale (.mat 0) 2) (.mat 1)) 2 2) ≤ (env 0).1.nrows ∧
    cols env (.view (.sum (.scale (.mat 0) 2) (.mat 1)) 2 2) ≤ (env 0).1.ncols := by
  refine ⟨fun _ => (⟨.lwTriangularColWise, 3, 3⟩, [1, 2, 3, 4, 5, 6]), ?_, rfl, by decide, by decide⟩
  intro x
  exact ⟨rfl, fun _ => rfl, by simp [St.numElements]⟩

/-- What C08 gives on a concrete case: `A += 2*A` triples every element. -/
example : (addAssign 0 (.scale (.mat 0) 2)
      (fun _ => (⟨.lwTriangularColWise, 2, 2⟩, [1, 2, 3])) : Res (Env Int)) =
    .ok (Env.set (Env.set (Env.set (fun _ => (⟨.lwTriangularColWise, 2, 2⟩, [1, 2, 3])) 0
      (⟨.lwTriangularColWise, 2, 2⟩, [3, 2, 3])) 0 (⟨.lwTriangularColWise, 2, 2⟩, [3, 6, 3])) 0
      (⟨.lwTriangularColWise, 2, 2⟩, [3, 6, 9])) := rfl

end Verif.MatrixExpr
