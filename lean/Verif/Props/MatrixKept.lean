import Verif.Proof.MatrixKept
/-
C102: a matrix expression kept in a variable.
-/
namespace Verif.MatrixKept
open Verif Storage MatrixExpr

variable {α : Type} [AddCommMagma α] [Mul α]

/-- C102 (partial: kept expressions with an operand that is itself an expression have no value, `kept_nested_fails`). After any program that keeps
expressions in variables, adds expressions to matrices and changes matrices, `x += e` for an expression of which nothing is gone adds its
element-wise value, from the matrices as they are now (not as they were when a part of it was kept), and changes nothing else. -/
theorem kept_partial {l : Layout} {prog : List (Stmt α)} {env0 env : Env α} {s : Store α} (hr : run prog (Store.init, env0) = .ok (s, env))
    (h : EnvOk l env) (x : Nat) (e : Src α) {k : K α} {w : E α} (he : e.tree (namesAfter prog fun _ => none) = some k) (hw : k.whole = some w)
    (hb : built env w = true)
    (hs : if contig w then (env x).1.nrows = rows env w ∧ (env x).1.ncols = cols env w
      else rows env w ≤ (env x).1.nrows ∧ cols env w ≤ (env x).1.ncols) :
    ∃ s' env', run (prog ++ [.add x e]) (Store.init, env0) = .ok (s', env') ∧ (∀ y, y ≠ x → env' y = env y) ∧ (env' x).1 = (env x).1 ∧
      ∀ i j, IsElement l (env x).1.nrows (env x).1.ncols i j →
        (IsElement l (rows env w) (cols env w) i j → ∃ u v, entry env x i j = some u ∧ value env w i j = some v ∧ entry env' x i j = some (u + v)) ∧
        (¬ IsElement l (rows env w) (cols env w) i j → entry env' x i j = entry env x i j) := by
  have hi : Inv s (namesAfter prog fun _ => none) := run_inv prog _ _ _ init_inv hr
  obtain ⟨s', hst⟩ := add_whole hi env x e he hw hb
  obtain ⟨env', h1, h2, h3, h4⟩ := expr_addAssign h x w hb hs
  refine ⟨s', env', ?_, h2, h3, h4⟩
  rw [run_append, hr]
  show (step s env (.add x e)).bind (run []) = _
  rw [hst, h1]
  rfl

/-- C102: shapes that do not fit stop in an assertion at the use. -/
theorem kept_abort {prog : List (Stmt α)} {env0 env : Env α} {s : Store α} (hr : run prog (Store.init, env0) = .ok (s, env))
    (x : Nat) (e : Src α) {k : K α} {w : E α} (he : e.tree (namesAfter prog fun _ => none) = some k) (hw : k.whole = some w) (hb : built env w = true)
    (hs : ¬ if contig w then (env x).1.nrows = rows env w ∧ (env x).1.ncols = cols env w
      else rows env w ≤ (env x).1.nrows ∧ cols env w ≤ (env x).1.ncols) :
    run (prog ++ [.add x e]) (Store.init, env0) = .abort := by
  have hi : Inv s (namesAfter prog fun _ => none) := run_inv prog _ _ _ init_inv hr
  obtain ⟨s', hst⟩ := add_whole hi env x e he hw hb
  rw [run_append, hr]
  show (step s env (.add x e)).bind (run []) = _
  rw [hst, expr_addAssign_abort x w env (by
    cases hc : contig w
    · exact Or.inr (Or.inr ⟨rfl, by simpa [hc] using hs⟩)
    · exact Or.inr (Or.inl ⟨rfl, by simpa [hc] using hs⟩))]
  rfl

/-- C102 fails in general: an expression kept in a variable of which an operand was itself an expression (`auto e = a + 2. * b;`) refers to an
object that was destroyed at the end of that statement. Every later use, with a matrix of its shape, is undefined behaviour. -/
theorem kept_nested_fails {prog : List (Stmt α)} {env0 env : Env α} {s : Store α} (hr : run prog (Store.init, env0) = .ok (s, env))
    (p : Nat) {k : K α} (hp : namesAfter prog (fun _ => none) p = some k) (hk : k.whole = none)
    (x : Nat) (hwf : (env x).1.WF) (hx : 0 < (env x).1.nrows ∧ 0 < (env x).1.ncols)
    (hs : ∀ m n, k.shape env = some (m, n) → (env x).1.nrows = m ∧ (env x).1.ncols = n) :
    run (prog ++ [.add x (.name p)]) (Store.init, env0) = .ub := by
  have hi : Inv s (namesAfter prog fun _ => none) := run_inv prog _ _ _ init_inv hr
  rw [run_append, hr]
  show (step s env (.add x (.name p))).bind (run []) = _
  have hsh : ∀ m, k.rows env = .ok m → (env x).1.nrows = m := by
    intro m hm
    rcases shape_rows env k with ⟨_, h, _⟩ | ⟨m', n', h1, h2, h3⟩
    · rw [h] at hm; cases hm
    · rw [h2, Res.ok.injEq] at hm
      subst hm
      exact (hs _ _ h1).1
  have hsc : ∀ m, k.cols env = .ok m → (env x).1.ncols = m := by
    intro m hm
    rcases shape_rows env k with ⟨_, _, h⟩ | ⟨m', n', h1, h2, h3⟩
    · rw [h] at hm; cases hm
    · rw [h3, Res.ok.injEq] at hm
      subst hm
      exact (hs _ _ h1).2
  rcases add_gone hi env x p hp hk hwf hx.1 hx.2 (fun m hm => hsh m hm ▸ hx.1) (fun n hn => hsc n hn ▸ hx.2) with h | ⟨m, n, h1, h2, h3, -⟩
  · rw [h]; rfl
  · exact absurd ⟨hsh m h1, hsc n h2⟩ h3

/-- Two matrices and a target. -/
private def mats : Env Int := fun x => (⟨.columnWise, 1, 2⟩, if x = 0 then [0, 0] else if x = 1 then [1, 2] else [10, 20])

/-- `auto p = b * 2; auto q = a + p; b = {3, 4}; x += q;`: the operands are named, the values of `b` are those at the use. -/
example : ∃ s' env', run [.keep 7 (.scale (.mat 2) 2), .keep 8 (.sum (.mat 1) (.name 7)), .set 2 (⟨.columnWise, 1, 2⟩, [3, 4]), .add 0 (.name 8)]
      (Store.init, mats) = .ok (s', env') ∧ (env' 0).2 = [7, 10] :=
  ⟨_, _, rfl, rfl⟩

/-- The hypotheses of `kept_partial` are met in that program. -/
example : ∃ k w, (Src.name 8 : Src Int).tree (namesAfter [.keep 7 (.scale (.mat 2) 2), .keep 8 (.sum (.mat 1) (.name 7)),
      .set 2 (⟨.columnWise, 1, 2⟩, [3, 4])] fun _ => none) = some k ∧ k.whole = some w ∧ w = .sum (.mat 1) (.scale (.mat 2) 2) ∧ built mats w = true :=
  ⟨_, _, rfl, rfl, rfl, rfl⟩

/-- The same in one statement needs no names: the parts live until its end. -/
example : ∃ s' env', run [.add 0 (.sum (.mat 1) (.scale (.mat 2) (2 : Int)))] (Store.init, mats) = .ok (s', env') ∧ (env' 0).2 = [21, 42] :=
  ⟨_, _, rfl, rfl⟩

/-- `auto q = a + b * 2; x += q;`: the scaled matrix is gone. -/
example : ∃ s', run [.keep 8 (.sum (.mat 1) (.scale (.mat 2) 2))] (Store.init, mats) = .ok (s', mats) ∧
    namesAfter [.keep 8 (.sum (.mat 1) (.scale (.mat 2) (2 : Int)))] (fun _ => none) 8 = some (.sum (.mat 1) .gone) ∧
    (K.sum (.mat 1) .gone : K Int).whole = none ∧
    run [.keep 8 (.sum (.mat 1) (.scale (.mat 2) 2)), .add 0 (.name 8)] (Store.init, mats) = .ub :=
  ⟨_, rfl, rfl, rfl, rfl⟩

end Verif.MatrixKept
