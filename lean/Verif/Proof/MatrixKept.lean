import Verif.Model.MatrixKept
import Verif.Spec.MatrixKept
import Verif.Props.MatrixExpr
/-
Objects in memory represent expressions of which parts may be gone.
-/
namespace Verif.MatrixKept
open Verif Storage MatrixExpr

variable {α : Type}

/-! ### Expressions with parts gone -/

def K.rows (env : Env α) : K α → Res Nat
  | .gone => .ub
  | .mat x => .ok (env x).1.nrows
  | .view _ r _ => .ok r
  | .scale e _ => e.rows env
  | .sum a _ => a.rows env

def K.cols (env : Env α) : K α → Res Nat
  | .gone => .ub
  | .mat x => .ok (env x).1.ncols
  | .view _ _ c => .ok c
  | .scale e _ => e.cols env
  | .sum a _ => a.cols env

def K.elem [Add α] [Mul α] (env : Env α) : K α → Int → Int → Res α
  | .gone, _, _ => .ub
  | .mat x, i, j => rd (env x).2 ((env x).1.index i j)
  | .view e _ _, i, j => e.elem env i j
  | .scale e f, i, j => (e.elem env i j).bind fun v => .ok (v * f)
  | .sum a b, i, j => (b.elem env i j).bind fun v => (a.elem env i j).bind fun w => .ok (v + w)

def K.data [Add α] [Mul α] (env : Env α) : K α → Int → Res α
  | .gone, _ => .ub
  | .mat x, k => rd (env x).2 k
  | .view _ _ _, _ => .ub
  | .scale e f, k => (e.data env k).bind fun v => .ok (v * f)
  | .sum a b, k => (a.data env k).bind fun v => (b.data env k).bind fun w => .ok (v + w)

theorem whole_rows (env : Env α) : ∀ (k : K α) (e : E α), k.whole = some e → k.rows env = .ok (MatrixExpr.rows env e) ∧ k.cols env = .ok (MatrixExpr.cols env e)
  | .gone, _, h => by simp [K.whole] at h
  | .mat x, e, h => by simp only [K.whole, Option.some.injEq] at h; subst h; exact ⟨rfl, rfl⟩
  | .view k r c, e, h => by
    simp only [K.whole, Option.map_eq_some_iff] at h
    obtain ⟨e', _, rfl⟩ := h
    exact ⟨rfl, rfl⟩
  | .scale k f, e, h => by
    simp only [K.whole, Option.map_eq_some_iff] at h
    obtain ⟨e', h', rfl⟩ := h
    exact whole_rows env k e' h'
  | .sum a b, e, h => by
    simp only [K.whole, Option.bind_eq_bind, Option.bind_eq_some_iff, Option.some.injEq] at h
    obtain ⟨a', ha, b', _, rfl⟩ := h
    exact whole_rows env a a' ha

theorem whole_elem [Add α] [Mul α] (env : Env α) : ∀ (k : K α) (e : E α), k.whole = some e → ∀ i j, k.elem env i j = elemAt env e i j
  | .gone, _, h => by simp [K.whole] at h
  | .mat x, e, h => by simp only [K.whole, Option.some.injEq] at h; subst h; intro i j; rfl
  | .view k r c, e, h => by
    simp only [K.whole, Option.map_eq_some_iff] at h
    obtain ⟨e', h', rfl⟩ := h
    exact whole_elem env k e' h'
  | .scale k f, e, h => by
    simp only [K.whole, Option.map_eq_some_iff] at h
    obtain ⟨e', h', rfl⟩ := h
    intro i j
    show (k.elem env i j).bind _ = _
    rw [whole_elem env k e' h']
    rfl
  | .sum a b, e, h => by
    simp only [K.whole, Option.bind_eq_bind, Option.bind_eq_some_iff, Option.some.injEq] at h
    obtain ⟨a', ha, b', hb, rfl⟩ := h
    intro i j
    show (b.elem env i j).bind _ = _
    rw [whole_elem env b b' hb, whole_elem env a a' ha]
    rfl

theorem whole_data [Add α] [Mul α] (env : Env α) : ∀ (k : K α) (e : E α), k.whole = some e → ∀ i, k.data env i = dataAt env e i
  | .gone, _, h => by simp [K.whole] at h
  | .mat x, e, h => by simp only [K.whole, Option.some.injEq] at h; subst h; intro i; rfl
  | .view k r c, e, h => by
    simp only [K.whole, Option.map_eq_some_iff] at h
    obtain ⟨e', h', rfl⟩ := h
    intro i
    rfl
  | .scale k f, e, h => by
    simp only [K.whole, Option.map_eq_some_iff] at h
    obtain ⟨e', h', rfl⟩ := h
    intro i
    show (k.data env i).bind _ = _
    rw [whole_data env k e' h']
    rfl
  | .sum a b, e, h => by
    simp only [K.whole, Option.bind_eq_bind, Option.bind_eq_some_iff, Option.some.injEq] at h
    obtain ⟨a', ha, b', hb, rfl⟩ := h
    intro i
    show (a.data env i).bind _ = _
    rw [whole_data env a a' ha, whole_data env b b' hb]
    rfl

theorem rd_or (d : List α) (k : Int) : rd d k = .ub ∨ ∃ v, rd d k = .ok v := by
  unfold rd
  split
  · split
    · exact Or.inr ⟨_, rfl⟩
    · exact Or.inl rfl
  · exact Or.inl rfl

theorem elem_or [Add α] [Mul α] (env : Env α) (i j : Int) : ∀ k : K α, k.elem env i j = .ub ∨ ∃ v, k.elem env i j = .ok v
  | .gone => Or.inl rfl
  | .mat x => rd_or _ _
  | .view e _ _ => elem_or env i j e
  | .scale e f => by
    rcases elem_or env i j e with h | ⟨v, h⟩
    · left; show (e.elem env i j).bind _ = _; rw [h]; rfl
    · right; exact ⟨v * f, by show (e.elem env i j).bind _ = _; rw [h]; rfl⟩
  | .sum a b => by
    rcases elem_or env i j b with h | ⟨v, h⟩
    · left; show (b.elem env i j).bind _ = _; rw [h]; rfl
    · rcases elem_or env i j a with h' | ⟨w, h'⟩
      · left; show (b.elem env i j).bind _ = _; rw [h]; show (a.elem env i j).bind _ = _; rw [h']; rfl
      · right; exact ⟨v + w, by show (b.elem env i j).bind _ = _; rw [h]; show (a.elem env i j).bind _ = _; rw [h']; rfl⟩

/-- An expression with a part gone has no elements. -/
theorem gone_elem [Add α] [Mul α] (env : Env α) (i j : Int) : ∀ k : K α, k.whole = none → k.elem env i j = .ub
  | .gone, _ => rfl
  | .mat x, h => by simp [K.whole] at h
  | .view e r c, h => gone_elem env i j e (by simpa [K.whole] using h)
  | .scale e f, h => by
    show (e.elem env i j).bind _ = _
    rw [gone_elem env i j e (by simpa [K.whole] using h)]
    rfl
  | .sum a b, h => by
    show (b.elem env i j).bind _ = _
    cases hb : b.whole with
    | none => rw [gone_elem env i j b hb]; rfl
    | some e =>
      have ha : a.whole = none := by
        cases ha : a.whole with
        | none => rfl
        | some e' => simp [K.whole, ha, hb] at h
      rcases elem_or env i j b with h' | ⟨v, h'⟩
      · rw [h']; rfl
      · rw [h']
        show (a.elem env i j).bind _ = _
        rw [gone_elem env i j a ha]; rfl

theorem data_or [Add α] [Mul α] (env : Env α) (i : Int) : ∀ k : K α, k.data env i = .ub ∨ ∃ v, k.data env i = .ok v
  | .gone => Or.inl rfl
  | .mat x => rd_or _ _
  | .view e _ _ => Or.inl rfl
  | .scale e f => by
    rcases data_or env i e with h | ⟨v, h⟩
    · left; show (e.data env i).bind _ = _; rw [h]; rfl
    · right; exact ⟨v * f, by show (e.data env i).bind _ = _; rw [h]; rfl⟩
  | .sum a b => by
    rcases data_or env i a with h | ⟨v, h⟩
    · left; show (a.data env i).bind _ = _; rw [h]; rfl
    · rcases data_or env i b with h' | ⟨w, h'⟩
      · left; show (a.data env i).bind _ = _; rw [h]; show (b.data env i).bind _ = _; rw [h']; rfl
      · right; exact ⟨v + w, by show (a.data env i).bind _ = _; rw [h]; show (b.data env i).bind _ = _; rw [h']; rfl⟩

theorem gone_data [Add α] [Mul α] (env : Env α) (i : Int) : ∀ k : K α, k.whole = none → k.data env i = .ub
  | .gone, _ => rfl
  | .mat x, h => by simp [K.whole] at h
  | .view e r c, h => rfl
  | .scale e f, h => by
    show (e.data env i).bind _ = _
    rw [gone_data env i e (by simpa [K.whole] using h)]
    rfl
  | .sum a b, h => by
    show (a.data env i).bind _ = _
    cases ha : a.whole with
    | none => rw [gone_data env i a ha]; rfl
    | some e =>
      have hb : b.whole = none := by
        cases hb : b.whole with
        | none => rfl
        | some e' => simp [K.whole, ha, hb] at h
      rcases data_or env i a with h' | ⟨v, h'⟩
      · rw [h']; rfl
      · rw [h']
        show (b.data env i).bind _ = _
        rw [gone_data env i b hb]; rfl

/-! ### Objects -/

def Ref.lt : Ref → Nat → Prop
  | .mat _, _ => True
  | .obj b, a => b < a

/-- The object refers to an expression. -/
inductive Rep (s : Store α) : Ref → K α → Prop
  | mat (x : Nat) : Rep s (.mat x) (.mat x)
  | gone {a : Nat} : s.obj a = none → a < s.next → Rep s (.obj a) .gone
  | view {a : Nat} {t : Ref} {r c : Nat} {k : K α} : s.obj a = some (.view t r c) → a < s.next → t.lt a → Rep s t k → Rep s (.obj a) (.view k r c)
  | scale {a : Nat} {t : Ref} {f : α} {c : Bool} {k : K α} : s.obj a = some (.scale t f c) → a < s.next → t.lt a → Rep s t k →
      (∀ e, k.whole = some e → c = contig e) →
      Rep s (.obj a) (.scale k f)
  | sum {a : Nat} {t u : Ref} {c : Bool} {k k' : K α} : s.obj a = some (.sum t u c) → a < s.next → t.lt a → u.lt a → Rep s t k → Rep s u k' →
      (∀ e e', k.whole = some e → k'.whole = some e' → c = (contig e && contig e')) →
      Rep s (.obj a) (.sum k k')

theorem lt_step {t : Ref} {a n : Nat} (h : t.lt a) (hn : (Ref.obj a).lt (n + 1)) : t.lt n := by
  cases t with
  | mat _ => trivial
  | obj b => exact Nat.lt_of_lt_of_le h (Nat.lt_succ_iff.mp hn)

theorem lt_mono {t : Ref} {a n : Nat} (h : t.lt a) (hn : a ≤ n) : t.lt n := by
  cases t with
  | mat _ => trivial
  | obj b => exact Nat.lt_of_lt_of_le h hn

theorem rep_rows {s : Store α} {t : Ref} {k : K α} (h : Rep s t k) (env : Env α) : ∀ n, t.lt n → rowsAt s env n t = k.rows env ∧ colsAt s env n t = k.cols env := by
  induction h with
  | mat x => intro n _; cases n <;> exact ⟨rfl, rfl⟩
  | gone h _ =>
    intro n hn
    cases n with
    | zero => exact absurd hn (Nat.not_lt_zero _)
    | succ n => unfold rowsAt colsAt; simp only [h]; exact ⟨rfl, rfl⟩
  | view h _ _ _ ih =>
    intro n hn
    cases n with
    | zero => exact absurd hn (Nat.not_lt_zero _)
    | succ n => unfold rowsAt colsAt; simp only [h]; exact ⟨rfl, rfl⟩
  | scale h _ hlt _ _ ih =>
    intro n hn
    cases n with
    | zero => exact absurd hn (Nat.not_lt_zero _)
    | succ n =>
      unfold rowsAt colsAt
      simp only [h]
      exact ih n (lt_step hlt hn)
  | sum h _ hlt _ _ _ _ ih _ =>
    intro n hn
    cases n with
    | zero => exact absurd hn (Nat.not_lt_zero _)
    | succ n =>
      unfold rowsAt colsAt
      simp only [h]
      exact ih n (lt_step hlt hn)

theorem rep_elem [Add α] [Mul α] {s : Store α} {t : Ref} {k : K α} (h : Rep s t k) (env : Env α) :
    ∀ n, t.lt n → (∀ i j, elemOf s env n t i j = k.elem env i j) ∧ (∀ i, dataOf s env n t i = k.data env i) := by
  induction h with
  | mat x => intro n _; cases n <;> exact ⟨fun _ _ => rfl, fun _ => rfl⟩
  | gone h _ =>
    intro n hn
    cases n with
    | zero => exact absurd hn (Nat.not_lt_zero _)
    | succ n => constructor <;> intros <;> simp only [elemOf, dataOf, h] <;> rfl
  | view h _ hlt _ ih =>
    intro n hn
    cases n with
    | zero => exact absurd hn (Nat.not_lt_zero _)
    | succ n =>
      obtain ⟨i1, i2⟩ := ih n (lt_step hlt hn)
      constructor
      · intro i j; simp only [elemOf, h]; exact i1 i j
      · intro i; simp only [dataOf, h]; rfl
  | scale h _ hlt _ _ ih =>
    intro n hn
    cases n with
    | zero => exact absurd hn (Nat.not_lt_zero _)
    | succ n =>
      obtain ⟨i1, i2⟩ := ih n (lt_step hlt hn)
      constructor
      · intro i j; simp only [elemOf, h, i1]; rfl
      · intro i; simp only [dataOf, h, i2]; rfl
  | sum h _ hlt hlt' _ _ _ ih ih' =>
    intro n hn
    cases n with
    | zero => exact absurd hn (Nat.not_lt_zero _)
    | succ n =>
      obtain ⟨i1, i2⟩ := ih n (lt_step hlt hn)
      obtain ⟨j1, j2⟩ := ih' n (lt_step hlt' hn)
      constructor
      · intro i j; simp only [elemOf, h, i1, j1]; rfl
      · intro i; simp only [dataOf, h, i2, j2]; rfl

/-- More objects. -/
def Ext (s s' : Store α) : Prop := s.next ≤ s'.next ∧ ∀ a, a < s.next → s'.obj a = s.obj a

theorem Ext.refl (s : Store α) : Ext s s := ⟨Nat.le_refl _, fun _ _ => rfl⟩

theorem Ext.trans {s s' s'' : Store α} (h : Ext s s') (h' : Ext s' s'') : Ext s s'' :=
  ⟨Nat.le_trans h.1 h'.1, fun a ha => (h'.2 a (Nat.lt_of_lt_of_le ha h.1)).trans (h.2 a ha)⟩

theorem Ext.alloc (s : Store α) (o : Obj α) : Ext s (s.alloc o).2 :=
  ⟨Nat.le_succ _, fun _ ha => if_neg (Nat.ne_of_lt ha)⟩

theorem Ext.sweep {s s' : Store α} (h : Ext s s') (keep : Option Nat) : Ext s (s'.sweep s.next keep) :=
  ⟨h.1, fun a ha => by
    show (if s.next ≤ a ∧ keep ≠ some a then none else s'.obj a) = _
    rw [if_neg (fun hc => absurd hc.1 (Nat.not_le_of_lt ha))]
    exact h.2 a ha⟩

theorem Rep.mono {s s' : Store α} (hx : Ext s s') {t : Ref} {k : K α} (h : Rep s t k) : Rep s' t k := by
  induction h with
  | mat x => exact .mat x
  | gone h hn => exact .gone ((hx.2 _ hn).trans h) (Nat.lt_of_lt_of_le hn hx.1)
  | view h hn hl _ ih => exact .view ((hx.2 _ hn).trans h) (Nat.lt_of_lt_of_le hn hx.1) hl ih
  | scale h hn hl _ hc ih => exact .scale ((hx.2 _ hn).trans h) (Nat.lt_of_lt_of_le hn hx.1) hl ih hc
  | sum h hn hl hl' _ _ hc ih ih' => exact .sum ((hx.2 _ hn).trans h) (Nat.lt_of_lt_of_le hn hx.1) hl hl' ih ih' hc

theorem Rep.lt {s : Store α} {t : Ref} {k : K α} (h : Rep s t k) : t.lt s.next := by
  cases h with
  | mat => trivial
  | gone _ h => exact h
  | view _ h => exact h
  | scale _ h => exact h
  | sum _ h => exact h

/-- The names stand for what the specification says. -/
def Inv (s : Store α) (ns : Names α) : Prop :=
  ∀ p, (s.vars p = none ∧ ns p = none) ∨ ∃ a k, s.vars p = some a ∧ ns p = some k ∧ Rep s (.obj a) k

/-- The type of an expression of which nothing is gone. -/
theorem contigOf_whole {s : Store α} {ns : Names α} (hi : Inv s ns) : ∀ (e : Src α) (k : K α) (w : E α), e.tree ns = some k → k.whole = some w →
    contigOf s e = contig w
  | .mat x, k, w, h, hw => by
    simp only [Src.tree, Option.some.injEq] at h
    subst h
    simp only [K.whole, Option.some.injEq] at hw
    subst hw
    rfl
  | .name p, k, w, h, hw => by
    rcases hi p with ⟨_, hn⟩ | ⟨a, k', hv, hk, hr⟩
    · rw [Src.tree, hn] at h; cases h
    · rw [Src.tree, hk, Option.some.injEq] at h
      subst h
      unfold contigOf
      rw [hv]
      cases hr with
      | gone => simp [K.whole] at hw
      | view h =>
        simp only [K.whole, Option.map_eq_some_iff] at hw
        obtain ⟨w', _, rfl⟩ := hw
        simp only [h]
        rfl
      | scale h _ _ _ hc =>
        simp only [K.whole, Option.map_eq_some_iff] at hw
        obtain ⟨w', hw', rfl⟩ := hw
        simp only [h]
        exact hc w' hw'
      | sum h _ _ _ _ _ hc =>
        simp only [K.whole, Option.bind_eq_bind, Option.bind_eq_some_iff, Option.some.injEq] at hw
        obtain ⟨a', ha, b', hb, rfl⟩ := hw
        simp only [h]
        exact hc _ _ ha hb
  | .view e r c, k, w, h, hw => by
    simp only [Src.tree, Option.map_eq_some_iff] at h
    obtain ⟨k', _, rfl⟩ := h
    simp only [K.whole, Option.map_eq_some_iff] at hw
    obtain ⟨w', _, rfl⟩ := hw
    rfl
  | .scale e f, k, w, h, hw => by
    simp only [Src.tree, Option.map_eq_some_iff] at h
    obtain ⟨k', hk, rfl⟩ := h
    simp only [K.whole, Option.map_eq_some_iff] at hw
    obtain ⟨w', hw', rfl⟩ := hw
    exact contigOf_whole hi e k' w' hk hw'
  | .sum a b, k, w, h, hw => by
    simp only [Src.tree, Option.bind_eq_bind, Option.bind_eq_some_iff, Option.some.injEq] at h
    obtain ⟨k1, h1, k2, h2, rfl⟩ := h
    simp only [K.whole, Option.bind_eq_bind, Option.bind_eq_some_iff, Option.some.injEq] at hw
    obtain ⟨w1, hw1, w2, hw2, rfl⟩ := hw
    show (contigOf s a && contigOf s b) = (contig w1 && contig w2)
    rw [contigOf_whole hi a k1 w1 h1 hw1, contigOf_whole hi b k2 w2 h2 hw2]

theorem afterwards_tree {ns : Names α} {e : Src α} {k : K α} {w : E α} (h : e.afterwards ns = some k) (hw : k.whole = some w) : e.tree ns = some k := by
  cases e with
  | mat x => exact h
  | name p => exact h
  | view | scale | sum =>
    simp only [Src.afterwards, Option.some.injEq] at h
    subst h
    simp [K.whole] at hw

theorem Res.bind_eq {β γ : Type} {r : Res β} {f : β → Res γ} {c : γ} (h : r.bind f = .ok c) : ∃ b, r = .ok b ∧ f b = .ok c := by
  cases r with
  | ok b => exact ⟨b, rfl, h⟩
  | ub => cases h
  | abort => cases h
  | throw => cases h

def Src.isOp : Src α → Prop
  | .mat _ => False
  | .name _ => False
  | _ => True

/-- The objects made for an expression. -/
theorem build_rep {s0 : Store α} {ns : Names α} (hi : Inv s0 ns) (env : Env α) : ∀ (e : Src α) (s s' : Store α) (t : Ref), Ext s0 s →
    build s0 env e s = .ok (t, s') →
    Ext s s' ∧ (∃ k, e.tree ns = some k ∧ Rep s' t k) ∧
      (e.isOp → t = .obj (s'.next - 1) ∧ s.next < s'.next) ∧ (¬ e.isOp → s' = s ∧ t.lt s0.next ∧ ∃ k, e.tree ns = some k ∧ Rep s0 t k)
  | .mat x, s, s', t, hx, h => by
    simp only [build, Res.ok.injEq, Prod.mk.injEq] at h
    obtain ⟨rfl, rfl⟩ := h
    exact ⟨Ext.refl _, ⟨_, rfl, .mat x⟩, fun hf => hf.elim, fun _ => ⟨rfl, trivial, _, rfl, .mat x⟩⟩
  | .name p, s, s', t, hx, h => by
    unfold build at h
    rcases hi p with ⟨hv, -⟩ | ⟨a, k, hv, hk, hr⟩
    · rw [hv] at h; cases h
    · rw [hv] at h
      simp only [Res.ok.injEq, Prod.mk.injEq] at h
      obtain ⟨rfl, rfl⟩ := h
      exact ⟨Ext.refl _, ⟨k, hk, hr.mono hx⟩, fun hf => hf.elim, fun _ => ⟨rfl, hr.lt, k, hk, hr⟩⟩
  | .view e r c, s, s', t, hx, h => by
    unfold build at h
    obtain ⟨⟨t1, s1⟩, h1, h⟩ := Res.bind_eq h
    obtain ⟨x1, ⟨k1, e1, r1⟩, -⟩ := build_rep hi env e s s1 t1 hx h1
    obtain ⟨m, -, h⟩ := Res.bind_eq h
    obtain ⟨n, -, h⟩ := Res.bind_eq h
    split at h
    · simp only [Res.ok.injEq] at h
      have hs : s' = (s1.alloc (.view t1 r c)).2 := by rw [h]
      have ht : t = .obj s1.next := (congrArg Prod.fst h).symm
      subst hs ht
      refine ⟨x1.trans (Ext.alloc _ _), ⟨.view k1 r c, by simp [Src.tree, e1], .view (if_pos rfl) (Nat.lt_succ_self _) r1.lt (r1.mono (Ext.alloc _ _))⟩,
        fun _ => ⟨rfl, Nat.lt_succ_of_le x1.1⟩, fun hn => (hn trivial).elim⟩
    · cases h
  | .scale e f, s, s', t, hx, h => by
    unfold build at h
    obtain ⟨⟨t1, s1⟩, h1, h⟩ := Res.bind_eq h
    obtain ⟨x1, ⟨k1, e1, r1⟩, -⟩ := build_rep hi env e s s1 t1 hx h1
    simp only [Res.ok.injEq] at h
    have hs : s' = (s1.alloc (.scale t1 f (contigOf s0 e))).2 := by rw [h]
    have ht : t = .obj s1.next := (congrArg Prod.fst h).symm
    subst hs ht
    exact ⟨x1.trans (Ext.alloc _ _), ⟨.scale k1 f, by simp [Src.tree, e1], .scale (if_pos rfl) (Nat.lt_succ_self _) r1.lt (r1.mono (Ext.alloc _ _))
      (fun w hw => contigOf_whole hi e k1 w e1 hw)⟩,
      fun _ => ⟨rfl, Nat.lt_succ_of_le x1.1⟩, fun hn => (hn trivial).elim⟩
  | .sum a b, s, s', t, hx, h => by
    unfold build at h
    obtain ⟨⟨t1, s1⟩, h1, h⟩ := Res.bind_eq h
    obtain ⟨x1, ⟨k1, e1, r1⟩, -⟩ := build_rep hi env a s s1 t1 hx h1
    obtain ⟨⟨t2, s2⟩, h2, h⟩ := Res.bind_eq h
    obtain ⟨x2, ⟨k2, e2, r2⟩, -⟩ := build_rep hi env b s1 s2 t2 (hx.trans x1) h2
    obtain ⟨_, -, h⟩ := Res.bind_eq h
    obtain ⟨_, -, h⟩ := Res.bind_eq h
    obtain ⟨_, -, h⟩ := Res.bind_eq h
    obtain ⟨_, -, h⟩ := Res.bind_eq h
    split at h
    · simp only [Res.ok.injEq] at h
      have hs : s' = (s2.alloc (.sum t1 t2 (contigOf s0 a && contigOf s0 b))).2 := by rw [h]
      have ht : t = .obj s2.next := (congrArg Prod.fst h).symm
      subst hs ht
      exact ⟨(x1.trans x2).trans (Ext.alloc _ _), ⟨.sum k1 k2, by simp [Src.tree, e1, e2],
        .sum (if_pos rfl) (Nat.lt_succ_self _) (lt_mono r1.lt x2.1) r2.lt ((r1.mono x2).mono (Ext.alloc _ _)) (r2.mono (Ext.alloc _ _))
        (fun w w' hw hw' => by rw [contigOf_whole hi a k1 w e1 hw, contigOf_whole hi b k2 w' e2 hw'])⟩,
        fun _ => ⟨rfl, Nat.lt_succ_of_le (Nat.le_trans x1.1 x2.1)⟩, fun hn => (hn trivial).elim⟩
    · cases h

/-- An operand after the statement. -/
theorem operand_rep {s0 : Store α} {ns : Names α} (hi : Inv s0 ns) (env : Env α) (e : Src α) {s s' : Store α} {t : Ref} (hx : Ext s0 s)
    (h : build s0 env e s = .ok (t, s')) {s2 : Store α} (hx2 : Ext s' s2) (keep : Nat) (hk : s'.next ≤ keep) :
    ∃ k, e.afterwards ns = some k ∧ Rep (s2.sweep s0.next (some keep)) t k := by
  obtain ⟨x1, ⟨k, ek, rk⟩, h1, h2⟩ := build_rep hi env e s s' t hx h
  have op : e.isOp → e.afterwards ns = some .gone → ∃ k, e.afterwards ns = some k ∧ Rep (s2.sweep s0.next (some keep)) t k := by
    intro ho he
    obtain ⟨rfl, hlt⟩ := h1 ho
    refine ⟨.gone, he, .gone ?_ ?_⟩
    · show (if s0.next ≤ s'.next - 1 ∧ some keep ≠ some (s'.next - 1) then none else _) = none
      rw [if_pos]
      refine ⟨?_, ?_⟩
      · have := hx.1; omega
      · intro hc; simp only [Option.some.injEq] at hc; omega
    · show s'.next - 1 < s2.next
      have := hx2.1; omega
  have nop : ¬ e.isOp → e.afterwards ns = e.tree ns → ∃ k, e.afterwards ns = some k ∧ Rep (s2.sweep s0.next (some keep)) t k := by
    intro ho he
    obtain ⟨-, -, k, ek, rk⟩ := h2 ho
    exact ⟨k, he.trans ek, rk.mono (((hx.trans x1).trans hx2).sweep _)⟩
  cases e with
  | mat x => exact nop (fun h => h) rfl
  | name p => exact nop (fun h => h) rfl
  | view => exact op trivial rfl
  | scale => exact op trivial rfl
  | sum => exact op trivial rfl

theorem sweep_keep {s : Store α} {o : Obj α} {lo : Nat} : ((s.alloc o).2.sweep lo (some s.next)).obj s.next = some o := by
  show (if lo ≤ s.next ∧ some s.next ≠ some s.next then none else (if s.next = s.next then some o else s.obj s.next)) = some o
  rw [if_neg (by simp), if_pos rfl]

/-- Keeping an expression. -/
theorem keep_inv [Add α] [Mul α] {s0 : Store α} {ns : Names α} (hi : Inv s0 ns) (env : Env α) (p : Nat) (e : Top α) {c : Store α × Env α}
    (h : step s0 env (.keep p e) = .ok c) : c.2 = env ∧ Inv c.1 (fun q => if q = p then e.kept ns else ns q) := by
  unfold step at h
  obtain ⟨⟨t, s'⟩, h1, h⟩ := Res.bind_eq h
  simp only [Res.ok.injEq] at h
  subst h
  refine ⟨rfl, ?_⟩
  obtain ⟨x1, -, -⟩ := build_rep hi env e.src s0 s' t (Ext.refl _) h1
  have hrep : ∃ k, e.kept ns = some k ∧ Rep (s'.sweep s0.next (some (s'.next - 1))) (.obj (s'.next - 1)) k := by
    cases e with
    | view e r c =>
      simp only [Top.src, build] at h1
      obtain ⟨⟨t1, s1⟩, h2, h1⟩ := Res.bind_eq h1
      obtain ⟨_, -, h1⟩ := Res.bind_eq h1
      obtain ⟨_, -, h1⟩ := Res.bind_eq h1
      split at h1
      · simp only [Res.ok.injEq] at h1
        have hs : s' = (s1.alloc (.view t1 r c)).2 := by rw [h1]
        subst hs
        obtain ⟨_, ⟨_, _, r1⟩, -⟩ := build_rep hi env e s0 s1 t1 (Ext.refl _) h2
        obtain ⟨k, ek, rk⟩ := operand_rep hi env e (Ext.refl _) h2 (Ext.alloc s1 (.view t1 r c)) s1.next (Nat.le_refl _)
        exact ⟨.view k r c, by simp [Top.kept, ek], .view sweep_keep (Nat.lt_succ_self _) r1.lt rk⟩
      · cases h1
    | scale e f =>
      simp only [Top.src, build] at h1
      obtain ⟨⟨t1, s1⟩, h2, h1⟩ := Res.bind_eq h1
      simp only [Res.ok.injEq] at h1
      have hs : s' = (s1.alloc (.scale t1 f (contigOf s0 e))).2 := by rw [h1]
      subst hs
      obtain ⟨_, ⟨_, _, r1⟩, -⟩ := build_rep hi env e s0 s1 t1 (Ext.refl _) h2
      obtain ⟨k, ek, rk⟩ := operand_rep hi env e (Ext.refl _) h2 (Ext.alloc s1 (.scale t1 f (contigOf s0 e))) s1.next (Nat.le_refl _)
      exact ⟨.scale k f, by simp [Top.kept, ek], .scale sweep_keep (Nat.lt_succ_self _) r1.lt rk
        (fun w hw => contigOf_whole hi e k w (afterwards_tree ek hw) hw)⟩
    | sum a b =>
      simp only [Top.src, build] at h1
      obtain ⟨⟨t1, s1⟩, h2, h1⟩ := Res.bind_eq h1
      obtain ⟨⟨t2, s2⟩, h3, h1⟩ := Res.bind_eq h1
      obtain ⟨_, -, h1⟩ := Res.bind_eq h1
      obtain ⟨_, -, h1⟩ := Res.bind_eq h1
      obtain ⟨_, -, h1⟩ := Res.bind_eq h1
      obtain ⟨_, -, h1⟩ := Res.bind_eq h1
      split at h1
      · simp only [Res.ok.injEq] at h1
        have hs : s' = (s2.alloc (.sum t1 t2 (contigOf s0 a && contigOf s0 b))).2 := by rw [h1]
        subst hs
        obtain ⟨y1, ⟨_, _, r1⟩, -⟩ := build_rep hi env a s0 s1 t1 (Ext.refl _) h2
        obtain ⟨y2, ⟨_, _, r2⟩, -⟩ := build_rep hi env b s1 s2 t2 y1 h3
        obtain ⟨k, ek, rk⟩ := operand_rep hi env a (Ext.refl _) h2 (y2.trans (Ext.alloc s2 (.sum t1 t2 (contigOf s0 a && contigOf s0 b)))) s2.next y2.1
        obtain ⟨k', ek', rk'⟩ := operand_rep hi env b y1 h3 (Ext.alloc s2 (.sum t1 t2 (contigOf s0 a && contigOf s0 b))) s2.next (Nat.le_refl _)
        exact ⟨.sum k k', by simp [Top.kept, ek, ek'], .sum sweep_keep (Nat.lt_succ_self _) (lt_mono r1.lt y2.1) r2.lt rk rk'
          (fun w w' hw hw' => by rw [contigOf_whole hi a k w (afterwards_tree ek hw) hw, contigOf_whole hi b k' w' (afterwards_tree ek' hw') hw'])⟩
      · cases h1
  intro q
  by_cases hq : q = p
  · obtain ⟨k, ek, rk⟩ := hrep
    right
    refine ⟨s'.next - 1, k, if_pos hq, (if_pos hq).trans ek, ?_⟩
    refine Rep.mono ?_ rk
    exact ⟨Nat.le_refl _, fun _ _ => rfl⟩
  · rcases hi q with ⟨hv, hn⟩ | ⟨a, k, hv, hk, hr⟩
    · exact Or.inl ⟨(if_neg hq).trans hv, (if_neg hq).trans hn⟩
    · right
      refine ⟨a, k, (if_neg hq).trans hv, (if_neg hq).trans hk, ?_⟩
      refine Rep.mono ?_ (hr.mono (x1.sweep (some (s'.next - 1))))
      exact ⟨Nat.le_refl _, fun _ _ => rfl⟩

theorem build_vars {s0 : Store α} (env : Env α) : ∀ (e : Src α) (s s' : Store α) (t : Ref), build s0 env e s = .ok (t, s') → s'.vars = s.vars
  | .mat x, s, s', t, h => by
    simp only [build, Res.ok.injEq, Prod.mk.injEq] at h
    rw [h.2]
  | .name p, s, s', t, h => by
    unfold build at h
    split at h
    · cases h
    · simp only [Res.ok.injEq, Prod.mk.injEq] at h
      rw [h.2]
  | .view e r c, s, s', t, h => by
    unfold build at h
    obtain ⟨⟨t1, s1⟩, h1, h⟩ := Res.bind_eq h
    obtain ⟨_, -, h⟩ := Res.bind_eq h
    obtain ⟨_, -, h⟩ := Res.bind_eq h
    split at h
    · simp only [Res.ok.injEq] at h
      have hs : s' = (s1.alloc (.view t1 r c)).2 := by rw [h]
      rw [hs]
      exact build_vars env e s s1 t1 h1
    · cases h
  | .scale e f, s, s', t, h => by
    unfold build at h
    obtain ⟨⟨t1, s1⟩, h1, h⟩ := Res.bind_eq h
    simp only [Res.ok.injEq] at h
    have hs : s' = (s1.alloc (.scale t1 f (contigOf s0 e))).2 := by rw [h]
    rw [hs]
    exact build_vars env e s s1 t1 h1
  | .sum a b, s, s', t, h => by
    unfold build at h
    obtain ⟨⟨t1, s1⟩, h1, h⟩ := Res.bind_eq h
    obtain ⟨⟨t2, s2⟩, h2, h⟩ := Res.bind_eq h
    obtain ⟨_, -, h⟩ := Res.bind_eq h
    obtain ⟨_, -, h⟩ := Res.bind_eq h
    obtain ⟨_, -, h⟩ := Res.bind_eq h
    obtain ⟨_, -, h⟩ := Res.bind_eq h
    split at h
    · simp only [Res.ok.injEq] at h
      have hs : s' = (s2.alloc (.sum t1 t2 (contigOf s0 a && contigOf s0 b))).2 := by rw [h]
      rw [hs]
      exact (build_vars env b s1 s2 t2 h2).trans (build_vars env a s s1 t1 h1)
    · cases h

/-- Statements keep the invariant. -/
theorem run_inv [Add α] [Mul α] : ∀ (sts : List (Stmt α)) (c c' : Store α × Env α) (ns : Names α), Inv c.1 ns → run sts c = .ok c' →
    Inv c'.1 (namesAfter sts ns)
  | [], c, c', ns, hi, h => by
    simp only [run, Res.ok.injEq] at h
    subst h
    exact hi
  | .keep p e :: sts, c, c', ns, hi, h => by
    unfold run at h
    obtain ⟨c1, h1, h⟩ := Res.bind_eq h
    exact run_inv sts c1 c' _ (keep_inv hi c.2 p e h1).2 h
  | .add x e :: sts, c, c', ns, hi, h => by
    unfold run at h
    obtain ⟨c1, h1, h⟩ := Res.bind_eq h
    refine run_inv sts c1 c' ns ?_ h
    unfold step at h1
    obtain ⟨⟨t, s'⟩, h2, h1⟩ := Res.bind_eq h1
    obtain ⟨env', -, h1⟩ := Res.bind_eq h1
    simp only [Res.ok.injEq] at h1
    subst h1
    obtain ⟨x1, -, -⟩ := build_rep hi c.2 e c.1 s' t (Ext.refl _) h2
    have hv := build_vars c.2 e c.1 s' t h2
    intro q
    rcases hi q with ⟨hq, hn⟩ | ⟨a, k, hq, hk, hr⟩
    · exact Or.inl ⟨(congrFun hv q).trans hq, hn⟩
    · exact Or.inr ⟨a, k, (congrFun hv q).trans hq, hk, hr.mono (x1.sweep _)⟩
  | .set x v :: sts, c, c', ns, hi, h => by
    unfold run at h
    obtain ⟨c1, h1, h⟩ := Res.bind_eq h
    simp only [step, Res.ok.injEq] at h1
    subst h1
    exact run_inv sts (c.1, c.2.set x v) c' ns hi h

theorem init_inv : Inv (Store.init : Store α) (fun _ => none) := fun _ => Or.inl ⟨rfl, rfl⟩

/-- An expression of which nothing is gone is made if the shapes of its operands fit. -/
theorem build_whole {s0 : Store α} {ns : Names α} (hi : Inv s0 ns) (env : Env α) : ∀ (e : Src α) (s : Store α) (k : K α) (w : E α), Ext s0 s →
    e.tree ns = some k → k.whole = some w → built env w = true → ∃ c, build s0 env e s = .ok c
  | .mat x, s, k, w, _, _, _, _ => ⟨_, rfl⟩
  | .name p, s, k, w, hx, h, hw, hb => by
    rcases hi p with ⟨_, hn⟩ | ⟨a, k', hv, hk, hr⟩
    · rw [Src.tree, hn] at h; cases h
    · unfold build; rw [hv]; exact ⟨_, rfl⟩
  | .view e r c, s, k, w, hx, h, hw, hb => by
    simp only [Src.tree, Option.map_eq_some_iff] at h
    obtain ⟨k1, h1, rfl⟩ := h
    simp only [K.whole, Option.map_eq_some_iff] at hw
    obtain ⟨w1, hw1, rfl⟩ := hw
    simp only [built, Bool.and_eq_true, decide_eq_true_eq] at hb
    obtain ⟨⟨t1, s1⟩, e1⟩ := build_whole hi env e s k1 w1 hx h1 hw1 hb.1.1
    obtain ⟨-, ⟨k1', e2, r1⟩, -⟩ := build_rep hi env e s s1 t1 hx e1
    rw [h1, Option.some.injEq] at e2
    subst e2
    unfold build
    rw [e1]
    simp only [Res.bind]
    obtain ⟨q1, q2⟩ := rep_rows r1 env s1.next r1.lt
    obtain ⟨q3, q4⟩ := whole_rows env k1 w1 hw1
    rw [q1, q2, q3, q4]
    simp only [Res.bind]
    rw [if_pos ⟨hb.1.2, hb.2⟩]
    exact ⟨_, rfl⟩
  | .scale e f, s, k, w, hx, h, hw, hb => by
    simp only [Src.tree, Option.map_eq_some_iff] at h
    obtain ⟨k1, h1, rfl⟩ := h
    simp only [K.whole, Option.map_eq_some_iff] at hw
    obtain ⟨w1, hw1, rfl⟩ := hw
    obtain ⟨⟨t1, s1⟩, e1⟩ := build_whole hi env e s k1 w1 hx h1 hw1 hb
    unfold build
    rw [e1]
    exact ⟨_, rfl⟩
  | .sum a b, s, k, w, hx, h, hw, hb => by
    simp only [Src.tree, Option.bind_eq_bind, Option.bind_eq_some_iff, Option.some.injEq] at h
    obtain ⟨k1, h1, k2, h2, rfl⟩ := h
    simp only [K.whole, Option.bind_eq_bind, Option.bind_eq_some_iff, Option.some.injEq] at hw
    obtain ⟨w1, hw1, w2, hw2, rfl⟩ := hw
    simp only [built, Bool.and_eq_true, decide_eq_true_eq] at hb
    obtain ⟨⟨t1, s1⟩, e1⟩ := build_whole hi env a s k1 w1 hx h1 hw1 hb.1.1.1
    obtain ⟨x1, ⟨k1', e2, r1⟩, -⟩ := build_rep hi env a s s1 t1 hx e1
    rw [h1, Option.some.injEq] at e2
    subst e2
    obtain ⟨⟨t2, s2⟩, e3⟩ := build_whole hi env b s1 k2 w2 (hx.trans x1) h2 hw2 hb.1.1.2
    obtain ⟨x2, ⟨k2', e4, r2⟩, -⟩ := build_rep hi env b s1 s2 t2 (hx.trans x1) e3
    rw [h2, Option.some.injEq] at e4
    subst e4
    unfold build
    rw [e1]
    simp only [Res.bind]
    rw [e3]
    simp only [Res.bind]
    obtain ⟨q1, q2⟩ := rep_rows (r1.mono x2) env s2.next (r1.mono x2).lt
    obtain ⟨q3, q4⟩ := whole_rows env k1 w1 hw1
    obtain ⟨q5, q6⟩ := rep_rows r2 env s2.next r2.lt
    obtain ⟨q7, q8⟩ := whole_rows env k2 w2 hw2
    rw [q1, q2, q3, q4, q5, q6, q7, q8]
    simp only [Res.bind]
    rw [if_pos ⟨hb.1.2, hb.2⟩]
    exact ⟨_, rfl⟩

theorem do_bind {β γ : Type} (r : Res β) (f : β → Res γ) : (r >>= f) = r.bind f := rfl

/-- Adding an expression of which nothing is gone. -/
theorem add_whole [Add α] [Mul α] {s : Store α} {ns : Names α} (hi : Inv s ns) (env : Env α) (x : Nat) (e : Src α) {k : K α} {w : E α}
    (he : e.tree ns = some k) (hw : k.whole = some w) (hb : built env w = true) :
    ∃ s', step s env (.add x e) = (addAssign x w env).bind fun env' => .ok (s', env') := by
  obtain ⟨⟨t, s'⟩, e1⟩ := build_whole hi env e s k w (Ext.refl _) he hw hb
  obtain ⟨-, ⟨k', e2, r1⟩, -⟩ := build_rep hi env e s s' t (Ext.refl _) e1
  rw [he, Option.some.injEq] at e2
  subst e2
  refine ⟨s'.sweep s.next none, ?_⟩
  show (build s env e s).bind _ = _
  rw [e1]
  show (addWith x (contigOf s e) _ _ _ _ env).bind _ = _
  obtain ⟨q1, q2⟩ := rep_rows r1 env s'.next r1.lt
  obtain ⟨q3, q4⟩ := whole_rows env k w hw
  have qe : (fun env => elemOf s' env s'.next t) = fun env => elemAt env w := by
    funext env i j
    rw [(rep_elem r1 env s'.next r1.lt).1, whole_elem env k w hw]
  have qd : (fun env => dataOf s' env s'.next t) = fun env => dataAt env w := by
    funext env i
    rw [(rep_elem r1 env s'.next r1.lt).2, whole_data env k w hw]
  rw [q1, q2, q3, q4, qe, qd, contigOf_whole hi e k w he hw]
  congr 1
  unfold addWith addAssign reduceCopy
  simp only [Res.bind, hb, if_true]
  rfl

theorem forEach_ub {β σ : Type} {l : List β} {f : β → σ → Res σ} {x : σ} {b : β} {l' : List β} (hl : l = b :: l') (h : f b x = .ub) :
    forEach l f x = .ub := by
  subst hl
  unfold forEach
  rw [h]
  rfl

theorem elements_pos {st : St} (hw : st.WF) (hr : 0 < st.nrows) (hc : 0 < st.ncols) : 0 < st.numElements ∧ 0 < st.sliceLen 0 := by
  obtain ⟨l, r, c⟩ := st
  have htri : 0 < r → 0 < r * (r + 1) / 2 := fun h => Nat.div_pos (by nlinarith) (by decide)
  cases l with
  | rowWise => exact ⟨Nat.mul_pos hr hc, by show (0 : Int) < c; exact_mod_cast hc⟩
  | columnWise => exact ⟨Nat.mul_pos hr hc, by show (0 : Int) < r; exact_mod_cast hr⟩
  | lwTriangularRowWise => exact ⟨htri hr, by show (0 : Int) < 0 + 1; decide⟩
  | lwTriangularColWise => exact ⟨htri hr, by show (0 : Int) < r - 0; simpa using (show 0 < r from hr)⟩
  | trapezoid =>
    have hc' : 0 < c := hc
    refine ⟨?_, ?_⟩
    · show 0 < (if r = c then r * (r + 1) / 2 else St.trapOffset c r)
      split
      · exact htri hr
      · obtain ⟨q, rfl⟩ : ∃ q, r = q + 1 := ⟨r - 1, (Nat.succ_pred_eq_of_pos hr).symm⟩
        show 0 < St.trapOffset c q + min (q + 1) c
        have : 0 < min (q + 1) c := by simp [hc']
        omega
    · show (0 : Int) < min (0 + 1) (c : Int)
      have : (0 : Int) < c := by exact_mod_cast hc'
      omega

theorem range_pos {n : Nat} (h : 0 < n) : ∃ l, List.range n = 0 :: l := by
  obtain ⟨q, rfl⟩ : ∃ q, n = q + 1 := ⟨n - 1, (Nat.succ_pred_eq_of_pos h).symm⟩
  exact ⟨_, List.range_succ_eq_map⟩

/-- Adding an expression of which a part is gone to a matrix that has elements. -/
theorem addWith_gone [Add α] [Mul α] (x : Nat) (c : Bool) (k : K α) (env : Env α) (hk : k.whole = none) (hwf : (env x).1.WF)
    (hr : 0 < (env x).1.nrows) (hc : 0 < (env x).1.ncols) (hm : ∀ m, k.rows env = .ok m → 0 < m) (hn : ∀ n, k.cols env = .ok n → 0 < n) :
    addWith x c (k.rows env) (k.cols env) (fun env => k.elem env) (fun env => k.data env) env = .ub ∨
    (∃ m n, k.rows env = .ok m ∧ k.cols env = .ok n ∧
      (if c then ¬ ((env x).1.nrows = m ∧ (env x).1.ncols = n) else ¬ ((env x).1.nrows ≥ m ∧ (env x).1.ncols ≥ n)) ∧
    addWith x c (k.rows env) (k.cols env) (fun env => k.elem env) (fun env => k.data env) env = .abort) := by
  obtain ⟨he, hs⟩ := elements_pos hwf hr hc
  unfold addWith
  have hro : ∀ k : K α, k.rows env = .ub ∨ ∃ m, k.rows env = .ok m := by
    intro k
    induction k with
    | gone => exact Or.inl rfl
    | mat | view => exact Or.inr ⟨_, rfl⟩
    | scale e f ih => exact ih
    | sum a b ih _ => exact ih
  have hco : ∀ k : K α, k.cols env = .ub ∨ ∃ m, k.cols env = .ok m := by
    intro k
    induction k with
    | gone => exact Or.inl rfl
    | mat | view => exact Or.inr ⟨_, rfl⟩
    | scale e f ih => exact ih
    | sum a b ih _ => exact ih
  rcases hro k with h1 | ⟨m, h1⟩
  · left; rw [h1]; rfl
  rcases hco k with h2 | ⟨n, h2⟩
  · left; rw [h1, h2]; rfl
  have hm := hm m h1
  have hn := hn n h2
  rw [h1, h2]
  simp only [Res.bind]
  cases c with
  | true =>
    simp only [if_true]
    by_cases hf : (env x).1.nrows = m ∧ (env x).1.ncols = n
    · rw [if_pos hf]
      left
      obtain ⟨l, hl⟩ := range_pos he
      refine forEach_ub hl ?_
      rw [gone_data env _ k hk]
    · right
      exact ⟨m, n, rfl, rfl, hf, if_neg hf⟩
  | false =>
    simp only [Bool.false_eq_true, if_false]
    by_cases hf : (env x).1.nrows ≥ m ∧ (env x).1.ncols ≥ n
    · rw [if_pos hf]
      left
      split
      · obtain ⟨l, hl⟩ := range_pos hm
        refine forEach_ub hl ?_
        have : 0 < (min (n : Int) ((env x).1.sliceLen ((0 : Nat) : Int))).toNat := by
          have : (0 : Int) < n := by exact_mod_cast hn
          have h0 : 0 < (env x).1.sliceLen ((0 : Nat) : Int) := hs
          omega
        obtain ⟨l', hl'⟩ := range_pos this
        refine forEach_ub hl' ?_
        rw [gone_elem env _ _ k hk]
      · obtain ⟨l, hl⟩ := range_pos hn
        refine forEach_ub hl ?_
        have h0 : (St.firstRowOfCol (env x).1.layout ((0 : Nat) : Int)).toNat = 0 := by cases (env x).1.layout <;> rfl
        rw [h0]
        obtain ⟨q, rfl⟩ : ∃ q, m = q + 1 := ⟨m - 1, (Nat.succ_pred_eq_of_pos hm).symm⟩
        refine forEach_ub (b := 0) (l' := List.range' 1 q) (by rw [Nat.sub_zero]; rfl) ?_
        rw [gone_elem env _ _ k hk]
    · right
      exact ⟨m, n, rfl, rfl, hf, if_neg hf⟩

/-- Adding an expression of which a part is gone. -/
theorem add_gone [Add α] [Mul α] {s : Store α} {ns : Names α} (hi : Inv s ns) (env : Env α) (x p : Nat) {k : K α}
    (he : ns p = some k) (hk : k.whole = none) (hwf : (env x).1.WF)
    (hr : 0 < (env x).1.nrows) (hc : 0 < (env x).1.ncols) (hm : ∀ m, k.rows env = .ok m → 0 < m) (hn : ∀ n, k.cols env = .ok n → 0 < n) :
    step s env (.add x (.name p)) = .ub ∨ ∃ m n, k.rows env = .ok m ∧ k.cols env = .ok n ∧ ¬ ((env x).1.nrows = m ∧ (env x).1.ncols = n) ∧
      step s env (.add x (.name p)) = .abort := by
  rcases hi p with ⟨_, h⟩ | ⟨a, k', hv, hk', hrep⟩
  · rw [he] at h; cases h
  rw [he, Option.some.injEq] at hk'
  subst hk'
  have hb : build s env (.name p) s = .ok (.obj a, s) := by unfold build; rw [hv]
  have hst : step s env (.add x (.name p)) = (addWith x (contigOf s (.name p)) (k.rows env) (k.cols env) (fun env => k.elem env)
      (fun env => k.data env) env).bind fun env' => .ok (s.sweep s.next none, env') := by
    show (build s env (.name p) s).bind _ = _
    rw [hb]
    show (addWith x (contigOf s (.name p)) _ _ _ _ env).bind _ = _
    obtain ⟨q1, q2⟩ := rep_rows hrep env s.next hrep.lt
    have qe : (fun env => elemOf s env s.next (.obj a)) = fun env => k.elem env := by
      funext env i j
      rw [(rep_elem hrep env s.next hrep.lt).1]
    have qd : (fun env => dataOf s env s.next (.obj a)) = fun env => k.data env := by
      funext env i
      rw [(rep_elem hrep env s.next hrep.lt).2]
    rw [q1, q2, qe, qd]
  rcases addWith_gone x (contigOf s (.name p)) k env hk hwf hr hc hm hn with h | ⟨m, n, h1, h2, h3, h⟩
  · left; rw [hst, h]; rfl
  · right
    refine ⟨m, n, h1, h2, ?_, by rw [hst, h]; rfl⟩
    split at h3
    · exact h3
    · exact fun hc => h3 ⟨le_of_eq hc.1.symm, le_of_eq hc.2.symm⟩

theorem shape_rows (env : Env α) : ∀ k : K α, (k.shape env = none ∧ k.rows env = .ub ∧ k.cols env = .ub) ∨
    ∃ m n, k.shape env = some (m, n) ∧ k.rows env = .ok m ∧ k.cols env = .ok n
  | .gone => Or.inl ⟨rfl, rfl, rfl⟩
  | .mat _ => Or.inr ⟨_, _, rfl, rfl, rfl⟩
  | .view _ _ _ => Or.inr ⟨_, _, rfl, rfl, rfl⟩
  | .scale e _ => shape_rows env e
  | .sum a _ => shape_rows env a

theorem run_append [Add α] [Mul α] : ∀ (p q : List (Stmt α)) (c : Store α × Env α), run (p ++ q) c = (run p c).bind (run q)
  | [], _, _ => rfl
  | st :: p, q, c => by
    show (step c.1 c.2 st).bind (run (p ++ q)) = ((step c.1 c.2 st).bind (run p)).bind (run q)
    cases step c.1 c.2 st with
    | ok c' => exact run_append p q c'
    | ub => rfl
    | abort => rfl
    | throw => rfl

end Verif.MatrixKept
