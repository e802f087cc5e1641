import Verif.Spec.MatrixExpr
import Verif.Props.Storage
import Mathlib.Tactic.Ring
import Mathlib.Data.List.Nodup
/- Loops that update distinct cells of one buffer; evaluation of expressions. -/
namespace Verif

section
variable {κ ι σ : Type _}

@[simp] theorem forEach_nil (f : κ → σ → Res σ) (s : σ) : forEach [] f s = .ok s := rfl
@[simp] theorem forEach_cons (k : κ) (ks : List κ) (f : κ → σ → Res σ) (s : σ) :
    forEach (k :: ks) f s = (f k s) >>= forEach ks f := rfl

theorem forEach_append (as bs : List κ) (f : κ → σ → Res σ) (s : σ) :
    forEach (as ++ bs) f s = forEach as f s >>= forEach bs f := by
  induction as generalizing s with
  | nil => rfl
  | cons a as ih =>
    simp only [List.cons_append, forEach_cons]
    cases f a s with
    | ok s1 => simp only [Res.bind_ok]; exact ih s1
    | ub => rfl
    | abort => rfl
    | throw => rfl

theorem forEach_flatMap (as : List κ) (g : κ → List ι) (f : ι → σ → Res σ) (s : σ) :
    forEach (as.flatMap g) f s = forEach as (fun a s => forEach (g a) f s) s := by
  induction as generalizing s with
  | nil => rfl
  | cons a as ih =>
    simp only [List.flatMap_cons, forEach_append, forEach_cons]
    cases forEach (g a) f s with
    | ok s1 => simp only [Res.bind_ok]; exact ih s1
    | ub => rfl
    | abort => rfl
    | throw => rfl

theorem forEach_map (as : List κ) (g : κ → ι) (f : ι → σ → Res σ) (s : σ) :
    forEach (as.map g) f s = forEach as (fun a s => f (g a) s) s := by
  induction as generalizing s with
  | nil => rfl
  | cons a as ih =>
    simp only [List.map_cons, forEach_cons]
    cases f (g a) s with
    | ok s1 => simp only [Res.bind_ok]; exact ih s1
    | ub => rfl
    | abort => rfl
    | throw => rfl

theorem forEach_congr (as : List κ) (f g : κ → σ → Res σ) (h : ∀ a ∈ as, ∀ s, f a s = g a s) (s : σ) :
    forEach as f s = forEach as g s := by
  induction as generalizing s with
  | nil => rfl
  | cons a as ih =>
    simp only [forEach_cons]
    rw [h a (by simp)]
    cases g a s with
    | ok s1 => simp only [Res.bind_ok]; exact ih (fun b hb => h b (by simp [hb])) s1
    | ub => rfl
    | abort => rfl
    | throw => rfl
end

namespace MatrixExpr
open Verif Storage

variable {α : Type}

/-- only the buffer content of `x` may differ -/
def Agree (x : Nat) (env env' : Env α) : Prop :=
  (∀ y, y ≠ x → env' y = env y) ∧ (env' x).1 = (env x).1 ∧ (env' x).2.length = (env x).2.length

theorem Agree.refl (x : Nat) (env : Env α) : Agree x env env := ⟨fun _ _ => rfl, rfl, rfl⟩

theorem Agree.trans {x : Nat} {a b c : Env α} (h1 : Agree x a b) (h2 : Agree x b c) : Agree x a c :=
  ⟨fun y hy => by rw [h2.1 y hy, h1.1 y hy], by rw [h2.2.1, h1.2.1], by rw [h2.2.2, h1.2.2]⟩

theorem Agree.st {x : Nat} {a b : Env α} (h : Agree x a b) (y : Nat) : (b y).1 = (a y).1 := by
  by_cases hy : y = x
  · subst hy; exact h.2.1
  · rw [h.1 y hy]

theorem rd_ok {d : List α} {k : Nat} (h : k < d.length) : rd d (k : Int) = .ok d[k] := by
  simp [rd, h]

theorem forEach_cells {κ : Type} (x : Nat) (op : α → α → α) (pos : κ → Nat) (posI : κ → Int)
    (g : κ → Env α → Res α) (ks : List κ) :
    ∀ env : Env α, (ks.map pos).Nodup →
    (∀ k ∈ ks, pos k < (env x).2.length ∧ posI k = (pos k : Int)) →
    (∀ k ∈ ks, ∃ w, g k env = .ok w) →
    (∀ k ∈ ks, ∀ env', Agree x env env' → (env' x).2[pos k]? = (env x).2[pos k]? →
      g k env' = g k env) →
    ∃ env', forEach ks (fun k env => (g k env) >>= fun v => cell op x (posI k) v env) env = .ok env' ∧
      Agree x env env' ∧
      (∀ k ∈ ks, ∀ u w, (env x).2[pos k]? = some u → g k env = .ok w →
        (env' x).2[pos k]? = some (op u w)) ∧
      (∀ n, n ∉ ks.map pos → (env' x).2[n]? = (env x).2[n]?) := by
  induction ks with
  | nil => intro env _ _ _ _; exact ⟨env, rfl, Agree.refl _ _, by simp, by simp⟩
  | cons k ks ih =>
    intro env hnd hb hw hg
    simp only [List.map_cons, List.nodup_cons] at hnd
    obtain ⟨hk, hki⟩ := hb k (by simp)
    obtain ⟨w, hgk⟩ := hw k (by simp)
    let env1 : Env α := env.set x ((env x).1, (env x).2.set (pos k) (op (env x).2[pos k] w))
    have hx1 : env1 x = ((env x).1, (env x).2.set (pos k) (op (env x).2[pos k] w)) := by
      simp [env1, Env.set]
    have hstep : (g k env >>= fun v => cell op x (posI k) v env) = .ok env1 := by
      rw [hgk, Res.bind_ok, cell, hki, rd_ok hk, Res.bind_ok]
      simp [env1]
    have hag : Agree x env env1 :=
      ⟨fun y hy => by simp [env1, Env.set, hy], by rw [hx1], by rw [hx1]; simp⟩
    have hne : ∀ k' ∈ ks, pos k' ≠ pos k := by
      intro k' hk' e
      exact hnd.1 (by rw [← e]; exact List.mem_map_of_mem hk')
    have hcell : ∀ n, n ≠ pos k → (env1 x).2[n]? = (env x).2[n]? := by
      intro n hn
      rw [hx1]; simp only; rw [List.getElem?_set_ne (Ne.symm hn)]
    have hg1 : ∀ k' ∈ ks, g k' env1 = g k' env := fun k' hk' =>
      hg k' (by simp [hk']) env1 hag (hcell _ (hne k' hk'))
    obtain ⟨env', e1, e2, e3, e4⟩ := ih env1 hnd.2
      (fun k' hk' => ⟨by rw [hag.2.2]; exact (hb k' (by simp [hk'])).1, (hb k' (by simp [hk'])).2⟩)
      (fun k' hk' => by rw [hg1 k' hk']; exact hw k' (by simp [hk']))
      (fun k' hk' env' ha he => by
        rw [hg1 k' hk']
        exact hg k' (by simp [hk']) env' (hag.trans ha) (by rw [he, hcell _ (hne k' hk')]))
    refine ⟨env', ?_, hag.trans e2, ?_, ?_⟩
    · rw [forEach_cons, hstep, Res.bind_ok, e1]
    · intro k' hk' u w' hu hw'
      rcases List.mem_cons.mp hk' with rfl | hk'
      · rw [hgk] at hw'; injection hw' with hw'; subst hw'
        rw [List.getElem?_eq_getElem hk] at hu; injection hu with hu; subst hu
        rw [e4 _ hnd.1, hx1]
        simp [hk]
      · exact e3 k' hk' u w' (by rw [hcell _ (hne k' hk')]; exact hu) (by rw [hg1 k' hk']; exact hw')
    · intro n hn
      simp only [List.map_cons, List.mem_cons, not_or] at hn
      rw [e4 n hn.2, hcell n hn.1]

theorem rows_agree {x : Nat} {a b : Env α} (h : Agree x a b) (e : E α) : rows b e = rows a e := by
  induction e with
  | mat y => simp [rows, h.st]
  | view e r c _ => rfl
  | scale e f ih => exact ih
  | sum e1 e2 ih _ => exact ih

theorem cols_agree {x : Nat} {a b : Env α} (h : Agree x a b) (e : E α) : cols b e = cols a e := by
  induction e with
  | mat y => simp [cols, h.st]
  | view e r c _ => rfl
  | scale e f ih => exact ih
  | sum e1 e2 ih _ => exact ih

theorem envOk_agree {l : Layout} {x : Nat} {a b : Env α} (h : Agree x a b) (ha : EnvOk l a) :
    EnvOk l b := by
  intro y
  obtain ⟨h1, h2, h3⟩ := ha y
  rw [h.st]
  refine ⟨h1, h2, ?_⟩
  by_cases hy : y = x
  · subst hy; rw [h.2.2]; exact h3
  · rw [h.1 y hy]; exact h3

theorem ncols_eq {st : St} (hw : st.WF) : st.ncols = st.cols := by
  unfold St.ncols
  split
  · next hq => exact hw hq
  · rfl

theorem entry_some {l : Layout} {env : Env α} (h : EnvOk l env) {x : Nat} {i j : Int}
    (he : IsElement l (env x).1.nrows (env x).1.ncols i j) :
    (env x).1.HasElement i j ∧ ∃ v, entry env x i j = some v ∧
      rd (env x).2 ((env x).1.index i j) = .ok v := by
  obtain ⟨h1, h2, h3⟩ := h x
  have hhe : (env x).1.HasElement i j := by
    unfold St.HasElement; rw [h1, ← ncols_eq h2]; exact he
  have hb := index_in_bounds _ h2 i j hhe
  have hlt : ((env x).1.index i j).toNat < (env x).2.length := by omega
  refine ⟨hhe, (env x).2[((env x).1.index i j).toNat], ?_, ?_⟩
  · simp [entry, hlt]
  · have := rd_ok hlt
    rwa [Int.toNat_of_nonneg hb.1] at this

theorem isElement_mono {l : Layout} {r c r' c' : Nat} (h1 : r ≤ r') (h2 : c ≤ c') {i j : Int}
    (h : IsElement l r c i j) : IsElement l r' c' i j := by
  obtain ⟨a, b, c, d, e⟩ := h
  exact ⟨a, by omega, c, by omega, e⟩

variable [AddCommMagma α] [Mul α]

theorem elemAt_value {l : Layout} {env : Env α} (h : EnvOk l env) (e : E α) :
    ∀ {i j : Int}, built env e = true → IsElement l (rows env e) (cols env e) i j →
    ∃ v, elemAt env e i j = .ok v ∧ value env e i j = some v := by
  induction e with
  | mat x =>
    intro i j _ he
    obtain ⟨_, v, h1, h2⟩ := entry_some h he
    exact ⟨v, h2, h1⟩
  | view e r c ih =>
    intro i j hb he
    simp only [built, Bool.and_eq_true, decide_eq_true_eq] at hb
    exact ih hb.1.1 (isElement_mono hb.1.2 hb.2 he)
  | scale e f ih =>
    intro i j hb he
    obtain ⟨v, h1, h2⟩ := ih hb he
    exact ⟨v * f, by simp [elemAt, h1], by simp [value, h2]⟩
  | sum a b iha ihb =>
    intro i j hb he
    simp only [built, Bool.and_eq_true, decide_eq_true_eq] at hb
    obtain ⟨v, h1, h2⟩ := iha hb.1.1.1 he
    obtain ⟨w, h3, h4⟩ := ihb hb.1.1.2 (by
      have e1 : rows env b = rows env (.sum a b) := hb.1.2.symm
      have e2 : cols env b = cols env (.sum a b) := hb.2.symm
      rw [e1, e2]; exact he)
    refine ⟨v + w, ?_, by simp [value, h2, h4]⟩
    simp only [elemAt, h1, h3, Res.bind_ok]
    rw [add_comm]

theorem elemAt_local {x : Nat} {a b : Env α} (h : Agree x a b) (e : E α) {i j : Int}
    (hc : (b x).2[((a x).1.index i j).toNat]? = (a x).2[((a x).1.index i j).toNat]?) :
    elemAt b e i j = elemAt a e i j := by
  induction e with
  | mat y =>
    by_cases hy : y = x
    · subst hy
      simp only [elemAt, h.2.1, rd]
      rw [hc]
    · simp only [elemAt, h.1 y hy]
  | view e r c ih => exact ih
  | scale e f ih => simp only [elemAt, ih]
  | sum e1 e2 ih1 ih2 => simp only [elemAt, ih1, ih2]

theorem st_eq {a b : St} (h1 : a.layout = b.layout) (ha : a.WF) (hb : b.WF)
    (h2 : a.nrows = b.nrows) (h3 : a.ncols = b.ncols) : a = b := by
  rw [ncols_eq ha, ncols_eq hb] at h3
  cases a; cases b
  simp only [St.nrows] at h1 h2 h3 ⊢
  subst h1 h2 h3; rfl

/-- in a contiguous expression all matrices have the shape of the expression -/
theorem dataAt_local {x : Nat} {a b : Env α} (h : Agree x a b) (e : E α) {k : Nat}
    (hc : (b x).2[k]? = (a x).2[k]?) : dataAt b e k = dataAt a e k := by
  induction e with
  | mat y =>
    by_cases hy : y = x
    · subst hy
      simp only [dataAt, rd]
      simp [hc]
    · simp only [dataAt, h.1 y hy]
  | view e r c ih => rfl
  | scale e f ih => simp only [dataAt, ih]
  | sum e1 e2 ih1 ih2 => simp only [dataAt, ih1, ih2]

theorem dataAt_value {l : Layout} {env : Env α} (h : EnvOk l env) (st : St) (hl : st.layout = l)
    (hw : st.WF) (e : E α) :
    built env e = true → contig e = true → rows env e = st.nrows → cols env e = st.ncols →
    ∀ {i j : Int}, st.HasElement i j →
    ∃ v, dataAt env e (st.index i j) = .ok v ∧ value env e i j = some v := by
  induction e with
  | mat x =>
    intro _ _ h1 h2 i j he
    have hst : (env x).1 = st := st_eq (by rw [(h x).1, hl]) (h x).2.1 hw h1 h2
    obtain ⟨_, v, h3, h4⟩ := entry_some h (x := x) (i := i) (j := j) (by
      rw [hst, ncols_eq hw, ← hl]; exact he)
    refine ⟨v, ?_, h3⟩
    rw [hst] at h4
    exact h4
  | view e r c ih => intro _ hc; cases hc
  | scale e f ih =>
    intro hb hc h1 h2 i j he
    obtain ⟨v, a1, a2⟩ := ih hb hc h1 h2 he
    exact ⟨v * f, by simp [dataAt, a1], by simp [value, a2]⟩
  | sum a b iha ihb =>
    intro hb hc h1 h2 i j he
    simp only [built, contig, Bool.and_eq_true, decide_eq_true_eq] at hb hc
    obtain ⟨v, a1, a2⟩ := iha hb.1.1.1 hc.1 h1 h2 he
    obtain ⟨w, b1, b2⟩ := ihb hb.1.1.2 hc.2 (by rw [← hb.1.2]; exact h1) (by rw [← hb.2]; exact h2) he
    exact ⟨v + w, by simp [dataAt, a1, b1], by simp [value, a2, b2]⟩

/-- effect of a cell-wise update over the whole element set `r × c` -/
def Updated (l : Layout) (op : α → α → α) (x : Nat) (e : E α) (env env' : Env α) : Prop :=
  Agree x env env' ∧ ∀ i j, (env x).1.HasElement i j →
    (IsElement l (rows env e) (cols env e) i j →
      ∃ u v, entry env x i j = some u ∧ value env e i j = some v ∧
        entry env' x i j = some (op u v)) ∧
    (¬ IsElement l (rows env e) (cols env e) i j → entry env' x i j = entry env x i j)

theorem contig_loop {l : Layout} {env : Env α} (h : EnvOk l env) (op : α → α → α) (x : Nat) (e : E α)
    (hb : built env e = true) (hc : contig e = true)
    (h1 : (env x).1.nrows = rows env e) (h2 : (env x).1.ncols = cols env e) :
    ∃ env', forEach (List.range (env x).1.numElements) (fun (k : Nat) env =>
        (dataAt env e k) >>= fun v => cell op x k v env) env = .ok env' ∧
      Updated l op x e env env' := by
  obtain ⟨hl, hw, hlen⟩ := h x
  obtain ⟨env', e1, e2, e3, e4⟩ := forEach_cells x op (fun k : Nat => k) (fun k : Nat => (k : Int))
    (fun k env => dataAt env e k) (List.range (env x).1.numElements) env
    (by simp [List.nodup_range])
    (by intro k hk; simp only [List.mem_range] at hk; exact ⟨by omega, rfl⟩)
    (by
      intro k hk
      simp only [List.mem_range] at hk
      obtain ⟨⟨i, j⟩, ⟨p1, p2⟩, _⟩ := index_bijective _ hw k hk
      obtain ⟨v, a1, _⟩ := dataAt_value h (env x).1 hl hw e hb hc h1.symm h2.symm p1
      refine ⟨v, ?_⟩
      simp only at p2
      rw [← a1, p2])
    (by intro k _ env' ha he; exact dataAt_local ha e he)
  refine ⟨env', e1, e2, ?_⟩
  intro i j he
  have hel : IsElement l (rows env e) (cols env e) i j := by
    rw [← h1, ← h2, ncols_eq hw, ← hl]; exact he
  refine ⟨fun _ => ?_, fun hn => absurd hel hn⟩
  obtain ⟨_, u, hu, _⟩ := entry_some h (x := x) (i := i) (j := j) (by
    rw [ncols_eq hw, ← hl]; exact he)
  obtain ⟨v, a1, a2⟩ := dataAt_value h (env x).1 hl hw e hb hc h1.symm h2.symm he
  have hbd := index_in_bounds _ hw i j he
  refine ⟨u, v, hu, a2, ?_⟩
  unfold entry
  rw [e2.2.1]
  apply e3 _ (by simp only [List.mem_range]; omega) u v hu
  rw [Int.toNat_of_nonneg hbd.1]
  exact a1

/-- positions written by a reduction loop are the element positions, each visited once -/
theorem cells_updated {l : Layout} {env : Env α} (h : EnvOk l env) (op : α → α → α) (x : Nat) (e : E α)
    (hb : built env e = true) (h1 : rows env e ≤ (env x).1.nrows) (h2 : cols env e ≤ (env x).1.ncols)
    (ps : List (Nat × Nat)) (hnd : ps.Nodup)
    (hps : ∀ i j : Nat, (i, j) ∈ ps ↔ IsElement l (rows env e) (cols env e) i j) :
    ∃ env', forEach ps (fun p env' => (elemAt env' e p.1 p.2) >>= fun v =>
        cell op x ((env x).1.index p.1 p.2) v env') env = .ok env' ∧ Updated l op x e env env' := by
  obtain ⟨hl, hw, hlen⟩ := h x
  have hhas : ∀ {i j : Int}, IsElement l (rows env e) (cols env e) i j → (env x).1.HasElement i j := by
    intro i j hel
    have := isElement_mono h1 h2 hel
    rw [ncols_eq hw, ← hl] at this
    exact this
  obtain ⟨env', e1, e2, e3, e4⟩ := forEach_cells x op
    (fun p : Nat × Nat => ((env x).1.index p.1 p.2).toNat) (fun p : Nat × Nat => (env x).1.index p.1 p.2)
    (fun p env => elemAt env e p.1 p.2) ps env
    (by
      refine List.Nodup.map_on ?_ hnd
      rintro ⟨i, j⟩ hp ⟨i', j'⟩ hp' he
      have g1 := hhas ((hps i j).mp hp)
      have g2 := hhas ((hps i' j').mp hp')
      have b1 := index_in_bounds _ hw _ _ g1
      have b2 := index_in_bounds _ hw _ _ g2
      have := index_injective _ hw _ _ _ _ g1 g2 (by simp only at he; omega)
      simp only [Prod.mk.injEq]; omega)
    (by
      rintro ⟨i, j⟩ hp
      have g1 := hhas ((hps i j).mp hp)
      have b1 := index_in_bounds _ hw _ _ g1
      simp only
      omega)
    (by
      rintro ⟨i, j⟩ hp
      obtain ⟨v, a1, _⟩ := elemAt_value h e hb ((hps i j).mp hp)
      exact ⟨v, a1⟩)
    (by rintro ⟨i, j⟩ _ env' ha he; exact elemAt_local ha e he)
  refine ⟨env', e1, e2, ?_⟩
  intro i j he
  have hbd := index_in_bounds _ hw i j he
  constructor
  · intro hel
    obtain ⟨_, u, hu, _⟩ := entry_some h (x := x) (i := i) (j := j) (by
      rw [ncols_eq hw, ← hl]; exact he)
    obtain ⟨v, a1, a2⟩ := elemAt_value h e hb hel
    refine ⟨u, v, hu, a2, ?_⟩
    obtain ⟨a, rfl⟩ := Int.eq_ofNat_of_zero_le he.1
    obtain ⟨b, rfl⟩ := Int.eq_ofNat_of_zero_le he.2.2.1
    unfold entry
    rw [e2.2.1]
    exact e3 (a, b) ((hps a b).mpr hel) u v hu a1
  · intro hel
    unfold entry
    rw [e2.2.1]
    apply e4
    intro hm
    obtain ⟨⟨a, b⟩, hp, heq⟩ := List.mem_map.mp hm
    have hel' := (hps a b).mp hp
    have g1 := hhas hel'
    have b1 := index_in_bounds _ hw _ _ g1
    obtain ⟨rfl, rfl⟩ := index_injective _ hw _ _ _ _ g1 he (by simp only at heq; omega)
    exact hel hel'

theorem cells_updated' {l : Layout} {env : Env α} (h : EnvOk l env) (op : α → α → α) (x : Nat)
    (e : E α) (hb : built env e = true) (h1 : rows env e ≤ (env x).1.nrows)
    (h2 : cols env e ≤ (env x).1.ncols) (ps : List (Nat × Nat)) (hnd : ps.Nodup)
    (hps : ∀ i j : Nat, (i, j) ∈ ps ↔ IsElement l (rows env e) (cols env e) i j) :
    ∃ env', forEach ps (fun p env' => (elemAt env' e p.1 p.2) >>= fun v =>
        cell op x ((env x).1.index p.1 p.2) v env') env = .ok env' ∧ Updated l op x e env env' ∧
      ∀ i j : Nat, (i, j) ∈ ps ↔ IsElement l (rows env e) (cols env e) i j := by
  obtain ⟨env', a, b⟩ := cells_updated h op x e hb h1 h2 ps hnd hps
  exact ⟨env', a, b, hps⟩

theorem reduceCopy_spec {l : Layout} {env : Env α} (h : EnvOk l env) (op : α → α → α) (x : Nat)
    (e : E α) (hb : built env e = true) (h1 : rows env e ≤ (env x).1.nrows)
    (h2 : cols env e ≤ (env x).1.ncols) :
    ∃ env', reduceCopy op x e env = .ok env' ∧ Updated l op x e env env' := by
  obtain ⟨hl, hw, hlen⟩ := h x
  have hhas : ∀ {i j : Int}, IsElement l (rows env e) (cols env e) i j → (env x).1.HasElement i j := by
    intro i j hel
    have := isElement_mono h1 h2 hel
    rw [ncols_eq hw, ← hl] at this
    exact this
  have hnc := ncols_eq hw
  unfold reduceCopy
  simp only [ge_iff_le, h1, h2, and_self, if_true]
  by_cases hrm : St.isRowMajor (env x).1.layout = true
  · rw [if_pos hrm]
    let m : Nat → Nat := fun i => (min (cols env e : Int) ((env x).1.sliceLen i)).toNat
    obtain ⟨env', e1, e2⟩ := cells_updated' h op x e hb h1 h2
      ((List.range (rows env e)).flatMap fun i => (List.range (m i)).map fun j => (i, j))
      (by
        rw [List.nodup_flatMap]
        refine ⟨fun i _ => List.Nodup.map (fun a b hab => (Prod.mk.inj hab).2) List.nodup_range, ?_⟩
        refine List.Pairwise.imp ?_ List.nodup_range
        intro a b hab
        simp only [Function.onFun, List.disjoint_left, List.mem_map, not_exists, not_and]
        rintro ⟨u, v⟩ ⟨j, _, hj⟩ j' _ hj'
        simp only [Prod.mk.injEq] at hj hj'
        omega)
      (by
        intro i j
        simp only [List.mem_flatMap, List.mem_range, List.mem_map, Prod.mk.injEq, m, IsElement]
        subst hl
        unfold St.nrows at h1
        rw [hnc] at h2
        unfold St.sliceLen Layout.lower
        unfold St.isRowMajor at hrm
        unfold St.WF St.square at hw
        constructor
        · rintro ⟨a, ha, b, hb, rfl, rfl⟩
          cases hc : (env x).1.layout <;> simp only [hc] at hrm hw hb ⊢ <;> simp at hrm hw hb ⊢ <;> omega
        · rintro ⟨_, a2, _, a4, a5⟩
          refine ⟨i, by omega, j, ?_, rfl, rfl⟩
          cases hc : (env x).1.layout <;> simp only [hc] at hrm hw a5 ⊢ <;> simp at hrm hw a5 ⊢ <;> omega)
    refine ⟨env', ?_, e2.1⟩
    rw [← e1, forEach_flatMap]
    apply forEach_congr
    intro i hi env1
    rw [forEach_map]
    apply forEach_congr
    intro j hj env2
    have hel := (e2.2 i j).mp (by
      simp only [List.mem_flatMap, List.mem_map, Prod.mk.injEq]
      exact ⟨i, hi, j, hj, rfl, rfl⟩)
    have := slice_elements _ hw _ _ (hhas hel)
    rw [if_pos hrm] at this
    rw [this.1]
  · rw [if_neg hrm]
    let k : Nat → Nat := fun i => (St.firstRowOfCol (env x).1.layout i).toNat
    obtain ⟨env', e1, e2⟩ := cells_updated' h op x e hb h1 h2
      ((List.range (cols env e)).flatMap fun i => (List.range' (k i) (rows env e - k i)).map fun j => (j, i))
      (by
        rw [List.nodup_flatMap]
        refine ⟨fun i _ => List.Nodup.map (fun a b hab => (Prod.mk.inj hab).1) List.nodup_range', ?_⟩
        refine List.Pairwise.imp ?_ List.nodup_range
        intro a b hab
        simp only [Function.onFun, List.disjoint_left, List.mem_map, not_exists, not_and]
        rintro ⟨u, v⟩ ⟨j, _, hj⟩ j' _ hj'
        simp only [Prod.mk.injEq] at hj hj'
        omega)
      (by
        intro i j
        simp only [List.mem_flatMap, List.mem_range, List.mem_range'_1, List.mem_map, Prod.mk.injEq, k,
          IsElement]
        subst hl
        unfold Layout.lower
        unfold St.isRowMajor at hrm
        unfold St.firstRowOfCol
        constructor
        · rintro ⟨a, ha, b, hb, rfl, rfl⟩
          cases hc : (env x).1.layout <;> simp only [hc] at hrm hb ⊢ <;> simp at hrm hb ⊢ <;> omega
        · rintro ⟨_, a2, _, a4, a5⟩
          refine ⟨j, by omega, i, ?_, rfl, rfl⟩
          cases hc : (env x).1.layout <;> simp only [hc] at hrm a5 ⊢ <;> simp at hrm a5 ⊢ <;> omega)
    refine ⟨env', ?_, e2.1⟩
    rw [← e1, forEach_flatMap]
    apply forEach_congr
    intro i hi env1
    rw [forEach_map]
    apply forEach_congr
    intro j hj env2
    have hel := (e2.2 j i).mp (by
      simp only [List.mem_flatMap, List.mem_map, Prod.mk.injEq]
      exact ⟨i, hi, j, hj, rfl, rfl⟩)
    have := slice_elements _ hw _ _ (hhas hel)
    rw [if_neg hrm] at this
    rw [this.1]
    have e3 : ((k i : Nat) : Int) = St.firstRowOfCol (env x).1.layout i := by
      simp only [k]; unfold St.firstRowOfCol; split <;> simp
    simp only [e3, k]

omit [AddCommMagma α] [Mul α] in
theorem vars_congr {env env1 : Env α} (e : E α) (h : ∀ y ∈ e.vars, env1 y = env y) :
    rows env1 e = rows env e ∧ cols env1 e = cols env e ∧ built env1 e = built env e := by
  induction e with
  | mat y => simp [rows, cols, built, h y (by simp [E.vars])]
  | view e r c ih =>
    obtain ⟨a, b, c⟩ := ih h
    exact ⟨rfl, rfl, by simp only [built, a, b, c]⟩
  | scale e f ih => exact ih h
  | sum e1 e2 ih1 ih2 =>
    obtain ⟨a1, a2, a3⟩ := ih1 (fun y hy => h y (by simp [E.vars, hy]))
    obtain ⟨b1, b2, b3⟩ := ih2 (fun y hy => h y (by simp [E.vars, hy]))
    exact ⟨a1, a2, by simp only [built, a1, a2, a3, b1, b2, b3]⟩

omit [AddCommMagma α] in
theorem value_congr [Add α] {env env1 : Env α} (e : E α) (h : ∀ y ∈ e.vars, env1 y = env y) (i j : Int) :
    value env1 e i j = value env e i j := by
  induction e with
  | mat y => simp [value, entry, h y (by simp [E.vars])]
  | view e r c ih => exact ih h
  | scale e f ih => simp only [value, ih h]
  | sum e1 e2 ih1 ih2 =>
    simp only [value, ih1 (fun y hy => h y (by simp [E.vars, hy])),
      ih2 (fun y hy => h y (by simp [E.vars, hy]))]

end MatrixExpr
end Verif
