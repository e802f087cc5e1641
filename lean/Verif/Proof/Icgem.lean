import Verif.Proof.IcgemText
import Mathlib.Algebra.BigOperators.Group.List.Lemmas
/-
ICGEM: the reading loops compute the sums of the specification.
-/
namespace Verif.Icgem
open Verif.Chars

variable {T : Type}

theorem total_nil (fac : List (Record T) → Record T → ℝ) (val : Record T → ℚ) (n m : Int) : total fac val [] n m = 0 := by
  simp [total]

theorem total_snoc (fac : List (Record T) → Record T → ℝ) (val : Record T → ℚ) (rs : List (Record T)) (r : Record T) (n m : Int) :
    total fac val (rs ++ [r]) n m = total fac val rs n m + if r.n = n ∧ r.m = m then (val r : ℝ) * fac rs r else 0 := by
  unfold total
  rw [List.length_append, List.length_singleton, List.range_succ, List.map_append, List.sum_append]
  congr 1
  · congr 1
    apply List.map_congr_left
    intro i hi
    rw [List.mem_range] at hi
    rw [List.getElem?_append_left hi, List.take_append_of_le_length (by omega)]
  · simp

theorem getLast_filter_sub {α : Type _} (l : List α) (p q : α → Bool) (g : α) (h : (l.filter p).getLast? = some g)
    (hq : q g) (hpq : ∀ x, q x → p x) : (l.filter q).getLast? = some g := by
  have h1 : l.filter q = (l.filter p).filter q := by
    rw [List.filter_filter]
    congr 1
    funext x
    by_cases hx : q x
    · simp [hx, hpq x hx]
    · simp [hx]
  obtain ⟨ys, hy⟩ := List.getLast?_eq_some_iff.mp h
  rw [h1, hy, List.filter_append]
  simp [hq]

/-- What holds after the records `rs` have been read. `A`: the records that are used. -/
structure Inv (n m : Int) (fac : List (Record T) → Record T → ℝ) (A : Record T → Prop) (rs : List (Record T)) (st : St T) : Prop where
  deg : st.co.deg = n
  ord : st.co.ord = m
  rows : st.co.rows = (n + 1).toNat
  C : ∀ a b : Nat, st.co.C a b = if (a : Int) ≤ n ∧ (b : Int) ≤ m then total fac Record.C rs a b else 0
  S : ∀ a b : Nat, st.co.S a b = if (a : Int) ≤ n ∧ (b : Int) ≤ m then total fac Record.S rs a b else 0
  maxN : 0 ≤ st.maxN ∧ (∀ r ∈ rs, A r → r.n ≤ st.maxN) ∧ (st.maxN = 0 ∨ ∃ r ∈ rs, A r ∧ r.n = st.maxN)
  maxM : 0 ≤ st.maxM ∧ (∀ r ∈ rs, A r → r.m ≤ st.maxM) ∧ (st.maxM = 0 ∨ ∃ r ∈ rs, A r ∧ r.m = st.maxM)
  tri : ∀ r ∈ rs, A r → Triangle r ∧ Within n m r

theorem addAt_ok {c c' : Coeffs ℝ} {i j : Int} {v w : ℝ} (h : c.addAt i j v w = .ok c') :
    c.Has i j ∧ c' = { c with C := Coeffs.put c.C i.toNat j.toNat (c.C i.toNat j.toNat + v),
                              S := Coeffs.put c.S i.toNat j.toNat (c.S i.toNat j.toNat + w) } := by
  unfold Coeffs.addAt at h
  split at h
  · rename_i hh; injection h with h; exact ⟨hh, h.symm⟩
  · cases h

/-- Adding a term to one coefficient. -/
theorem put_total {n m : Int} {fac : List (Record T) → Record T → ℝ} {val : Record T → ℚ} {rs : List (Record T)} {r : Record T}
    {f : Nat → Nat → ℝ} (hf : ∀ a b : Nat, f a b = if (a : Int) ≤ n ∧ (b : Int) ≤ m then total fac val rs a b else 0)
    (h0 : 0 ≤ r.m) (h1 : r.m ≤ r.n) (hw : Within n m r) (a b : Nat) :
    Coeffs.put f r.n.toNat r.m.toNat (f r.n.toNat r.m.toNat + (val r : ℝ) * fac rs r) a b =
      if (a : Int) ≤ n ∧ (b : Int) ≤ m then total fac val (rs ++ [r]) a b else 0 := by
  unfold Coeffs.put
  have hn : ((r.n.toNat : Nat) : Int) = r.n := by omega
  have hm : ((r.m.toNat : Nat) : Int) = r.m := by omega
  by_cases hab : a = r.n.toNat ∧ b = r.m.toNat
  · obtain ⟨rfl, rfl⟩ := hab
    have hw2 : r.n ≤ n ∧ r.m ≤ m := hw
    rw [if_pos ⟨rfl, rfl⟩, hf, hn, hm, if_pos hw2, if_pos hw2, total_snoc, if_pos ⟨rfl, rfl⟩]
  · rw [if_neg hab, hf, total_snoc, if_neg (c := r.n = _ ∧ r.m = _), add_zero]
    rintro ⟨h2, h3⟩
    exact hab ⟨by omega, by omega⟩

theorem Inv.store {n m : Int} {fac : List (Record T) → Record T → ℝ} {A : Record T → Prop} {rs : List (Record T)}
    {st st' : St T} (hi : Inv n m fac A rs st) {r : Record T} {e : Entry T} {f : ℝ}
    (hr : r.n = e.degree ∧ r.m = e.order ∧ r.C = e.C ∧ r.S = e.S) (hf : fac rs r = f) (hA : A r) (hw : Within n m r)
    (h : store st e f = .ok st') : Inv n m fac A (rs ++ [r]) st' ∧ st'.curN = st.curN ∧ st'.curM = st.curM ∧ st'.dt = st.dt := by
  unfold Icgem.store at h
  rcases ha : st.co.addAt e.degree e.order (e.C * f) (e.S * f) with co | _ | _ | _ <;> rw [ha] at h
  · simp only [Res.bind, Res.ok.injEq] at h
    subst h
    obtain ⟨hh, rfl⟩ := addAt_ok ha
    obtain ⟨h1, h2, h3, h4⟩ := hr
    have ht : Triangle r := by rw [Triangle, h1, h2]; exact ⟨hh.1, hh.2.1⟩
    refine ⟨⟨hi.deg, hi.ord, hi.rows, ?_, ?_, ?_, ?_, ?_⟩, rfl, rfl, rfl⟩
    · intro a b
      have := put_total (fac := fac) (val := Record.C) hi.C ht.1 ht.2 hw a b
      rw [hf, h1, h2, h3] at this
      exact this
    · intro a b
      have := put_total (fac := fac) (val := Record.S) hi.S ht.1 ht.2 hw a b
      rw [hf, h1, h2, h4] at this
      exact this
    · obtain ⟨g1, g2, g3⟩ := hi.maxN
      refine ⟨?_, ?_, ?_⟩
      · show 0 ≤ max st.maxN e.degree; omega
      · intro x hx hAx
        show x.n ≤ max st.maxN e.degree
        rcases List.mem_append.mp hx with hx | hx
        · have := g2 x hx hAx; omega
        · rw [List.mem_singleton] at hx; subst hx; omega
      · show max st.maxN e.degree = 0 ∨ _
        rcases le_total e.degree st.maxN with hle | hle
        · rw [max_eq_left hle]
          rcases g3 with g3 | ⟨x, hx, hAx, hxn⟩
          · exact Or.inl g3
          · exact Or.inr ⟨x, by simp [hx], hAx, hxn⟩
        · rw [max_eq_right hle]
          exact Or.inr ⟨r, by simp, hA, h1⟩
    · obtain ⟨g1, g2, g3⟩ := hi.maxM
      refine ⟨?_, ?_, ?_⟩
      · show 0 ≤ max st.maxM e.order; omega
      · intro x hx hAx
        show x.m ≤ max st.maxM e.order
        rcases List.mem_append.mp hx with hx | hx
        · have := g2 x hx hAx; omega
        · rw [List.mem_singleton] at hx; subst hx; omega
      · show max st.maxM e.order = 0 ∨ _
        rcases le_total e.order st.maxM with hle | hle
        · rw [max_eq_left hle]
          rcases g3 with g3 | ⟨x, hx, hAx, hxn⟩
          · exact Or.inl g3
          · exact Or.inr ⟨x, by simp [hx], hAx, hxn⟩
        · rw [max_eq_right hle]
          exact Or.inr ⟨r, by simp, hA, h2⟩
    · intro x hx hAx
      rcases List.mem_append.mp hx with hx | hx
      · exact hi.tri x hx hAx
      · rw [List.mem_singleton] at hx; subst hx; exact ⟨ht, hw⟩
  · cases h
  · cases h
  · cases h

theorem store_ok {n m : Int} {fac : List (Record T) → Record T → ℝ} {A : Record T → Prop} {rs : List (Record T)}
    {st : St T} (hi : Inv n m fac A rs st) {e : Entry T} (h0 : 0 ≤ e.order) (h1 : e.order ≤ e.degree) (h2 : e.degree ≤ n) (f : ℝ) :
    ∃ st', store st e f = .ok st' := by
  have hh : st.co.Has e.degree e.order := by
    refine ⟨h0, h1, ?_⟩
    rw [hi.rows]; omega
  simp only [Icgem.store, Coeffs.addAt, if_pos hh, Res.bind]
  exact ⟨_, rfl⟩

/-- A record that is not used. -/
theorem Inv.skip {n m : Int} {fac : List (Record T) → Record T → ℝ} {A : Record T → Prop} {rs : List (Record T)}
    {st : St T} (hi : Inv n m fac A rs st) {r : Record T} (e : Entry T) (hA : ¬ A r) (hf : Within n m r → fac rs r = 0) :
    Inv n m fac A (rs ++ [r]) { st with entry := e } := by
  have key : ∀ (val : Record T → ℚ) (a b : Nat), (a : Int) ≤ n ∧ (b : Int) ≤ m →
      total fac val (rs ++ [r]) a b = total fac val rs a b := by
    intro val a b hab
    rw [total_snoc]
    split
    · rename_i h
      rw [hf ⟨by rw [h.1]; exact hab.1, by rw [h.2]; exact hab.2⟩]; simp
    · simp
  have mem : ∀ {x}, x ∈ rs ++ [r] → A x → x ∈ rs := by
    intro x hx hAx
    rcases List.mem_append.mp hx with hx | hx
    · exact hx
    · rw [List.mem_singleton] at hx; subst hx; exact absurd hAx hA
  refine ⟨hi.deg, hi.ord, hi.rows, ?_, ?_, ⟨hi.maxN.1, fun x hx hAx => hi.maxN.2.1 x (mem hx hAx) hAx, ?_⟩,
    ⟨hi.maxM.1, fun x hx hAx => hi.maxM.2.1 x (mem hx hAx) hAx, ?_⟩, fun x hx hAx => hi.tri x (mem hx hAx) hAx⟩
  · intro a b
    show st.co.C a b = _
    rw [hi.C]
    split
    · rename_i h; rw [key _ a b h]
    · rfl
  · intro a b
    show st.co.S a b = _
    rw [hi.S]
    split
    · rename_i h; rw [key _ a b h]
    · rfl
  · rcases hi.maxN.2.2 with h | ⟨x, hx, h1, h2⟩
    · exact Or.inl h
    · exact Or.inr ⟨x, by simp [hx], h1, h2⟩
  · rcases hi.maxM.2.2 with h | ⟨x, hx, h1, h2⟩
    · exact Or.inl h
    · exact Or.inr ⟨x, by simp [hx], h1, h2⟩

/-! ### Version 1 -/

/-- The last `ref` record within the request. -/
def lastRef (n m : Int) (rs : List (Record T)) : Option (Record T) :=
  (rs.filter (fun g => g.kind = .ref ∧ Within n m g)).getLast?

/-- The local variables of version 1. -/
def Cur (years : T → T → ℝ) (t : T) (n m : Int) (rs : List (Record T)) (st : St T) : Prop :=
  match lastRef n m rs with
  | none => st.curN = -1 ∧ st.curM = -1
  | some g => st.curN = g.n ∧ st.curM = g.m ∧ ∃ t0, g.t0 = some t0 ∧ st.dt = years t t0

theorem lastRef_snoc (n m : Int) (rs : List (Record T)) (r : Record T) :
    lastRef n m (rs ++ [r]) = if r.kind = .ref ∧ Within n m r then some r else lastRef n m rs := by
  unfold lastRef
  rw [List.filter_append]
  by_cases h : r.kind = .ref ∧ Within n m r
  · simp [h]
  · rw [if_neg h, List.filter_cons, if_neg (by simpa using h)]; simp

theorem rec1_fields (e : Entry T) : (rec1 e).n = e.degree ∧ (rec1 e).m = e.order ∧ (rec1 e).C = e.C ∧ (rec1 e).S = e.S := by
  unfold rec1; cases e.key <;> simp

theorem rec2_fields (e : Entry T) : (rec2 e).n = e.degree ∧ (rec2 e).m = e.order ∧ (rec2 e).C = e.C ∧ (rec2 e).S = e.S := by
  unfold rec2; cases e.key <;> simp

theorem epoch_of_last {n m : Int} {rs : List (Record T)} {g : Record T} (h : lastRef n m rs = some g) :
    epoch1 rs g.n g.m = g.t0 ∧ Within n m g ∧ g.kind = .ref := by
  have hm := List.mem_of_getLast? h
  rw [List.mem_filter] at hm
  have hg := hm.2
  simp only [decide_eq_true_eq] at hg
  have := getLast_filter_sub rs (fun g => g.kind = .ref ∧ Within n m g) (fun r => r.kind = .ref ∧ r.n = g.n ∧ r.m = g.m) g h
    (by simp [hg.1]) (by
      intro x hx
      simp only [decide_eq_true_eq] at hx ⊢
      exact ⟨hx.1, by rw [Within, hx.2.1, hx.2.2]; exact hg.2⟩)
  refine ⟨?_, hg.2, hg.1⟩
  unfold epoch1
  rw [this]; rfl

theorem use1_inv {cal : Cal T} {n m : Int} {t : T} {rs : List (Record T)} {st st' : St T} {e : Entry T}
    (hi : Inv n m (factor1 cal.years t) (Within n m) rs st) (hc : Cur cal.years t n m rs st)
    (h : use1 cal n m t st e = .ok st') :
    Inv n m (factor1 cal.years t) (Within n m) (rs ++ [rec1 e]) st' ∧ Cur cal.years t n m (rs ++ [rec1 e]) st' ∧
      (Within n m (rec1 e) → (rec1 e).kind ≠ .static → (rec1 e).kind ≠ .ref →
        ∃ g, lastRef n m rs = some g ∧ g.n = (rec1 e).n ∧ g.m = (rec1 e).m) := by
  obtain ⟨f1, f2, f3, f4⟩ := rec1_fields e
  unfold use1 at h
  by_cases hw : e.degree ≤ n ∧ e.order ≤ m
  swap
  · rw [if_neg hw] at h
    injection h with h
    subst h
    have hw' : ¬ Within n m (rec1 e) := by rw [Within, f1, f2]; exact hw
    refine ⟨hi.skip e hw' (fun h => absurd h hw'), ?_, fun h => absurd h hw'⟩
    unfold Cur
    rw [lastRef_snoc, if_neg (fun h => hw' h.2)]
    exact hc
  rw [if_pos hw] at h
  have hw' : Within n m (rec1 e) := by rw [Within, f1, f2]; exact hw
  have other : ∀ f : ℝ, (rec1 e).kind ≠ .static → (rec1 e).kind ≠ .ref →
      (∀ t0, st.dt = cal.years t t0 → (rec1 e).kind.factor (cal.years t t0) = f) →
      (if st.curN = e.degree ∧ st.curM = e.order then Icgem.store st e f else Res.abort) = Res.ok st' →
      Inv n m (factor1 cal.years t) (Within n m) (rs ++ [rec1 e]) st' ∧ Cur cal.years t n m (rs ++ [rec1 e]) st' ∧
      (Within n m (rec1 e) → (rec1 e).kind ≠ .static → (rec1 e).kind ≠ .ref →
        ∃ g, lastRef n m rs = some g ∧ g.n = (rec1 e).n ∧ g.m = (rec1 e).m) := by
    intro f k1 k2 hf h
    split at h
    swap
    · cases h
    rename_i hcur
    have hb : (store st e f = .ok st') := h
    have htri : 0 ≤ e.order ∧ e.order ≤ e.degree := by
      unfold Icgem.store at hb
      rcases ha : st.co.addAt e.degree e.order (e.C * f) (e.S * f) with co | _ | _ | _ <;> rw [ha] at hb
      · obtain ⟨hh, _⟩ := addAt_ok ha; exact ⟨hh.1, hh.2.1⟩
      · cases hb
      · cases hb
      · cases hb
    rcases hl : lastRef n m rs with _ | g
    · unfold Cur at hc; rw [hl] at hc; simp only at hc; omega
    · have hc2 := hc
      unfold Cur at hc2; rw [hl] at hc2
      obtain ⟨c1, c2, t0, c3, c4⟩ := hc2
      obtain ⟨e1, _, _⟩ := epoch_of_last hl
      have g1 : g.n = (rec1 e).n := by rw [f1, ← hcur.1, c1]
      have g2 : g.m = (rec1 e).m := by rw [f2, ← hcur.2, c2]
      have hfac : factor1 cal.years t rs (rec1 e) = f := by
        unfold factor1
        rw [← g1, ← g2, e1, c3]
        rw [← hf t0 c4]
        cases hk : (rec1 e).kind <;> simp [hk] at k1 k2 ⊢
      obtain ⟨r1, r2, r3, r4⟩ := hi.store (rec1_fields e) hfac hw' hw' h
      refine ⟨r1, ?_, fun _ _ _ => ⟨g, rfl, g1, g2⟩⟩
      unfold Cur
      rw [lastRef_snoc, if_neg (fun h => k2 h.1), hl]
      exact ⟨r2.trans c1, r3.trans c2, t0, c3, r4.trans c4⟩
  cases hk : e.key with
  | gfc =>
    rw [hk] at h
    have hkind : (rec1 e).kind = .static := by unfold rec1; rw [hk]
    obtain ⟨r1, r2, r3, r4⟩ := hi.store (rec1_fields e) (f := 1) (by unfold factor1; rw [hkind]) hw' hw' h
    refine ⟨r1, ?_, fun _ h => absurd hkind h⟩
    unfold Cur
    rw [lastRef_snoc, if_neg (by rw [hkind]; simp)]
    unfold Cur at hc
    rcases hl : lastRef n m rs with _ | g <;> rw [hl] at hc
    · exact ⟨r2.trans hc.1, r3.trans hc.2⟩
    · obtain ⟨c1, c2, t0, c3, c4⟩ := hc
      exact ⟨r2.trans c1, r3.trans c2, t0, c3, r4.trans c4⟩
  | gfct =>
    rw [hk] at h
    have hkind : (rec1 e).kind = .ref := by unfold rec1; rw [hk]
    have ht0 : (rec1 e).t0 = some e.t0 := by unfold rec1; rw [hk]
    have hi' : Inv n m (factor1 cal.years t) (Within n m) rs { st with curN := e.degree, curM := e.order, dt := cal.years t e.t0 } :=
      ⟨hi.deg, hi.ord, hi.rows, hi.C, hi.S, hi.maxN, hi.maxM, hi.tri⟩
    obtain ⟨r1, r2, r3, r4⟩ := hi'.store (rec1_fields e) (f := 1) (by unfold factor1; rw [hkind]) hw' hw' h
    refine ⟨r1, ?_, fun _ _ h => absurd hkind h⟩
    unfold Cur
    rw [lastRef_snoc, if_pos ⟨hkind, hw'⟩]
    exact ⟨r2.trans f1.symm, r3.trans f2.symm, e.t0, ht0, r4⟩
  | trnd =>
    rw [hk] at h
    have hkind : (rec1 e).kind = .trend := by unfold rec1; rw [hk]
    exact other _ (by rw [hkind]; simp) (by rw [hkind]; simp) (fun t0 h0 => by rw [hkind, h0]; rfl) h
  | asin =>
    rw [hk] at h
    have hkind : (rec1 e).kind = .sin e.period := by unfold rec1; rw [hk]
    exact other _ (by rw [hkind]; simp) (by rw [hkind]; simp) (fun t0 h0 => by rw [hkind, h0]; rfl) h
  | acos =>
    rw [hk] at h
    have hkind : (rec1 e).kind = .cos e.period := by unfold rec1; rw [hk]
    exact other _ (by rw [hkind]; simp) (by rw [hkind]; simp) (fun t0 h0 => by rw [hkind, h0]; rfl) h

/-- With coefficients that exist, and grouped, the loop body of version 1 succeeds. -/
theorem use1_ok {cal : Cal T} {n m : Int} {t : T} {rs : List (Record T)} {st : St T} {e : Entry T}
    (hi : Inv n m (factor1 cal.years t) (Within n m) rs st) (hc : Cur cal.years t n m rs st)
    (ht : Within n m (rec1 e) → Triangle (rec1 e))
    (hg : Within n m (rec1 e) → (rec1 e).kind ≠ .static → (rec1 e).kind ≠ .ref →
        ∃ g, lastRef n m rs = some g ∧ g.n = (rec1 e).n ∧ g.m = (rec1 e).m) :
    ∃ st', use1 cal n m t st e = .ok st' := by
  obtain ⟨f1, f2, f3, f4⟩ := rec1_fields e
  unfold use1
  by_cases hw : e.degree ≤ n ∧ e.order ≤ m
  swap
  · rw [if_neg hw]; exact ⟨_, rfl⟩
  rw [if_pos hw]
  have hw' : Within n m (rec1 e) := by rw [Within, f1, f2]; exact hw
  have htri := ht hw'
  rw [Triangle, f1, f2] at htri
  have hcur : (rec1 e).kind ≠ .static → (rec1 e).kind ≠ .ref → st.curN = e.degree ∧ st.curM = e.order := by
    intro k1 k2
    obtain ⟨g, hl, g1, g2⟩ := hg hw' k1 k2
    unfold Cur at hc; rw [hl] at hc
    obtain ⟨c1, c2, _⟩ := hc
    exact ⟨c1.trans (g1.trans f1), c2.trans (g2.trans f2)⟩
  have hst := fun f => store_ok hi htri.1 htri.2 hw.1 f
  cases hk : e.key with
  | gfc => exact hst 1
  | gfct =>
    have hi' : Inv n m (factor1 cal.years t) (Within n m) rs { st with curN := e.degree, curM := e.order, dt := cal.years t e.t0 } :=
      ⟨hi.deg, hi.ord, hi.rows, hi.C, hi.S, hi.maxN, hi.maxM, hi.tri⟩
    exact store_ok hi' htri.1 htri.2 hw.1 1
  | trnd =>
    have hkind : (rec1 e).kind = .trend := by unfold rec1; rw [hk]
    simp only
    rw [if_pos (hcur (by rw [hkind]; simp) (by rw [hkind]; simp))]; exact hst _
  | asin =>
    have hkind : (rec1 e).kind = .sin e.period := by unfold rec1; rw [hk]
    simp only
    rw [if_pos (hcur (by rw [hkind]; simp) (by rw [hkind]; simp))]; exact hst _
  | acos =>
    have hkind : (rec1 e).kind = .cos e.period := by unfold rec1; rw [hk]
    simp only
    rw [if_pos (hcur (by rw [hkind]; simp) (by rw [hkind]; simp))]; exact hst _

/-! ### Version 2 -/

theorem use2_inv [LinearOrder T] {cal : Cal T} {n m : Int} {t : T} (hmin : cal.min ≤ t) (hmax : t < cal.max)
    {rs : List (Record T)} {st st' : St T} {e : Entry T}
    (hi : Inv n m (fun _ r => factor2 cal.years t r) (Used2 n m t) rs st)
    (hgfc : e.key = .gfc → e.t0 = cal.min ∧ e.t1 = cal.max)
    (h : use2 cal n m t st e = .ok st') :
    Inv n m (fun _ r => factor2 cal.years t r) (Used2 n m t) (rs ++ [rec2 e]) st' := by
  obtain ⟨f1, f2, f3, f4⟩ := rec2_fields e
  unfold use2 at h
  by_cases hw : e.t0 ≤ t ∧ t < e.t1 ∧ e.degree ≤ n ∧ e.order ≤ m
  swap
  · rw [if_neg hw] at h
    injection h with h
    subst h
    refine hi.skip e ?_ ?_
    · rintro ⟨hw', h2⟩
      rw [Within, f1, f2] at hw'
      cases hk : e.key with
      | gfc => rw [(hgfc hk).1, (hgfc hk).2] at hw; exact hw ⟨hmin, hmax, hw'⟩
      | gfct =>
        have h3 : (rec2 e).kind = .ref ∧ (rec2 e).t0 = some e.t0 ∧ (rec2 e).t1 = some e.t1 := by unfold rec2; rw [hk]; simp
        rcases h2 with h2 | ⟨t0, t1, a1, a2, a3, a4⟩
        · rw [h3.1] at h2; cases h2
        · rw [h3.2.1] at a1; rw [h3.2.2] at a2; cases a1; cases a2; exact hw ⟨a3, a4, hw'⟩
      | trnd =>
        have h3 : (rec2 e).kind = .trend ∧ (rec2 e).t0 = some e.t0 ∧ (rec2 e).t1 = some e.t1 := by unfold rec2; rw [hk]; simp
        rcases h2 with h2 | ⟨t0, t1, a1, a2, a3, a4⟩
        · rw [h3.1] at h2; cases h2
        · rw [h3.2.1] at a1; rw [h3.2.2] at a2; cases a1; cases a2; exact hw ⟨a3, a4, hw'⟩
      | asin =>
        have h3 : (rec2 e).kind = .sin e.period ∧ (rec2 e).t0 = some e.t0 ∧ (rec2 e).t1 = some e.t1 := by unfold rec2; rw [hk]; simp
        rcases h2 with h2 | ⟨t0, t1, a1, a2, a3, a4⟩
        · rw [h3.1] at h2; cases h2
        · rw [h3.2.1] at a1; rw [h3.2.2] at a2; cases a1; cases a2; exact hw ⟨a3, a4, hw'⟩
      | acos =>
        have h3 : (rec2 e).kind = .cos e.period ∧ (rec2 e).t0 = some e.t0 ∧ (rec2 e).t1 = some e.t1 := by unfold rec2; rw [hk]; simp
        rcases h2 with h2 | ⟨t0, t1, a1, a2, a3, a4⟩
        · rw [h3.1] at h2; cases h2
        · rw [h3.2.1] at a1; rw [h3.2.2] at a2; cases a1; cases a2; exact hw ⟨a3, a4, hw'⟩
    · intro hw'
      rw [Within, f1, f2] at hw'
      unfold factor2 rec2
      cases hk : e.key with
      | gfc => rw [(hgfc hk).1, (hgfc hk).2] at hw; exact absurd ⟨hmin, hmax, hw'⟩ hw
      | gfct => simp only; rw [if_neg (fun h => hw ⟨h.1, h.2, hw'⟩)]
      | trnd => simp only; rw [if_neg (fun h => hw ⟨h.1, h.2, hw'⟩)]
      | asin => simp only; rw [if_neg (fun h => hw ⟨h.1, h.2, hw'⟩)]
      | acos => simp only; rw [if_neg (fun h => hw ⟨h.1, h.2, hw'⟩)]
  · rw [if_pos hw] at h
    have hw' : Within n m (rec2 e) := by rw [Within, f1, f2]; exact hw.2.2
    have hu : Used2 n m t (rec2 e) := by
      refine ⟨hw', ?_⟩
      unfold rec2
      cases hk : e.key with
      | gfc => exact Or.inl rfl
      | gfct => exact Or.inr ⟨e.t0, e.t1, rfl, rfl, hw.1, hw.2.1⟩
      | trnd => exact Or.inr ⟨e.t0, e.t1, rfl, rfl, hw.1, hw.2.1⟩
      | asin => exact Or.inr ⟨e.t0, e.t1, rfl, rfl, hw.1, hw.2.1⟩
      | acos => exact Or.inr ⟨e.t0, e.t1, rfl, rfl, hw.1, hw.2.1⟩
    have hv : e.t0 ≤ t ∧ t < e.t1 := ⟨hw.1, hw.2.1⟩
    simp only at h
    cases hk : e.key with
    | gfc =>
      rw [hk] at h
      exact (hi.store (rec2_fields e) (by unfold factor2 rec2; rw [hk]) hu hw' h).1
    | gfct =>
      rw [hk] at h
      exact (hi.store (rec2_fields e) (by unfold factor2 rec2; rw [hk]; simp only; rw [if_pos hv]; rfl) hu hw' h).1
    | trnd =>
      rw [hk] at h
      exact (hi.store (rec2_fields e) (by unfold factor2 rec2; rw [hk]; simp only; rw [if_pos hv]; rfl) hu hw' h).1
    | asin =>
      rw [hk] at h
      exact (hi.store (rec2_fields e) (by unfold factor2 rec2; rw [hk]; simp only; rw [if_pos hv]; rfl) hu hw' h).1
    | acos =>
      rw [hk] at h
      exact (hi.store (rec2_fields e) (by unfold factor2 rec2; rw [hk]; simp only; rw [if_pos hv]; rfl) hu hw' h).1

theorem use2_ok [LinearOrder T] {cal : Cal T} {n m : Int} {t : T} {fac : List (Record T) → Record T → ℝ} {A : Record T → Prop}
    {rs : List (Record T)} {st : St T} {e : Entry T} (hi : Inv n m fac A rs st)
    (ht : Within n m (rec2 e) → Triangle (rec2 e)) : ∃ st', use2 cal n m t st e = .ok st' := by
  obtain ⟨f1, f2, f3, f4⟩ := rec2_fields e
  unfold use2
  by_cases hw : e.t0 ≤ t ∧ t < e.t1 ∧ e.degree ≤ n ∧ e.order ≤ m
  · rw [if_pos hw]
    have hw' : Within n m (rec2 e) := by rw [Within, f1, f2]; exact hw.2.2
    have htri := ht hw'
    rw [Triangle, f1, f2] at htri
    have hst := fun f => store_ok hi htri.1 htri.2 hw.2.2.1 f
    simp only
    cases hk : e.key <;> exact hst _
  · rw [if_neg hw]; exact ⟨_, rfl⟩

end Verif.Icgem
