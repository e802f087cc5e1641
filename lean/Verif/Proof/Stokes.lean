import Verif.Spec.Stokes
import Verif.Proof.MatrixExpr
import Verif.Proof.Matrix
/- Helper lemmas for Stokes coefficient sets. -/
namespace Verif.Stokes
open Verif Storage MatrixExpr

variable {α : Type}

theorem matOk_wf {m : St × List α} {d : Nat} (h : MatOk m d) : m.1.WF := fun _ => h.2.1

theorem has_tri {st : St} (hl : st.layout = .lwTriangularColWise) (hs : st.rows = st.cols)
    {n m : Int} (h0 : 0 ≤ m) (h1 : m ≤ n) (h2 : n < st.rows) : st.HasElement n m := by
  refine ⟨by omega, h2, h0, by omega, fun _ => h1⟩

theorem matOk_has {m : St × List α} {d : Nat} (h : MatOk m d) {n j : Int} (h0 : 0 ≤ j) (h1 : j ≤ n)
    (h2 : n ≤ d) : m.1.HasElement n j := by
  obtain ⟨a, b, c, _⟩ := h
  exact has_tri a b h0 h1 (by omega)

theorem slice_index {st : St} (hl : st.layout = .lwTriangularColWise) (n m : Int) :
    st.index n m = st.slice m + (n - m) := by
  unfold St.index; rw [hl]

theorem matOk_mono {m : St × List α} {d d' : Nat} (h : MatOk m d) (hd : d' ≤ d) : MatOk m d' :=
  ⟨h.1, h.2.1, by have := h.2.2.1; omega, h.2.2.2⟩

theorem entry_of_has {env : Env α} {x d : Nat} (h : MatOk (env x) d) {n m : Int}
    (he : (env x).1.HasElement n m) :
    ∃ v, entry env x n m = some v ∧ rd (env x).2 ((env x).1.index n m) = .ok v := by
  have hw := matOk_wf h
  have hb := index_in_bounds _ hw n m he
  have hlt : ((env x).1.index n m).toNat < (env x).2.length := by have := h.2.2.2; omega
  refine ⟨(env x).2[((env x).1.index n m).toNat], ?_, ?_⟩
  · simp [entry, hlt]
  · have := rd_ok hlt
    rwa [Int.toNat_of_nonneg hb.1] at this

/-- effect of one loop nest of `operator+=` -/
theorem addCols_spec [Add α] {env : Env α} {x y deg ord dx : Nat} (hx : MatOk (env x) dx)
    (hy : MatOk (env y) deg) (hd : deg ≤ dx) :
    ∃ env', addCols x y deg ord env = .ok env' ∧ Agree x env env' ∧
      ∀ n m : Int, (env x).1.HasElement n m →
        (Within deg ord n m → ∃ u v, entry env x n m = some u ∧ entry env y n m = some v ∧
          entry env' x n m = some (u + v)) ∧
        (¬ Within deg ord n m → entry env' x n m = entry env x n m) := by
  have hwx := matOk_wf hx
  have hwy := matOk_wf hy
  let ps : List (Nat × Nat) :=
    (List.range (ord + 1)).flatMap fun m => (List.range (deg + 1 - m)).map fun n => (m, n)
  have hps : ∀ m n : Nat, (m, n) ∈ ps ↔ m ≤ ord ∧ m + n ≤ deg := by
    intro m n
    simp only [ps, List.mem_flatMap, List.mem_range, List.mem_map, Prod.mk.injEq]
    constructor
    · rintro ⟨a, ha, b, hb, rfl, rfl⟩; omega
    · intro h; exact ⟨m, by omega, n, by omega, rfl, rfl⟩
  have hnd : ps.Nodup := by
    simp only [ps]
    rw [List.nodup_flatMap]
    refine ⟨fun i _ => List.Nodup.map (fun a b hab => (Prod.mk.inj hab).2) List.nodup_range, ?_⟩
    refine List.Pairwise.imp ?_ List.nodup_range
    intro a b hab
    simp only [Function.onFun, List.disjoint_left, List.mem_map, not_exists, not_and]
    rintro ⟨u, v⟩ ⟨j, _, hj⟩ j' _ hj'
    simp only [Prod.mk.injEq] at hj hj'
    omega
  have hin : ∀ m n : Nat, (m, n) ∈ ps → (env x).1.HasElement ((m + n : Nat) : Int) m ∧
      (env x).1.index ((m + n : Nat) : Int) m = (env x).1.slice m + n ∧
      (env y).1.HasElement ((m + n : Nat) : Int) m ∧
      (env y).1.index ((m + n : Nat) : Int) m = (env y).1.slice m + n := by
    intro m n hp
    have hp := (hps m n).mp hp
    refine ⟨matOk_has hx (by omega) (by omega) (by omega), ?_,
      matOk_has hy (by omega) (by omega) (by omega), ?_⟩
    · rw [slice_index hx.1]; push_cast; ring
    · rw [slice_index hy.1]; push_cast; ring
  obtain ⟨env', e1, e2, e3, e4⟩ := forEach_cells x (· + ·)
    (fun p : Nat × Nat => ((env x).1.slice p.1 + p.2).toNat)
    (fun p : Nat × Nat => (env x).1.slice p.1 + p.2)
    (fun p env' => rd (env' y).2 ((env y).1.slice p.1 + p.2)) ps env
    (by
      refine List.Nodup.map_on ?_ hnd
      rintro ⟨m, n⟩ hp ⟨m', n'⟩ hp' he
      obtain ⟨a1, a2, _⟩ := hin m n hp
      obtain ⟨b1, b2, _⟩ := hin m' n' hp'
      have c1 := index_in_bounds _ hwx _ _ a1
      have c2 := index_in_bounds _ hwx _ _ b1
      simp only at he
      have := index_injective _ hwx _ _ _ _ a1 b1 (by omega)
      simp only [Prod.mk.injEq]; omega)
    (by
      rintro ⟨m, n⟩ hp
      obtain ⟨a1, a2, _⟩ := hin m n hp
      have c1 := index_in_bounds _ hwx _ _ a1
      have := hx.2.2.2
      simp only
      omega)
    (by
      rintro ⟨m, n⟩ hp
      obtain ⟨_, _, b1, b2⟩ := hin m n hp
      obtain ⟨v, _, hv⟩ := entry_of_has hy b1
      rw [b2] at hv
      exact ⟨v, hv⟩)
    (by
      rintro ⟨m, n⟩ hp env' ha he
      by_cases hxy : y = x
      · subst hxy
        obtain ⟨_, _, b1, b2⟩ := hin m n hp
        have c1 := index_in_bounds _ hwy _ _ b1
        simp only [rd] at he ⊢
        rw [he]
      · simp only [ha.1 y hxy])
  refine ⟨env', ?_, e2, ?_⟩
  · rw [← e1]
    simp only [addCols, ps]
    rw [forEach_flatMap]
    apply forEach_congr
    intro m _ env1
    rw [forEach_map]
  · intro n m he
    have hbd := index_in_bounds _ hwx _ _ he
    constructor
    · rintro ⟨w1, w2, w3, w4⟩
      obtain ⟨a, rfl⟩ := Int.eq_ofNat_of_zero_le w1
      obtain ⟨b, hb⟩ := Int.eq_ofNat_of_zero_le (show 0 ≤ n - (a : Int) by omega)
      have hn : n = ((a + b : Nat) : Int) := by push_cast; omega
      subst hn
      have hp : (a, b) ∈ ps := (hps a b).mpr (by omega)
      obtain ⟨c1, c2, c3, c4⟩ := hin a b hp
      obtain ⟨u, hu, _⟩ := entry_of_has hx c1
      obtain ⟨v, hv, hv'⟩ := entry_of_has hy c3
      refine ⟨u, v, hu, hv, ?_⟩
      have := e3 (a, b) hp u v (by
        unfold entry at hu; rw [c2] at hu; exact hu) (by rw [c4] at hv'; exact hv')
      unfold entry
      rw [e2.2.1, c2]
      exact this
    · intro hnw
      unfold entry
      rw [e2.2.1]
      apply e4
      intro hm
      obtain ⟨⟨a, b⟩, hp, heq⟩ := List.mem_map.mp hm
      obtain ⟨c1, c2, _⟩ := hin a b hp
      have hp := (hps a b).mp hp
      have d1 := index_in_bounds _ hwx _ _ c1
      simp only at heq
      obtain ⟨rfl, rfl⟩ := index_injective _ hwx _ _ _ _ c1 he (by omega)
      exact hnw ⟨by omega, by omega, by omega, by omega⟩

theorem agree_matOk {x : Nat} {env env' : Env α} (h : Agree x env env') {y d : Nat}
    (hy : MatOk (env y) d) : MatOk (env' y) d := by
  by_cases hxy : y = x
  · subst hxy
    unfold MatOk at *
    rw [h.2.1, h.2.2]; exact hy
  · rw [h.1 y hxy]; exact hy

theorem agree_entry {x : Nat} {env env' : Env α} (h : Agree x env env') {y : Nat} (hy : y ≠ x)
    (n m : Int) : entry env' y n m = entry env y n m := by
  unfold entry; rw [h.1 y hy]

end Verif.Stokes
