import Mathlib.Data.List.Perm.Basic
/-
Sorting with a search tree, for deciding that two lists are permutations of each other.
-/
namespace Verif.SortPerm

inductive Tree (α : Type) where
  | leaf
  | node (l : Tree α) (k : Nat) (v : α) (r : Tree α)

def Tree.insert {α : Type} (k : Nat) (v : α) : Tree α → Tree α
  | .leaf => .node .leaf k v .leaf
  | .node l k' v' r => bif Nat.ble k k' then .node (l.insert k v) k' v' r else .node l k' v' (r.insert k v)

def Tree.toList {α : Type} : Tree α → List α → List α
  | .leaf, acc => acc
  | .node l _ v r, acc => l.toList (v :: r.toList acc)

def sort {α : Type} (key : α → Nat) (l : List α) : List α :=
  (l.foldl (fun (t : Tree α) v => t.insert (key v) v) Tree.leaf).toList []

theorem toList_append {α : Type} (t : Tree α) (acc : List α) : t.toList acc = t.toList [] ++ acc := by
  induction t generalizing acc with
  | leaf => rfl
  | node l k v r ihl ihr =>
    simp only [Tree.toList]
    rw [ihl (v :: r.toList acc), ihl (v :: r.toList []), ihr acc]
    simp

theorem insert_perm {α : Type} (k : Nat) (v : α) (t : Tree α) :
    ((t.insert k v).toList []).Perm (v :: t.toList []) := by
  induction t with
  | leaf => exact List.Perm.refl _
  | node l k' v' r ihl ihr =>
    unfold Tree.insert
    cases Nat.ble k k' with
    | true =>
      simp only [cond_true, Tree.toList]
      rw [toList_append _ (v' :: _), toList_append l (v' :: _)]
      exact (ihl.append_right _).trans (by simp)
    | false =>
      simp only [cond_false, Tree.toList]
      rw [toList_append _ (v' :: _), toList_append l (v' :: _)]
      have h := (List.Perm.cons v' ihr)
      have h2 := (h.trans (List.Perm.swap _ _ _)).append_left (l.toList [])
      exact h2.trans List.perm_middle

theorem foldl_perm {α : Type} (key : α → Nat) (l : List α) (t : Tree α) :
    ((l.foldl (fun (t : Tree α) v => t.insert (key v) v) t).toList []).Perm (l ++ t.toList []) := by
  induction l generalizing t with
  | nil => exact List.Perm.refl _
  | cons a l ih =>
    refine (ih _).trans ?_
    refine ((insert_perm _ _ _).append_left l).trans ?_
    simp

theorem sort_perm {α : Type} (key : α → Nat) (l : List α) : (sort key l).Perm l := by
  have h := foldl_perm key l .leaf
  simpa [sort, Tree.toList] using h

/-- Two lists with the same sorted form are permutations of each other. -/
theorem perm_of_sort {α : Type} (key : α → Nat) {a b : List α} (h : sort key a = sort key b) : a.Perm b :=
  (sort_perm key a).symm.trans (h ▸ sort_perm key b)

end Verif.SortPerm
