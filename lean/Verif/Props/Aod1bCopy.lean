import Verif.Model.Aod1bCopy
/-
C87: copies of an AOD1B header object.
-/
namespace Verif.Aod1b.Copy
variable {T W : Type}

theorem memcpy_all (dst src : Fin 80 → Char) : memcpy 80 dst src = .ok src := by
  unfold memcpy
  rw [if_pos (le_refl _)]
  congr 1
  funext i
  rw [if_pos i.isLt]

/-- C87: a copy is equal to its source in every member, whatever the memory held before. -/
theorem header_copied (raw other : Aod1bIn T W) : copyNew raw other = .ok other := by
  simp only [copyNew, memcpy_all, Res.bind]

/-- C87: a move hands every member over; the source keeps everything but its file name. -/
theorem header_moved (left : List Char) (raw other : Aod1bIn T W) :
    moveNew left raw other = .ok (other, { other with fn := left }) := by
  simp only [moveNew, memcpy_all, Res.bind]

/-- C87: after a copy assignment the target is equal to the source; the source and all other objects are as before. In
particular an assignment to itself changes nothing. -/
theorem header_assigned (m : Mem T W) (i j : Nat) : ∃ m', copyAssign m i j = .ok m' ∧ m' i = m j ∧ ∀ k, k ≠ i → m' k = m k := by
  unfold copyAssign
  by_cases h : i = j
  · subst h; exact ⟨m, by simp, rfl, fun _ _ => rfl⟩
  · rw [if_pos h]
    simp only [memcpy_all, Res.bind]
    exact ⟨_, rfl, by simp, fun k hk => by simp [hk]⟩

/-- Object 0 becomes what object 1 is; object 2 stays. -/
example (a b c : Aod1bIn Nat Nat) : ∃ m', copyAssign (fun k => if k = 0 then a else if k = 1 then b else c) 0 1 = .ok m' ∧ m' 0 = b ∧ m' 2 = c := by
  obtain ⟨m', e, h1, h2⟩ := header_assigned (fun k => if k = 0 then a else if k = 1 then b else c) 0 1
  exact ⟨m', e, by simpa using h1, by simpa using h2 2 (by decide)⟩

/-- C87: the same for a move assignment, where only the name of the source changes; an assignment to itself changes nothing. -/
theorem header_move_assigned (left : List Char) (m : Mem T W) (i j : Nat) : ∃ m', moveAssign left m i j = .ok m' ∧ m' i = m j ∧
    (i ≠ j → m' j = { m j with fn := left }) ∧ ∀ k, k ≠ i → k ≠ j → m' k = m k := by
  unfold moveAssign
  by_cases h : i = j
  · subst h; exact ⟨m, by simp, rfl, fun h => absurd rfl h, fun _ _ _ => rfl⟩
  · rw [if_pos h]
    simp only [memcpy_all, Res.bind]
    exact ⟨_, rfl, by simp, fun _ => by simp [Ne.symm h], fun k hk hk' => by simp [hk, hk']⟩

/-- Two different headers. -/
example : ∃ a b : Aod1bIn Nat Nat, a ≠ b ∧ copyNew a b = .ok b ∧ copyNew b a = .ok a :=
  ⟨⟨"f".toList, fun _ => 'x', 999, 1, 29, 16471, 180, 0, 1, 1, 1, 1, 1, 32, 0, 1, 2, 3⟩,
   ⟨"g".toList, fun i => if i.val = 79 then 'y' else 'x', 999, 1, 29, 16471, 100, 0, 1, 1, 1, 1, 1, 8, 0, 1, 2, 4⟩,
   fun h => absurd (congrArg Aod1bIn.maxDegree h) (by decide), header_copied _ _, header_copied _ _⟩

end Verif.Aod1b.Copy
