import Verif.Spec.Doodson
import Mathlib.Tactic.Ring
import Mathlib.Tactic.SplitIfs
/-
Lemmas on the character conversions.
-/
namespace Verif.Doodson
open Verif

theorem denotes_iff_aux : ∀ n : Fin 36, glyphs[n.val]? = some (int2char ((n.val : Int) - 13)) := by
  decide +kernel

theorem denotes_int2char {v : Int} (h : Digit v) : Denotes (int2char v) v := by
  refine ⟨by have := h.1; omega, ?_⟩
  have h2 := h.2
  have h1 := h.1
  have := denotes_iff_aux ⟨(v + 13).toNat, by omega⟩
  simp only at this
  rw [this]
  congr 2
  omega

theorem glyphs_length : glyphs.length = 36 := by decide +kernel

theorem denotes_digit {c v : Int} (h : Denotes c v) : Digit v := by
  obtain ⟨h1, h2⟩ := h
  obtain ⟨h3, _⟩ := List.getElem?_eq_some_iff.mp h2
  rw [glyphs_length] at h3
  exact ⟨by omega, by omega⟩

theorem denotes_eq {c v : Int} (h : Denotes c v) : c = int2char v := by
  have := (denotes_int2char (denotes_digit h)).2
  rw [h.2] at this
  injection this

theorem char2int_int2char {v : Int} (h : Digit v) : char2int (int2char v) = .ok v := by
  obtain ⟨h1, h2⟩ := h
  have aux : ∀ n : Fin 36, char2int (int2char ((n.val : Int) - 13)) = .ok ((n.val : Int) - 13) := by
    decide +kernel
  have := aux ⟨(v + 13).toNat, by omega⟩
  have e : (((v + 13).toNat : Nat) : Int) - 13 = v := by omega
  simp only [e] at this
  exact this

/-- The characters `char2int` accepts, and what they denote. -/
theorem char2int_ok {c v : Int} (h : char2int c = .ok v) :
    Denotes (if 65 ≤ c ∧ c ≤ 90 then c + 32 else c) v := by
  have hv : Digit v ∧ (if 65 ≤ c ∧ c ≤ 90 then c + 32 else c) = int2char v := by
    revert h
    unfold char2int toLower int2char toChar Digit
    dsimp only
    split_ifs <;> intro h <;> first | (injection h with h; omega) | cases h
  rw [hv.2]
  exact denotes_int2char hv.1

theorem char2int_digit {c v : Int} (h : char2int c = .ok v) : Digit v := denotes_digit (char2int_ok h)

theorem char2int_cases (c : Int) : (∃ v, char2int c = .ok v) ∨ char2int c = .throw := by
  unfold char2int
  dsimp only
  split_ifs <;> simp

theorem fromChars_cons (c0 c1 c2 c3 c4 c5 c6 : Int) (rest : List Int) :
    fromChars (c0 :: c1 :: c2 :: c3 :: c4 :: c5 :: c6 :: rest) = (do
      let i0 ← char2int c0
      let i1 ← char2int c1
      let i2 ← char2int c2
      let i3 ← char2int c4
      let i4 ← char2int c5
      let i5 ← char2int c6
      if c3 ≠ 46 then .throw
      else .ok ⟨i0, i1 - 5, i2 - 5, i3 - 5, i4 - 5, i5 - 5, 0⟩) := rfl

theorem bind_eq_ok {α β : Type} {x : Res α} {f : α → Res β} {b : β} (h : (x >>= f) = .ok b) :
    ∃ a, x = .ok a ∧ f a = .ok b := by
  cases x with
  | ok a => exact ⟨a, rfl, h⟩
  | ub => cases h
  | abort => cases h
  | throw => cases h

theorem charAt_ok {mem : List Int} {i : Nat} {c : Int} (h : charAt mem i = .ok c) : mem[i]? = some c := by
  unfold charAt at h
  split at h
  · rename_i c' h'; injection h with h; rw [h', h]
  · cases h

/-- A successful parse, inverted. -/
theorem fromChars_inv {mem : List Int} {d : DC} (h : fromChars mem = .ok d) :
    ∃ c0 c1 c2 c3 c4 c5 rest, mem = c0 :: c1 :: c2 :: 46 :: c3 :: c4 :: c5 :: rest ∧
      char2int c0 = .ok d.i0 ∧ char2int c1 = .ok (d.i1 + 5) ∧ char2int c2 = .ok (d.i2 + 5) ∧
      char2int c3 = .ok (d.i3 + 5) ∧ char2int c4 = .ok (d.i4 + 5) ∧ char2int c5 = .ok (d.i5 + 5) ∧
      d.pifac = 0 := by
  match mem, h with
  | [], h => cases h
  | [c0], h =>
    obtain ⟨_, _, h⟩ := bind_eq_ok h
    obtain ⟨_, _, h⟩ := bind_eq_ok h
    cases h
  | [c0, c1], h =>
    obtain ⟨_, _, h⟩ := bind_eq_ok h
    obtain ⟨_, _, h⟩ := bind_eq_ok h
    obtain ⟨_, _, h⟩ := bind_eq_ok h
    obtain ⟨_, _, h⟩ := bind_eq_ok h
    cases h
  | c0 :: c1 :: c2 :: r, h =>
    have key : ∃ x y z w r', r = x :: y :: z :: w :: r' := by
      obtain ⟨_, _, h⟩ := bind_eq_ok h
      obtain ⟨_, _, h⟩ := bind_eq_ok h
      obtain ⟨_, _, h⟩ := bind_eq_ok h
      obtain ⟨_, _, h⟩ := bind_eq_ok h
      obtain ⟨_, _, h⟩ := bind_eq_ok h
      obtain ⟨_, _, h⟩ := bind_eq_ok h
      obtain ⟨_, _, h⟩ := bind_eq_ok h
      obtain ⟨_, _, h⟩ := bind_eq_ok h
      obtain ⟨_, _, h⟩ := bind_eq_ok h
      obtain ⟨_, _, h⟩ := bind_eq_ok h
      obtain ⟨_, h6, h⟩ := bind_eq_ok h
      have := charAt_ok h6
      match r, this with
      | x :: y :: z :: w :: r', _ => exact ⟨x, y, z, w, r', rfl⟩
    obtain ⟨x, y, z, w, r', rfl⟩ := key
    rw [fromChars_cons] at h
    obtain ⟨i0, e0, h⟩ := bind_eq_ok h
    obtain ⟨i1, e1, h⟩ := bind_eq_ok h
    obtain ⟨i2, e2, h⟩ := bind_eq_ok h
    obtain ⟨i3, e3, h⟩ := bind_eq_ok h
    obtain ⟨i4, e4, h⟩ := bind_eq_ok h
    obtain ⟨i5, e5, h⟩ := bind_eq_ok h
    by_cases hx : x = 46
    · subst hx
      simp at h
      subst h
      exact ⟨c0, c1, c2, y, z, w, r', rfl, e0, by simpa using e1, by simpa using e2, by simpa using e3,
        by simpa using e4, by simpa using e5, rfl⟩
    · rw [if_pos hx] at h; cases h

theorem fromChars_of {c0 c1 c2 c3 c4 c5 i0 i1 i2 i3 i4 i5 : Int} {rest : List Int}
    (h0 : char2int c0 = .ok i0) (h1 : char2int c1 = .ok i1) (h2 : char2int c2 = .ok i2)
    (h3 : char2int c3 = .ok i3) (h4 : char2int c4 = .ok i4) (h5 : char2int c5 = .ok i5) :
    fromChars (c0 :: c1 :: c2 :: 46 :: c3 :: c4 :: c5 :: rest) =
      .ok ⟨i0, i1 - 5, i2 - 5, i3 - 5, i4 - 5, i5 - 5, 0⟩ := by
  rw [fromChars_cons, h0, h1, h2, h3, h4, h5]
  simp

theorem skipBlanks_replicate (n : Nat) {c : Int} (cs : List Int) (hc : c ≠ 32) :
    skipBlanks (List.replicate n 32 ++ c :: cs) = c :: cs := by
  induction n with
  | zero => simp [skipBlanks, hc]
  | succ n ih => simp [List.replicate_succ, skipBlanks]; exact ih

/-- What `find?` returns in a table without two rows related by the key test. -/
theorem find_unique {β : Type} {l : List β} {p : β → Bool} {w : β} (hw : w ∈ l) (hp : p w = true)
    (hu : ∀ w' ∈ l, p w' = true → w' = w) : l.find? p = some w := by
  cases hf : l.find? p with
  | none =>
    have := List.find?_eq_none.mp hf w hw
    exact absurd hp (by simpa using this)
  | some w' =>
    rw [hu w' (List.mem_of_find?_eq_some hf) (List.find?_some hf)]

end Verif.Doodson
