import Verif.Spec.Groops
import Verif.Props.Doodson
import Verif.Proof.Chars
/-
Lemmas for GROOPS file names.
-/
namespace Verif.Groops
open Verif Verif.Doodson Verif.Tide Verif.Chars

theorem char2int_lower (c : Int) : char2int (toLower c) = char2int c := by
  unfold char2int toLower
  dsimp only
  split_ifs <;> first | rfl | omega | simp | skip
  all_goals (try omega)

theorem char2int_upper (c : Int) : char2int (toUpper c) = char2int c := by
  unfold char2int toLower toUpper
  dsimp only
  split_ifs <;> first | rfl | omega | simp | skip
  all_goals (try omega)

theorem denotes_char {c v : Int} (h : Denotes c v) : char2int c = .ok v := by
  rw [denotes_eq h]
  exact char2int_int2char (denotes_digit h)

theorem denotes_range {c v : Int} (h : Denotes c v) : (48 ≤ c ∧ c ≤ 57) ∨ (97 ≤ c ∧ c ≤ 122) := by
  have hm := List.mem_of_getElem? h.2
  have : ∀ c ∈ glyphs, (48 ≤ c ∧ c ≤ 57) ∨ (97 ≤ c ∧ c ≤ 122) := by decide +kernel
  exact this c hm

/-- The text of a Doodson number, in upper or lower case, is read, whatever follows; it has no underscore, no NUL and seven characters. -/
theorem fromChars_fold {s : List Int} {d : DC} (h : Renders (fold s) d) (rest : List Int) :
    fromChars (s ++ rest) = .ok { d with pifac := 0 } ∧ 95 ∉ s ∧ 0 ∉ s ∧ s.length = 7 := by
  obtain ⟨c0, c1, c2, c3, c4, c5, e, h0, h1, h2, h3, h4, h5⟩ := h
  have hl : s.length = 7 := by
    have := congrArg List.length e
    simpa [fold] using this
  match s, hl with
  | [a0, a1, a2, a3, a4, a5, a6], _ =>
    simp only [fold, List.map_cons, List.map_nil, List.cons.injEq, and_true] at e
    obtain ⟨e0, e1, e2, e3, e4, e5, e6⟩ := e
    have key : ∀ {x c v : Int}, (if 65 ≤ x ∧ x ≤ 90 then x + 32 else x) = c → Denotes c v → char2int x = .ok v := by
      intro x c v hx hd
      rw [← char2int_lower x]
      unfold toLower
      rw [hx]
      exact denotes_char hd
    have k0 := key e0 h0
    have k1 := key e1 h1
    have k2 := key e2 h2
    have k3 := key e4 h3
    have k4 := key e5 h4
    have k5 := key e6 h5
    have e3' : a3 = 46 := by split_ifs at e3 <;> omega
    have r0 := denotes_range h0
    have r1 := denotes_range h1
    have r2 := denotes_range h2
    have r3 := denotes_range h3
    have r4 := denotes_range h4
    have r5 := denotes_range h5
    have nr : ∀ {x c : Int}, (if 65 ≤ x ∧ x ≤ 90 then x + 32 else x) = c → ((48 ≤ c ∧ c ≤ 57) ∨ (97 ≤ c ∧ c ≤ 122)) → x ≠ 95 ∧ x ≠ 0 := by
      intro x c hx hr
      split_ifs at hx <;> omega
    have n0 := nr e0 r0
    have n1 := nr e1 r1
    have n2 := nr e2 r2
    have n3 := nr e4 r3
    have n4 := nr e5 r4
    have n5 := nr e6 r5
    refine ⟨?_, ?_, ?_, rfl⟩
    · rw [e3']
      have := fromChars_of (rest := rest) k0 k1 k2 k3 k4 k5
      simp only [List.cons_append, List.nil_append]
      rw [this]
      simp
    · simp only [List.mem_cons, List.not_mem_nil, or_false]
      omega
    · simp only [List.mem_cons, List.not_mem_nil, or_false]
      omega

theorem scanBack_found (a b rest : List Int) (hb : 95 ∉ b) :
    scanBack (a ++ 95 :: (b ++ rest)) (a.length + b.length) = some a.length := by
  have key : ∀ n, n ≤ b.length → scanBack (a ++ 95 :: (b ++ rest)) (a.length + n) = some a.length := by
    intro n
    induction n with
    | zero =>
      intro _
      have hg : (a ++ 95 :: (b ++ rest))[a.length]? = some 95 := by simp
      rw [Nat.add_zero]
      cases h : a.length with
      | zero => rw [h] at hg; rw [scanBack, if_pos hg]
      | succ k => rw [h] at hg; rw [scanBack, if_pos hg]
    | succ n ih =>
      intro hn
      rw [show a.length + (n + 1) = (a.length + n) + 1 from rfl, scanBack]
      have hg : (a ++ 95 :: (b ++ rest))[a.length + n + 1]? = some b[n] := by
        rw [List.getElem?_append_right (by omega)]
        rw [show a.length + n + 1 - a.length = n + 1 from by omega, List.getElem?_cons_succ,
          List.getElem?_append_left (by omega), List.getElem?_eq_getElem]
      rw [hg, if_neg]
      · exact ih (by omega)
      · intro h
        injection h with h
        exact hb (h ▸ List.getElem_mem _)
  exact key b.length (le_refl _)

theorem scanBack_some (fn : List Int) : ∀ k i, scanBack fn k = some i → i ≤ k ∧ fn[i]? = some 95 ∧ ∀ l, i < l → l ≤ k → fn[l]? ≠ some 95 := by
  intro k
  induction k with
  | zero =>
    intro i h
    unfold scanBack at h
    split_ifs at h with hc
    cases h
    exact ⟨le_refl _, hc, fun l h1 h2 => by omega⟩
  | succ k ih =>
    intro i h
    unfold scanBack at h
    split_ifs at h with hc
    · cases h
      exact ⟨le_refl _, hc, fun l h1 h2 => by omega⟩
    · obtain ⟨h1, h2, h3⟩ := ih i h
      refine ⟨by omega, h2, fun l h4 h5 => ?_⟩
      by_cases e : l = k + 1
      · rw [e]; exact hc
      · exact h3 l h4 (by omega)

theorem drop_at {fn : List Int} {j : Nat} {c : Int} (h : fn[j]? = some c) : fn.drop j = c :: fn.drop (j + 1) := by
  obtain ⟨hl, rfl⟩ := List.getElem?_eq_some_iff.mp h
  exact List.drop_eq_getElem_cons hl

/-- Cutting a name at two underscores, before the last eight characters, and in these. -/
theorem cut {fn : List Int} {i j : Nat} (h9 : 9 ≤ fn.length) (hi : fn[i]? = some 95) (hj : fn[j]? = some 95) (hji : j < i) (hi9 : i ≤ fn.length - 9) :
    ∃ c, fn = fn.take j ++ [95] ++ (fn.drop (j + 1)).take (i - (j + 1)) ++ [95] ++ (fn.drop (i + 1)).take (fn.length - 9 - i) ++ [c] ++
      (fn.drop (fn.length - 7)).take 3 ++ fn.drop (fn.length - 4) := by
  have hc : fn[fn.length - 8]? = some (fn[fn.length - 8]'(by omega)) := List.getElem?_eq_getElem _
  refine ⟨fn[fn.length - 8]'(by omega), ?_⟩
  have s1 : fn.drop (fn.length - 7) = (fn.drop (fn.length - 7)).take 3 ++ fn.drop (fn.length - 4) := by
    conv_lhs => rw [← List.take_append_drop 3 (fn.drop (fn.length - 7))]
    rw [List.drop_drop, show fn.length - 7 + 3 = fn.length - 4 from by omega]
  have s2 : fn.drop (i + 1) = (fn.drop (i + 1)).take (fn.length - 9 - i) ++ fn.drop (fn.length - 8) := by
    conv_lhs => rw [← List.take_append_drop (fn.length - 9 - i) (fn.drop (i + 1))]
    rw [List.drop_drop, show i + 1 + (fn.length - 9 - i) = fn.length - 8 from by omega]
  have s3 : fn.drop (j + 1) = (fn.drop (j + 1)).take (i - (j + 1)) ++ fn.drop i := by
    conv_lhs => rw [← List.take_append_drop (i - (j + 1)) (fn.drop (j + 1))]
    rw [List.drop_drop, show j + 1 + (i - (j + 1)) = i from by omega]
  have s4 := drop_at hc
  rw [show fn.length - 8 + 1 = fn.length - 7 from by omega] at s4
  have e : fn = fn.take j ++ fn.drop j := (List.take_append_drop j fn).symm
  rw [drop_at hj, s3, drop_at hi, s2, s4, s1] at e
  simpa using e

end Verif.Groops
