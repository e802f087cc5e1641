import Verif.Spec.Matrix
import Verif.Props.Storage
/- Helper lemmas about matrix objects and their buffers. -/
namespace Verif.Matrix
open Verif Storage

variable {α : Type}

@[simp] theorem fresh_length (n : Nat) (junk : Nat → α) : (fresh n junk).length = n := by
  simp [fresh]

theorem memcpy_length {dst src dst' : List α} {d s n : Int} (h : memcpy dst d src s n = .ok dst') :
    dst'.length = dst.length := by
  unfold memcpy at h
  split at h
  · injection h with h; rw [h]
  · split at h
    · next hc =>
      injection h with h
      subst h
      simp only [List.length_append, List.length_take, List.length_drop]
      omega
    · cases h

theorem memcpy_get {dst src dst' : List α} {d s n : Int} (h : memcpy dst d src s n = .ok dst')
    (hd : 0 ≤ d) (hs : 0 ≤ s) (hn : 0 ≤ n) (k : Nat) :
    dst'[k]? = if d ≤ k ∧ (k:Int) < d + n then src[(s + (k - d)).toNat]? else dst[k]? := by
  unfold memcpy at h
  split at h
  · next h0 =>
    injection h with h
    subst h
    rw [if_neg (by omega)]
  · split at h
    · next hc =>
      injection h with h
      subst h
      obtain ⟨h1, h2, h3, h4, h5⟩ := hc
      obtain ⟨D, rfl⟩ := Int.eq_ofNat_of_zero_le h1
      obtain ⟨S, rfl⟩ := Int.eq_ofNat_of_zero_le h2
      obtain ⟨N, rfl⟩ := Int.eq_ofNat_of_zero_le h3
      simp only [Int.toNat_natCast, List.append_assoc]
      have hD : D ≤ dst.length := by omega
      have hN : S + N ≤ src.length := by omega
      by_cases c1 : k < D
      · rw [if_neg (by omega), List.getElem?_append_left (by simp; omega), List.getElem?_take,
          if_pos c1]
      · rw [List.getElem?_append_right (by simp; omega)]
        simp only [List.length_take, Nat.min_eq_left hD]
        by_cases c2 : k < D + N
        · rw [if_pos (by omega), List.getElem?_append_left (by simp; omega), List.getElem?_take,
            if_pos (by omega), List.getElem?_drop]
          congr 1; omega
        · rw [if_neg (by omega), List.getElem?_append_right (by simp; omega)]
          simp only [List.length_take, List.length_drop]
          rw [Nat.min_eq_left (by omega), List.getElem?_drop]
          congr 1; omega
    · cases h

theorem memcpy_ok {dst src : List α} {d s n : Int} (hd : 0 ≤ d) (hs : 0 ≤ s) (hn : 0 ≤ n)
    (h1 : d + n ≤ dst.length) (h2 : s + n ≤ src.length) : ∃ dst', memcpy dst d src s n = .ok dst' := by
  unfold memcpy
  split
  · exact ⟨_, rfl⟩
  · rw [if_pos ⟨hd, hs, hn, h1, h2⟩]; exact ⟨_, rfl⟩

/-- the slice of an object ends inside its elements -/
theorem slice_end (s : St) (hw : s.WF) {n : Nat} (hn : n < s.numSlices) :
    0 ≤ s.slice n ∧ 0 ≤ s.sliceLen n ∧ s.slice n + s.sliceLen n ≤ s.numElements := by
  have h1 := s.slice_nonneg hw n (by omega)
  have h2 := s.sliceLen_nonneg hn
  refine ⟨h1, h2, ?_⟩
  rw [← s.slice_succ, s.numElements_eq hw]
  have hm : ∀ a b : Nat, a ≤ b → b ≤ s.numSlices → s.slice a ≤ s.slice b := by
    intro a b hab hb
    induction b with
    | zero => have : a = 0 := by omega
              subst this; exact le_refl _
    | succ b ih =>
      rcases Nat.lt_or_ge a (b+1) with h | h
      · have e1 := ih (by omega) (by omega)
        have e2 := s.slice_succ b
        have e3 := s.sliceLen_nonneg (i := b) (by omega)
        push_cast; omega
      · have : a = b + 1 := by omega
        subst this; exact le_refl _
  have := hm (n+1) s.numSlices (by omega) (le_refl _)
  push_cast at this; exact this

/-- the copy loop: no out-of-bounds access and the exact content of the result -/
theorem cresizeLoop_spec (old new : St) (ho : old.WF) (hw : new.WF) (src : List α)
    (hsrc : old.numElements ≤ src.length) (n : Nat) :
    n ≤ old.numSlices → n ≤ new.numSlices → ∀ dst : List α, new.numElements ≤ dst.length →
    ∃ dst', cresizeLoop old new src n dst = .ok dst' ∧ dst'.length = dst.length ∧
      ∀ (q p : Nat), q < n → (p : Int) < old.sliceLen q → (p : Int) < new.sliceLen q →
        dst'[(new.slice q).toNat + p]? = src[(old.slice q).toNat + p]? := by
  induction n with
  | zero => intro _ _ dst _; exact ⟨dst, rfl, rfl, by intro q p h; omega⟩
  | succ n ih =>
    intro h1 h2 dst hd
    obtain ⟨d1, e1, e2, e3⟩ := ih (by omega) (by omega) dst hd
    obtain ⟨a1, a2, a3⟩ := slice_end old ho (n := n) (by omega)
    obtain ⟨b1, b2, b3⟩ := slice_end new hw (n := n) (by omega)
    obtain ⟨d2, e4⟩ := memcpy_ok (dst := d1) (src := src) (d := new.slice n) (s := old.slice n)
      (n := min (old.sliceLen n) (new.sliceLen n)) b1 a1 (by omega) (by omega) (by omega)
    refine ⟨d2, ?_, by rw [memcpy_length e4, e2], ?_⟩
    · simp only [cresizeLoop, e1, Res.bind_ok, e4]
    · intro q p hq hp1 hp2
      rw [memcpy_get e4 b1 a1 (by omega)]
      have c1 := new.slice_nonneg hw q (by omega)
      have c2 := old.slice_nonneg ho q (by omega)
      by_cases hqn : q = n
      · subst hqn
        rw [if_pos (by omega)]
        congr 1; omega
      · obtain ⟨f1, f2, f3⟩ := slice_end new hw (n := q) (by omega)
        have hmono : new.slice q + new.sliceLen q ≤ new.slice n := by
          rw [← new.slice_succ]
          have hm : ∀ a b : Nat, a ≤ b → b ≤ new.numSlices → new.slice a ≤ new.slice b := by
            intro a b hab hb
            induction b with
            | zero => have : a = 0 := by omega
                      subst this; exact le_refl _
            | succ b ih =>
              rcases Nat.lt_or_ge a (b+1) with h | h
              · have e1 := ih (by omega) (by omega)
                have e2 := new.slice_succ b
                have e3 := new.sliceLen_nonneg (i := b) (by omega)
                push_cast; omega
              · have : a = b + 1 := by omega
                subst this; exact le_refl _
          have := hm (q+1) n (by omega) (by omega)
          push_cast at this; exact this
        rw [if_neg (by omega)]
        exact e3 q p (by omega) hp1 hp2

end Verif.Matrix
