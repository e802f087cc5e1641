import Verif.Spec.Storage
import Mathlib.Tactic.Ring
import Mathlib.Tactic.Linarith
import Mathlib.Tactic.NormNum
import Mathlib.Algebra.Ring.Int.Parity
/- Helper lemmas about the storage layouts. -/
namespace Verif.Storage
namespace St

/-- running offsets of consecutive slices -/
theorem tile_unique (off : Nat → Nat) (cnt : Nat → Nat) (h0 : off 0 = 0)
    (hs : ∀ n, off (n+1) = off n + cnt n) :
    ∀ N k, k < off N → ∃ n p, n < N ∧ p < cnt n ∧ off n + p = k := by
  intro N
  induction N with
  | zero => intro k hk; omega
  | succ N ih =>
    intro k hk
    rcases Nat.lt_or_ge k (off N) with h | h
    · obtain ⟨n, p, hn, hp, e⟩ := ih k h
      exact ⟨n, p, by omega, hp, e⟩
    · refine ⟨N, k - off N, by omega, ?_, by omega⟩
      have := hs N; omega

theorem off_mono (off : Nat → Nat) (cnt : Nat → Nat)
    (hs : ∀ n, off (n+1) = off n + cnt n) {a b : Nat} (h : a ≤ b) : off a ≤ off b := by
  induction b with
  | zero => have : a = 0 := by omega
            subst this; exact le_refl _
  | succ b ih =>
    rcases Nat.lt_or_ge a (b+1) with h1 | h1
    · have := ih (by omega); have := hs b; omega
    · have : a = b+1 := by omega
      subst this; exact le_refl _

theorem tile_inj (off : Nat → Nat) (cnt : Nat → Nat)
    (hs : ∀ n, off (n+1) = off n + cnt n) {n m p q : Nat}
    (hp : p < cnt n) (hq : q < cnt m) (e : off n + p = off m + q) : n = m ∧ p = q := by
  have key : ∀ {n m p q : Nat}, p < cnt n → q < cnt m → off n + p = off m + q → ¬ n < m := by
    intro n m p q hp hq e hlt
    have h1 := off_mono off cnt hs (show n+1 ≤ m by omega)
    have h2 := hs n
    omega
  have h1 := key hp hq e
  have h2 := key hq hp e.symm
  have : n = m := by omega
  subst this
  exact ⟨rfl, by omega⟩

theorem tile_lt (off : Nat → Nat) (cnt : Nat → Nat)
    (hs : ∀ n, off (n+1) = off n + cnt n) {n p N : Nat} (hn : n < N) (hp : p < cnt n) :
    off n + p < off N := by
  have h1 := off_mono off cnt hs (show n+1 ≤ N by omega)
  have := hs n; omega

theorem tri_succ (n : Nat) : (n+1) * (n+1+1) / 2 = n * (n+1) / 2 + (n+1) := by
  have : (n+1) * (n+1+1) = n * (n+1) + (n+1) * 2 := by ring
  rw [this, Nat.add_mul_div_right _ _ (by norm_num)]

theorem tri_succ_int (n : Int) : (n+1) * (n+1+1) / 2 = n * (n+1) / 2 + (n+1) := by
  have : (n+1) * (n+1+1) = n * (n+1) + (n+1) * 2 := by ring
  rw [this, Int.add_mul_ediv_right _ _ (by norm_num)]

/-- slice length as a natural, total version: 0 outside of the matrix -/
def cntN (s : St) (i : Nat) : Nat := (s.sliceLen i).toNat

/-- slice offset as a natural -/
def offN (s : St) (i : Nat) : Nat := (s.slice i).toNat

theorem trap_tri (cols n : Nat) (h : n ≤ cols) : trapOffset cols n = n * (n+1) / 2 := by
  induction n with
  | zero => rfl
  | succ n ih => rw [trapOffset, ih (by omega), tri_succ, Nat.min_eq_left h]

theorem slice_zero (s : St) : s.slice 0 = 0 := by
  unfold slice; split <;> simp [trapOffset]

/-- consecutive slices (integers) -/
theorem slice_succ (s : St) (i : Nat) : s.slice ((i:Int) + 1) = s.slice i + s.sliceLen i := by
  unfold slice sliceLen
  split
  · exact tri_succ_int _
  · have h2 : ((i:Int)+1) * ((i:Int)+1-1) = (i:Int) * (i - 1) + i * 2 := by ring
    rw [h2, Int.add_mul_ediv_right _ _ (by norm_num)]; ring
  · have : ((i:Int)+1).toNat = i + 1 := by omega
    rw [this, trapOffset]; simp
  · ring
  · ring

theorem slice_nonneg (s : St) (_hw : s.WF) (i : Nat) (hi : i ≤ s.numSlices) : 0 ≤ s.slice i := by
  induction i with
  | zero => have := slice_zero s; simp at this ⊢; omega
  | succ i ih =>
    have := ih (by omega)
    have h := slice_succ s i
    push_cast
    rw [h]
    have : 0 ≤ s.sliceLen i := by
      unfold sliceLen numSlices at *
      cases hl : s.layout <;> simp only [hl] at hi ⊢ <;> omega
    omega

theorem numElements_eq (s : St) (hw : s.WF) : (s.numElements : Int) = s.slice s.numSlices := by
  unfold numElements slice numSlices
  cases hl : s.layout <;> simp only [hl, ncols, square]
  · push_cast; ring
  · push_cast; ring
  · by_cases h : s.rows = s.cols
    · simp only [h, if_true, Int.toNat_natCast]
      rw [trap_tri _ _ (le_refl _)]
    · simp [h]
  · push_cast; rfl
  · have h1 : (s.rows:Int) * (s.rows - 1) = s.rows * (s.rows+1) + (-(s.rows:Int)) * 2 := by ring
    rw [h1, Int.add_mul_ediv_right _ _ (by norm_num)]
    have h2 : (2:Int) ∣ (s.rows:Int) * ((s.rows:Int)+1) := (Int.even_mul_succ_self _).two_dvd
    push_cast
    obtain ⟨k, hk⟩ := h2
    rw [hk]
    rw [Int.mul_ediv_cancel_left _ (by norm_num)]
    have : (s.rows:Int) * s.rows = 2*k - s.rows := by linarith [hk, mul_add (s.rows:Int) s.rows 1]
    rw [this]; ring

/-- slice number of a position -/
def slc (s : St) (i j : Nat) : Nat := if isRowMajor s.layout then i else j
/-- position inside of the slice -/
def pos (s : St) (i j : Nat) : Nat :=
  if isRowMajor s.layout then j else i - (firstRowOfCol s.layout j).toNat

theorem slc_lt (s : St) (hw : s.WF) {i j : Nat} (h : s.HasElement i j) : s.slc i j < s.numSlices := by
  obtain ⟨_, h1, _, h2, h3⟩ := h
  unfold WF square at hw
  unfold slc numSlices ncols square isRowMajor
  cases hl : s.layout <;> simp only [hl] at hw ⊢ <;> simp at hw ⊢ <;> omega

theorem pos_lt (s : St) {i j : Nat} (h : s.HasElement i j) :
    ((s.pos i j : Nat) : Int) < s.sliceLen (s.slc i j) := by
  obtain ⟨_, h1, _, h2, h3⟩ := h
  unfold pos slc sliceLen isRowMajor firstRowOfCol
  unfold Layout.lower at h3
  cases hl : s.layout <;> simp only [hl] at h3 ⊢ <;> simp at h3 ⊢ <;> omega

theorem index_eq (s : St) (_hw : s.WF) {i j : Nat} (h : s.HasElement i j) :
    s.index i j = s.slice (s.slc i j) + s.pos i j := by
  obtain ⟨_, h1, _, h2, h3⟩ := h
  have hw := _hw
  unfold WF square at hw
  unfold Layout.lower at h3
  unfold index slc pos isRowMajor firstRowOfCol
  cases hl : s.layout <;> simp only [hl] at h3 hw ⊢ <;> simp at h3 hw ⊢
  · unfold slice; simp [hl]
  · unfold slice; simp [hl]
  · intro h4; omega
  · omega

/-- natural-number version of the tiling -/
theorem offN_zero (s : St) : s.offN 0 = 0 := by
  unfold offN; have := slice_zero s; simp at this ⊢; omega

theorem sliceLen_nonneg (s : St) {i : Nat} (hi : i < s.numSlices) : 0 ≤ s.sliceLen i := by
  unfold sliceLen numSlices at *
  cases hl : s.layout <;> simp only [hl] at hi ⊢ <;> omega

/-- offsets with the tail made constant, so that the recurrence holds for all n -/
def toff (s : St) (n : Nat) : Nat := s.offN (min n s.numSlices)
def tcnt (s : St) (n : Nat) : Nat := if n < s.numSlices then s.cntN n else 0

theorem toff_succ (s : St) (hw : s.WF) (n : Nat) : s.toff (n+1) = s.toff n + s.tcnt n := by
  unfold toff tcnt
  by_cases h : n < s.numSlices
  · rw [if_pos h, Nat.min_eq_left (by omega), Nat.min_eq_left (by omega)]
    unfold offN cntN
    have h1 := slice_succ s n
    have h2 := slice_nonneg s hw n (by omega)
    have h3 := sliceLen_nonneg s h
    push_cast
    rw [h1, Int.toNat_add h2 h3]
  · rw [if_neg h, Nat.min_eq_right (by omega), Nat.min_eq_right (by omega)]; rfl

theorem toff_end (s : St) (hw : s.WF) : s.toff s.numSlices = s.numElements := by
  unfold toff offN
  have := numElements_eq s hw
  simp
  omega

theorem index_toff (s : St) (hw : s.WF) {i j : Nat} (h : s.HasElement i j) :
    s.index i j = ((s.toff (s.slc i j) + s.pos i j : Nat) : Int) := by
  rw [index_eq s hw h]
  have h1 := slc_lt s hw h
  have h2 := slice_nonneg s hw (s.slc i j) (by omega)
  unfold toff offN
  rw [Nat.min_eq_left (by omega)]
  push_cast; omega

theorem pos_lt_tcnt (s : St) (hw : s.WF) {i j : Nat} (h : s.HasElement i j) :
    s.pos i j < s.tcnt (s.slc i j) := by
  have h1 := slc_lt s hw h
  have h2 := pos_lt s h
  unfold tcnt cntN; rw [if_pos h1]; omega

/-- the element at place `p` of slice `n` -/
def rowOf (s : St) (n p : Nat) : Nat :=
  if isRowMajor s.layout then n else p + (firstRowOfCol s.layout n).toNat
def colOf (s : St) (n p : Nat) : Nat := if isRowMajor s.layout then p else n

theorem has_rowcol (s : St) (hw : s.WF) {n p : Nat} (hn : n < s.numSlices) (hp : p < s.tcnt n) :
    s.HasElement (s.rowOf n p) (s.colOf n p) ∧ s.slc (s.rowOf n p) (s.colOf n p) = n ∧
      s.pos (s.rowOf n p) (s.colOf n p) = p := by
  unfold tcnt cntN at hp; rw [if_pos hn] at hp
  unfold WF square at hw
  unfold HasElement IsElement rowOf colOf slc pos isRowMajor firstRowOfCol Layout.lower
  unfold sliceLen at hp
  unfold numSlices ncols square at hn
  cases hl : s.layout <;> simp only [hl] at hw hn hp ⊢ <;> simp at hw hn hp ⊢ <;> omega

theorem slc_pos_inj (s : St) {i j i' j' : Nat} (h : s.HasElement i j) (h' : s.HasElement i' j')
    (e1 : s.slc i j = s.slc i' j') (e2 : s.pos i j = s.pos i' j') : i = i' ∧ j = j' := by
  obtain ⟨_, h1, _, h2, h3⟩ := h
  obtain ⟨_, h1', _, h2', h3'⟩ := h'
  unfold Layout.lower at h3 h3'
  unfold slc pos isRowMajor firstRowOfCol at *
  cases hl : s.layout <;> simp only [hl] at h3 h3' e1 e2 <;> simp at h3 h3' e1 e2 <;> omega

end St
end Verif.Storage
