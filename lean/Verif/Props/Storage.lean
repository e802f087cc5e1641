import Verif.Proof.Storage
/-
C01, C02: element addressing of the five storage layouts.
-/
namespace Verif.Storage

/-- C01 (bounds): the offset of every element is inside the buffer. -/
theorem index_in_bounds (s : St) (hw : s.WF) (i j : Int) (h : s.HasElement i j) :
    0 ≤ s.index i j ∧ s.index i j < s.numElements := by
  obtain ⟨a, rfl⟩ := Int.eq_ofNat_of_zero_le h.1
  obtain ⟨b, rfl⟩ := Int.eq_ofNat_of_zero_le h.2.2.1
  rw [s.index_toff hw h]
  have h1 := s.slc_lt hw h
  have h2 := s.pos_lt_tcnt hw h
  have h3 := St.tile_lt s.toff s.tcnt (s.toff_succ hw) h1 h2
  rw [s.toff_end hw] at h3
  omega

/-- C01 (no aliasing): different elements have different offsets. -/
theorem index_injective (s : St) (hw : s.WF) (i j i' j' : Int) (h : s.HasElement i j)
    (h' : s.HasElement i' j') (e : s.index i j = s.index i' j') : i = i' ∧ j = j' := by
  obtain ⟨a, rfl⟩ := Int.eq_ofNat_of_zero_le h.1
  obtain ⟨b, rfl⟩ := Int.eq_ofNat_of_zero_le h.2.2.1
  obtain ⟨a', rfl⟩ := Int.eq_ofNat_of_zero_le h'.1
  obtain ⟨b', rfl⟩ := Int.eq_ofNat_of_zero_le h'.2.2.1
  rw [s.index_toff hw h, s.index_toff hw h'] at e
  have h2 := s.pos_lt_tcnt hw h
  have h2' := s.pos_lt_tcnt hw h'
  have h3 := St.tile_inj s.toff s.tcnt (s.toff_succ hw) h2 h2' (by omega)
  have := s.slc_pos_inj h h' h3.1 h3.2
  omega

/-- C01: the elements of the matrix and the cells of the buffer correspond one-to-one: every cell
belongs to exactly one element. -/
theorem index_bijective (s : St) (hw : s.WF) (k : Nat) (hk : k < s.numElements) :
    ∃! p : Int × Int, s.HasElement p.1 p.2 ∧ s.index p.1 p.2 = k := by
  obtain ⟨n, p, hn, hp, e⟩ :=
    St.tile_unique s.toff s.tcnt (by unfold St.toff; simpa using s.offN_zero)
      (s.toff_succ hw) s.numSlices k (by rw [s.toff_end hw]; exact hk)
  obtain ⟨h1, h2, h3⟩ := s.has_rowcol hw hn hp
  refine ⟨(s.rowOf n p, s.colOf n p), ⟨h1, ?_⟩, ?_⟩
  · rw [s.index_toff hw h1, h2, h3, e]
  · rintro ⟨a, b⟩ ⟨h4, h5⟩
    have := index_injective s hw a b _ _ h4 h1 (by
      rw [h5, s.index_toff hw h1, h2, h3, e])
    exact Prod.ext this.1 this.2

/-- Hypotheses of C01 are met: a 4×4 triangular and a 5×3 trapezoid matrix. -/
example : (⟨.lwTriangularColWise, 4, 4⟩ : St).WF ∧
    (⟨.lwTriangularColWise, 4, 4⟩ : St).HasElement 3 1 ∧
    (⟨.trapezoid, 5, 3⟩ : St).WF ∧ (⟨.trapezoid, 5, 3⟩ : St).HasElement 4 2 ∧
    11 < (⟨.trapezoid, 5, 3⟩ : St).numElements := by
  refine ⟨by simp [St.WF, St.square], ?_, by simp [St.WF, St.square], ?_, by decide⟩ <;>
    simp [St.HasElement, IsElement, Layout.lower]

/-- Every storage object the constructors produce satisfies the well-formedness hypothesis. -/
theorem make_wf (l : Layout) (r c : Nat) (s : St) (h : St.make l r c = .ok s) :
    s.WF ∧ s.layout = l ∧ s.nrows = r ∧ s.ncols = c := by
  unfold St.make at h
  split at h
  · cases h
  · next hc =>
    injection h with h
    subst h
    simp only [Bool.and_eq_true, bne_iff_ne, ne_eq, not_and, Decidable.not_not] at hc
    refine ⟨hc, rfl, rfl, ?_⟩
    unfold St.ncols
    split
    · next hq => exact hc hq
    · rfl

/-- The constructors succeed for every shape of the non-square layouts and every square shape. -/
theorem make_ok (l : Layout) (r c : Nat) (h : St.square l = true → r = c) :
    St.make l r c = .ok ⟨l, r, c⟩ := by
  unfold St.make
  split
  · next hc => simp at hc; exact absurd (h hc.1) hc.2
  · rfl

/-- C02: the slices tile the buffer: the first starts at 0, each next one starts where the previous
one ends, the last one ends at `num_elements()`, and all lengths are non-negative. -/
theorem slices_tile (s : St) (hw : s.WF) :
    s.slice 0 = 0 ∧
    (∀ i : Nat, i < s.numSlices → 0 ≤ s.sliceLen i ∧ s.slice (i + 1) = s.slice i + s.sliceLen i) ∧
    s.slice s.numSlices = s.numElements :=
  ⟨s.slice_zero, fun i hi => ⟨s.sliceLen_nonneg hi, s.slice_succ i⟩, (s.numElements_eq hw).symm⟩

/-- C02: in row-major layouts slice `i` is row `i`, starting at column 0; in column-major layouts
slice `j` is column `j`, starting at row `first_row_of_col(j)`. Element by element:
the offset computed from the slice is the one `operator()` uses, and it lies inside the slice. -/
theorem slice_elements (s : St) (hw : s.WF) (i j : Int) (h : s.HasElement i j) :
    if St.isRowMajor s.layout then
      s.index i j = s.slice i + j ∧ j < s.sliceLen i ∧ i < s.numSlices
    else
      s.index i j = s.slice j + (i - St.firstRowOfCol s.layout j) ∧
      0 ≤ i - St.firstRowOfCol s.layout j ∧
      i - St.firstRowOfCol s.layout j < s.sliceLen j ∧ j < s.numSlices := by
  obtain ⟨a, rfl⟩ := Int.eq_ofNat_of_zero_le h.1
  obtain ⟨b, rfl⟩ := Int.eq_ofNat_of_zero_le h.2.2.1
  have h1 := s.index_eq hw h
  have h2 := s.slc_lt hw h
  have h3 := s.pos_lt h
  obtain ⟨_, h5, _, h6, h7⟩ := h
  unfold Layout.lower at h7
  unfold St.slc St.pos St.isRowMajor St.firstRowOfCol at *
  cases hl : s.layout <;> simp only [hl] at h1 h2 h3 h7 ⊢ <;> simp at h1 h2 h3 h7 ⊢ <;> omega

/-- C02 hypotheses are met by a 3×7 column-wise dense matrix. -/
example : (⟨.columnWise, 3, 7⟩ : St).WF ∧ (⟨.columnWise, 3, 7⟩ : St).HasElement 2 6 ∧
    (⟨.columnWise, 3, 7⟩ : St).index 2 6 = 20 := by
  refine ⟨by simp [St.WF, St.square], ?_, rfl⟩
  simp [St.HasElement, IsElement, Layout.lower]

end Verif.Storage
