import Verif.Model.Cunningham
import Verif.Proof.Tri
import Verif.Proof.HarmonicNorm
/-
The recursion fills the work arrays with the normalised solid harmonics.
-/
namespace Verif
namespace Tri

/-- The row after the last one is the next column's diagonal. -/
theorem index_wrap (t : Tri) (j : Int) : t.st.index t.rows j = t.st.index (j + 1) (j + 1) := by
  unfold Tri.st Storage.St.index Storage.St.slice
  simp only
  obtain ⟨k, hk⟩ : ∃ k : Int, j * (j - 1) = 2 * k := by
    rcases Int.even_or_odd j with ⟨c, h⟩ | ⟨c, h⟩
    · exact ⟨c * (j - 1), by rw [h]; ring⟩
    · exact ⟨j * c, by rw [h]; ring⟩
  have e1 : (j + 1) * (j + 1 - 1) = 2 * (k + j) := by linear_combination hk
  rw [hk, e1, Int.mul_ediv_cancel_left _ (by norm_num), Int.mul_ediv_cancel_left _ (by norm_num)]
  ring

theorem upd_wrap (t : Tri) (j : Int) (v : ℝ) : t.upd t.rows j v = t.upd (j + 1) (j + 1) v := by
  unfold Tri.upd
  rw [index_wrap]

/-- A position in the buffer: an element, or the row after the last one of a column but the last. -/
def Reach (t : Tri) (i j : Int) : Prop := t.Has i j ∨ (i = t.rows ∧ 0 ≤ j ∧ j + 1 < t.rows)

theorem Reach.in {t : Tri} {i j : Int} (h : t.Reach i j) : t.In i j := by
  rcases h with h | ⟨rfl, h1, h2⟩
  · exact h.in
  · unfold Tri.In
    rw [index_wrap]
    exact Has.in (t := t) ⟨by omega, by omega, h2⟩

theorem get_reach {t : Tri} {i j : Int} (h : t.Reach i j) : t.get i j = .ok (t.val i j) := if_pos h.in

theorem set_reach {t : Tri} {i j : Int} (v : ℝ) (h : t.Reach i j) : t.set i j v = .ok (t.upd i j v) := if_pos h.in

/-- Writing at a position leaves the elements of the same and earlier columns alone. -/
theorem val_upd_before {t : Tri} {i j : Int} (v : ℝ) (h : t.Reach i j) {i' j' : Int} (h' : t.Has i' j') (hj : j' ≤ j) (e : ¬(i' = i ∧ j' = j)) :
    (t.upd i j v).val i' j' = t.val i' j' := by
  rcases h with h | ⟨rfl, h1, h2⟩
  · exact val_upd_other v h h' e
  · rw [upd_wrap]
    exact val_upd_other v ⟨by omega, by omega, h2⟩ h' (by omega)

end Tri

namespace Cunningham
open Verif Verif.Legendre Verif.Harmonic

theorem f1_ok (m k : ℕ) (h : m + k < 200) : f1 (m + (k + 1) : Int) m = .ok (Real.sqrt (((2 * (m + k) + 1) * (2 * (m + k) + 3)) / ((k + 1) * (2 * m + k + 1)))) := by
  unfold f1
  rw [if_pos ⟨by omega, by omega, by omega⟩, if_neg (by omega)]
  push_cast
  congr 2
  rw [show ((m : ℝ) + (k + 1) + m) = 2 * m + k + 1 from by ring, show ((m : ℝ) + (k + 1) - m) = k + 1 from by ring]
  have : (0 : ℝ) < k + 1 := by positivity
  have : (0 : ℝ) < 2 * m + k + 1 := by positivity
  field_simp
  ring

theorem f1_diag (m : ℕ) (h : m < 200) : f1 ((m : Int) + 1) (m + 1) = .ok (if m = 0 then Real.sqrt 3 else Real.sqrt ((2 * m + 3) / (2 * m + 2))) := by
  unfold f1
  rw [if_pos ⟨by omega, by omega, by omega⟩, if_pos rfl, if_neg (by omega)]
  by_cases h0 : m = 0
  · subst h0; simp
  · rw [if_neg (by omega), if_neg h0]
    push_cast
    congr 3
    · ring
    · ring

theorem f2_ok (m k : ℕ) (h : m + k < 199) : f2 (m + (k + 2) : Int) m =
    .ok (-Real.sqrt (((2 * (m + k) + 5) * (2 * m + k + 1) * (k + 1)) / ((k + 2) * (2 * m + k + 2) * (2 * (m + k) + 1)))) := by
  unfold f2
  rw [if_pos ⟨by omega, by omega, by omega⟩, if_neg (by omega)]
  push_cast
  congr 3
  rw [show ((m : ℝ) + (k + 2) + m) = 2 * m + k + 2 from by ring, show ((m : ℝ) + (k + 2) - m) = k + 2 from by ring, show ((m : ℝ) + (k + 2)) = m + k + 2 from by ring,
    show 2 * ((m : ℝ) + k + 2) - 3 = 2 * (m + k) + 1 from by ring]
  have : (0 : ℝ) < k + 2 := by positivity
  have : (0 : ℝ) < 2 * m + k + 2 := by positivity
  have : (0 : ℝ) < 2 * (m + k) + 1 := by positivity
  field_simp
  ring

/-- Values of a column: a multiple of ρ^n Q. -/
noncomputable def colv (κ s ρ : ℝ) (n m : ℕ) : ℝ := κ * (ρ ^ n * Q n m s)

theorem colv_sub (κ s ρ : ℝ) (m : ℕ) : Real.sqrt (((2 * (m + 0) + 1) * (2 * (m + 0) + 3)) / ((0 + 1) * (2 * m + 0 + 1))) * (s * ρ) * colv κ s ρ m m = colv κ s ρ (m + 1) m := by
  unfold colv
  rw [Q_subdiag, pow_succ, add_zero, add_zero, zero_add, one_mul]
  ring

theorem colv_step (κ s ρ : ℝ) (m k : ℕ) :
    Real.sqrt (((2 * (m + (k + 1)) + 1) * (2 * (m + (k + 1)) + 3)) / ((k + 1 + 1) * (2 * m + (k + 1) + 1))) * (s * ρ) * colv κ s ρ (m + (k + 1)) m +
    -Real.sqrt (((2 * (m + k) + 5) * (2 * m + k + 1) * (k + 1)) / ((k + 2) * (2 * m + k + 2) * (2 * (m + k) + 1))) * ρ ^ 2 * colv κ s ρ (m + k) m = colv κ s ρ (m + (k + 2)) m := by
  unfold colv
  rw [Q_three, show m + (k + 2) = m + k + 1 + 1 from by ring, show m + (k + 1) = m + k + 1 from by ring, pow_succ, pow_succ]
  rw [show ((2 * (m + (k + 1)) + 1 : ℝ)) = 2 * (m + k) + 3 from by ring,
    show ((2 * (m + (k + 1)) + 3 : ℝ)) = 2 * (m + k) + 5 from by ring, show (k + 1 + 1 : ℝ) = k + 2 from by ring,
    show (2 * m + (k + 1) + 1 : ℝ) = 2 * m + k + 2 from by ring]
  ring

/-- One step down a column. -/
theorem column_step (κ s ρ : ℝ) (deg m k : ℕ) (A : Tri) (hk : m + k < 199) (hR : A.Reach (m + (k + 2)) m) (h1 : A.Has (m + (k + 1)) m)
    (v1 : A.val (m + (k + 1)) m = colv κ s ρ (m + (k + 1)) m) (v2 : A.val (m + k) m = colv κ s ρ (m + k) m) :
    column (s * ρ) (ρ ^ 2) deg m (m + (k + 2)) A = .ok (A.upd (m + (k + 2)) m (colv κ s ρ (m + (k + 2)) m)) := by
  have a := f1_ok m (k + 1) (by omega)
  have b := f2_ok m k hk
  push_cast at a
  rw [show (m : Int) + (k + 1 + 1) = m + (k + 2) from by ring] at a
  have h2 : A.Has (m + k) m := ⟨h1.1, by omega, by have := h1.2.2; omega⟩
  unfold column
  rw [Tri.bind_of a, show (m : Int) + (k + 2) - 1 = m + (k + 1) from by ring, Tri.get_bind h1, Tri.bind_of b, show (m : Int) + (k + 2) - 2 = m + k from by ring, Tri.get_bind h2,
    v1, v2, colv_step, Tri.set_reach _ hR]

/-- Column contents up to a row. -/
def Col (κ s ρ : ℝ) (m : ℕ) (b : Int) (A : Tri) : Prop := ∀ n : ℕ, m ≤ n → (n : Int) < b → n < A.rows → A.val n m = colv κ s ρ n m

/-- What else is unchanged. -/
def Frame (deg m : ℕ) (A A' : Tri) : Prop := A'.rows = A.rows ∧ (∀ i j, A.Has i j → j < m → A'.val i j = A.val i j) ∧
  (deg + 2 < A.rows → ∀ i j, A.Has i j → j ≠ m → A'.val i j = A.val i j)

theorem Frame.trans {deg m : ℕ} {A B C : Tri} (h : Frame deg m A B) (h' : Frame deg m B C) : Frame deg m A C := by
  obtain ⟨r, a, b⟩ := h
  obtain ⟨r', a', b'⟩ := h'
  have hh : ∀ {i j}, A.Has i j → B.Has i j := fun h => ⟨h.1, h.2.1, by rw [r]; exact h.2.2⟩
  exact ⟨r'.trans r, fun i j h hj => (a' i j (hh h) hj).trans (a i j h hj), fun hd i j h hj => (b' (by rw [r]; exact hd) i j (hh h) hj).trans (b hd i j h hj)⟩

theorem frame_upd {deg m : ℕ} {A : Tri} {i : Int} (v : ℝ) (hR : A.Reach i m) (hi : i ≤ deg + 2) : Frame deg m A (A.upd i m v) := by
  refine ⟨rfl, fun i' j' h hj => Tri.val_upd_before v hR h (by omega) (by omega), fun hd i' j' h hj => ?_⟩
  rcases hR with hR | ⟨rfl, _⟩
  · exact Tri.val_upd_other v hR h (fun e => hj e.2)
  · omega

theorem col_upd {κ s ρ : ℝ} {m n : ℕ} {A : Tri} (hR : A.Reach n m) (h : Col κ s ρ m n A) (hmn : m ≤ n) : Col κ s ρ m (n + 1) (A.upd n m (colv κ s ρ n m)) := by
  intro n' a b c
  rw [Tri.upd_rows] at c
  by_cases e : n' = n
  · subst e
    rcases hR with hR | ⟨hR, _⟩
    · exact Tri.val_upd_same _ hR
    · omega
  · rw [Tri.val_upd_before _ hR ⟨by omega, by omega, by omega⟩ (by omega) (by omega)]
    exact h n' a (by omega) c

/-- The loop down a column of both arrays. -/
theorem columns_spec (κ κ' s ρ : ℝ) (deg m : ℕ) (S : Tri × Tri) (hd : deg ≤ 198) (hm : m ≤ deg + 1)
    (h1 : deg + 2 ≤ S.1.rows) (h1' : m + 1 < S.1.rows) (h2 : deg + 2 ≤ S.2.rows) (h2' : m + 1 < S.2.rows)
    (c1 : Col κ s ρ m (m + 2) S.1) (c2 : Col κ' s ρ m (m + 2) S.2) :
    ∃ S', forEach (irange (m + 2) (deg + 2)) (fun n S => (column (s * ρ) (ρ ^ 2) deg m n S.1).bind fun M => (column (s * ρ) (ρ ^ 2) deg m n S.2).bind fun W => .ok (M, W)) S = .ok S' ∧
      Frame deg m S.1 S'.1 ∧ Frame deg m S.2 S'.2 ∧ Col κ s ρ m (deg + 3) S'.1 ∧ Col κ' s ρ m (deg + 3) S'.2 := by
  obtain ⟨S', e, f1, f2, g1, g2⟩ := loop_range (f := fun n S => (column (s * ρ) (ρ ^ 2) deg m n S.1).bind fun M => (column (s * ρ) (ρ ^ 2) deg m n S.2).bind fun W => .ok (M, W))
    (fun i S' => Frame deg m S.1 S'.1 ∧ Frame deg m S.2 S'.2 ∧ Col κ s ρ m i S'.1 ∧ Col κ' s ρ m i S'.2) (a := (m : Int) + 2) (b := (deg : Int) + 2) (s := S) (by omega)
    ⟨⟨rfl, fun _ _ _ _ => rfl, fun _ _ _ _ _ => rfl⟩, ⟨rfl, fun _ _ _ _ => rfl, fun _ _ _ _ _ => rfl⟩, c1, c2⟩ (by
      intro i T hi hi' ⟨f1, f2, g1, g2⟩
      obtain ⟨k, rfl⟩ : ∃ k : ℕ, i = m + (k + 2) := ⟨(i - m - 2).toNat, by omega⟩
      have reach : ∀ {A : Tri} {B : Tri}, Frame deg m B A → deg + 2 ≤ B.rows → m + 1 < B.rows → A.Reach (m + (k + 2)) m ∧ A.Has (m + (k + 1)) m := by
        intro A B f a b
        have := f.1
        refine ⟨?_, by omega, by omega, by omega⟩
        by_cases hh : (m : Int) + (k + 2) < A.rows
        · exact Or.inl ⟨by omega, by omega, hh⟩
        · exact Or.inr ⟨by omega, by omega, by omega⟩
      have vals : ∀ {A : Tri} {κ : ℝ}, A.Has (m + (k + 1)) m → Col κ s ρ m (m + (k + 2)) A → A.val (m + (k + 1)) m = colv κ s ρ (m + (k + 1)) m ∧ A.val (m + k) m = colv κ s ρ (m + k) m := by
        intro A κ hh g
        have e1 := g (m + (k + 1)) (by omega) (by push_cast; omega) (by have := hh.2.2; omega)
        have e2 := g (m + k) (by omega) (by push_cast; omega) (by have := hh.2.2; omega)
        push_cast at e1 e2
        exact ⟨e1, e2⟩
      obtain ⟨r1, a1⟩ := reach f1 h1 h1'
      obtain ⟨r2, a2⟩ := reach f2 h2 h2'
      rw [Tri.bind_of (column_step κ s ρ deg m k T.1 (by omega) r1 a1 (vals a1 g1).1 (vals a1 g1).2),
        Tri.bind_of (column_step κ' s ρ deg m k T.2 (by omega) r2 a2 (vals a2 g2).1 (vals a2 g2).2)]
      refine ⟨_, rfl, f1.trans (frame_upd _ r1 hi'), f2.trans (frame_upd _ r2 hi'), ?_, ?_⟩
      · have := col_upd (κ := κ) (s := s) (ρ := ρ) (m := m) (n := m + (k + 2)) (A := T.1) (by push_cast; exact r1) (by push_cast; exact g1) (by omega)
        push_cast at this
        exact this
      · have := col_upd (κ := κ') (s := s) (ρ := ρ) (m := m) (n := m + (k + 2)) (A := T.2) (by push_cast; exact r2) (by push_cast; exact g2) (by omega)
        push_cast at this
        exact this)
  exact ⟨S', e, f1, f2, by rw [show (deg : Int) + 3 = deg + 2 + 1 from by ring]; exact g1, by rw [show (deg : Int) + 3 = deg + 2 + 1 from by ring]; exact g2⟩

/-- The loop down the column of order zero. -/
theorem column0_spec (κ s ρ : ℝ) (deg : ℕ) (A : Tri) (hd : deg ≤ 198) (h1 : deg + 2 ≤ A.rows) (c1 : Col κ s ρ 0 2 A) :
    ∃ A', forEach (irange 2 (deg + 2)) (column (s * ρ) (ρ ^ 2) deg 0) A = .ok A' ∧ Frame deg 0 A A' ∧ Col κ s ρ 0 (deg + 3) A' := by
  obtain ⟨A', e, f1, g1⟩ := loop_range (f := column (s * ρ) (ρ ^ 2) deg 0)
    (fun i A' => Frame deg 0 A A' ∧ Col κ s ρ 0 i A') (a := 2) (b := (deg : Int) + 2) (s := A) (by omega)
    ⟨⟨rfl, fun _ _ _ _ => rfl, fun _ _ _ _ _ => rfl⟩, c1⟩ (by
      intro i T hi hi' ⟨f1, g1⟩
      obtain ⟨k, rfl⟩ : ∃ k : ℕ, i = (0 : ℕ) + (k + 2) := ⟨(i - 2).toNat, by omega⟩
      have hr := f1.1
      have a1 : T.Has (((0 : ℕ) : Int) + (k + 1)) (0 : ℕ) := ⟨by omega, by omega, by omega⟩
      have r1 : T.Reach (((0 : ℕ) : Int) + (k + 2)) (0 : ℕ) := by
        by_cases hh : ((0 : ℕ) : Int) + (k + 2) < T.rows
        · exact Or.inl ⟨by omega, by omega, hh⟩
        · exact Or.inr ⟨by omega, by omega, by omega⟩
      have e1 := g1 (0 + (k + 1)) (by omega) (by push_cast; omega) (by have := a1.2.2; omega)
      have e2 := g1 (0 + k) (by omega) (by push_cast; omega) (by have := a1.2.2; omega)
      push_cast at e1 e2
      have := column_step κ s ρ deg 0 k T (by omega) r1 a1 (by push_cast; exact e1) (by push_cast; exact e2)
      refine ⟨_, this, f1.trans (frame_upd _ r1 hi'), ?_⟩
      have := col_upd (κ := κ) (s := s) (ρ := ρ) (m := 0) (n := 0 + (k + 2)) (A := T) (by push_cast; exact r1) (by push_cast; exact g1) (by omega)
      push_cast at this
      exact this)
  exact ⟨A', e, f1, by rw [show (deg : Int) + 3 = deg + 2 + 1 from by ring]; exact g1⟩

/-- The multiples, real and imaginary part. -/
noncomputable def κr (w : V3) (m : ℕ) : ℝ := (hor w ^ m).re * (1 / w.norm) ^ (m + 1)
noncomputable def κi (w : V3) (m : ℕ) : ℝ := (hor w ^ m).im * (1 / w.norm) ^ (m + 1)

theorem Z_re (w : V3) (n m : ℕ) : (Z n m w).re = colv (κr w m) (w.z / w.norm) (1 / w.norm) n m := by
  unfold Z V colv κr Q
  rw [← mul_assoc, mul_comm, ← mul_assoc, ← Complex.ofReal_mul, Complex.re_ofReal_mul]
  rw [show n + m + 1 = n + (m + 1) from by ring, pow_add]
  ring

theorem Z_im (w : V3) (n m : ℕ) : (Z n m w).im = colv (κi w m) (w.z / w.norm) (1 / w.norm) n m := by
  unfold Z V colv κi Q
  rw [← mul_assoc, mul_comm, ← mul_assoc, ← Complex.ofReal_mul, Complex.im_ofReal_mul]
  rw [show n + m + 1 = n + (m + 1) from by ring, pow_add]
  ring

/-- The factor of the diagonal. -/
noncomputable def fd (m : ℕ) : ℝ := if m = 0 then Real.sqrt 3 else Real.sqrt ((2 * m + 3) / (2 * m + 2))

theorem Q_diag' (m : ℕ) (t : ℝ) : Q (m + 1) (m + 1) t = fd m * Q m m t := by
  unfold fd
  by_cases h : m = 0
  · subst h
    rw [if_pos rfl, Q_00, zero_add, Q_11, mul_one]
  · rw [if_neg h, Q_diag m (by omega)]

theorem diag_re (w : V3) (m : ℕ) : fd m * (w.x * (1 / w.norm) ^ 2 * colv (κr w m) (w.z / w.norm) (1 / w.norm) m m - w.y * (1 / w.norm) ^ 2 * colv (κi w m) (w.z / w.norm) (1 / w.norm) m m) =
    colv (κr w (m + 1)) (w.z / w.norm) (1 / w.norm) (m + 1) (m + 1) := by
  unfold colv κr κi
  rw [Q_diag', pow_succ (hor w), Complex.mul_re, pow_succ _ (m + 1)]
  show _ = ((hor w ^ m).re * w.x - (hor w ^ m).im * w.y) * _ * _
  ring

theorem diag_im (w : V3) (m : ℕ) : fd m * (w.y * (1 / w.norm) ^ 2 * colv (κr w m) (w.z / w.norm) (1 / w.norm) m m + w.x * (1 / w.norm) ^ 2 * colv (κi w m) (w.z / w.norm) (1 / w.norm) m m) =
    colv (κi w (m + 1)) (w.z / w.norm) (1 / w.norm) (m + 1) (m + 1) := by
  unfold colv κr κi
  rw [Q_diag', pow_succ (hor w), Complex.mul_im, pow_succ _ (m + 1)]
  show _ = ((hor w ^ m).re * w.y + (hor w ^ m).im * w.x) * _ * _
  ring

/-- Column contents of both arrays. -/
def Cols (w : V3) (m : ℕ) (b : Int) (S : Tri × Tri) : Prop :=
  Col (κr w m) (w.z / w.norm) (1 / w.norm) m b S.1 ∧ Col (κi w m) (w.z / w.norm) (1 / w.norm) m b S.2

theorem diag_spec (w : V3) (m : ℕ) (hm : m < 200) (S : Tri × Tri) (r1 : m + 1 < S.1.rows) (r2 : m + 1 < S.2.rows) (h : Cols w m (m + 1) S) :
    diag (w.x * (1 / w.norm) ^ 2) (w.y * (1 / w.norm) ^ 2) (m + 1) S =
      .ok (S.1.upd (m + 1) (m + 1) (colv (κr w (m + 1)) (w.z / w.norm) (1 / w.norm) (m + 1) (m + 1)), S.2.upd (m + 1) (m + 1) (colv (κi w (m + 1)) (w.z / w.norm) (1 / w.norm) (m + 1) (m + 1))) := by
  have h1 := h.1 m (le_refl m) (by omega) (by omega)
  have h2 := h.2 m (le_refl m) (by omega) (by omega)
  have k1 : S.1.Has m m := ⟨by omega, by omega, by omega⟩
  have k2 : S.2.Has m m := ⟨by omega, by omega, by omega⟩
  have l1 : S.1.Has (m + 1) (m + 1) := ⟨by omega, by omega, by omega⟩
  have l2 : S.2.Has (m + 1) (m + 1) := ⟨by omega, by omega, by omega⟩
  unfold diag
  rw [Tri.bind_of (f1_diag m hm), show (m : Int) + 1 - 1 = m from by ring, Tri.get_bind k1, Tri.get_bind k2, Tri.set_bind l1]
  rw [show (if m = 0 then Real.sqrt 3 else Real.sqrt ((2 * (m : ℝ) + 3) / (2 * m + 2))) = fd m from rfl, h1, h2, diag_re]
  have k1' : (S.1.upd (m + 1) (m + 1) (colv (κr w (m + 1)) (w.z / w.norm) (1 / w.norm) (m + 1) (m + 1))).Has m m := k1
  rw [Tri.get_bind k1', Tri.set_bind l2, Tri.val_upd_other _ l1 k1 (by omega), h1, diag_im]

/-- One order. -/
theorem order_spec (w : V3) (deg m : ℕ) (hd : deg ≤ 198) (hm : m ≤ deg) (S : Tri × Tri) (a1 : deg + 2 ≤ S.1.rows) (r1 : m + 2 < S.1.rows) (a2 : deg + 2 ≤ S.2.rows) (r2 : m + 2 < S.2.rows)
    (h : Cols w m (m + 1) S) :
    ∃ S', order (w.x * (1 / w.norm) ^ 2) (w.y * (1 / w.norm) ^ 2) (w.z / w.norm * (1 / w.norm)) ((1 / w.norm) ^ 2) deg (m + 1) S = .ok S' ∧
      Frame deg (m + 1) S.1 S'.1 ∧ Frame deg (m + 1) S.2 S'.2 ∧ Cols w (m + 1) (deg + 3) S' := by
  unfold order
  rw [Tri.bind_of (diag_spec w m (by omega) S (by omega) (by omega) h)]
  have l1 : S.1.Has (m + 1) (m + 1) := ⟨by omega, by omega, by omega⟩
  have l2 : S.2.Has (m + 1) (m + 1) := ⟨by omega, by omega, by omega⟩
  have f := f1_ok (m + 1) 0 (by omega)
  push_cast at f
  set κ := κr w (m + 1) with hκ
  set κ' := κi w (m + 1) with hκ'
  set s := w.z / w.norm with hs
  set ρ := 1 / w.norm with hρ
  set M1 := S.1.upd (m + 1) (m + 1) (colv κ s ρ (m + 1) (m + 1)) with hM1
  set W1 := S.2.upd (m + 1) (m + 1) (colv κ' s ρ (m + 1) (m + 1)) with hW1
  have k1 : M1.Has (m + 1) (m + 1) := l1
  have k2 : W1.Has (m + 1) (m + 1) := l2
  have n1 : M1.Has (m + 1 + 1) (m + 1) := ⟨by omega, by omega, by show _ < (S.1.rows : Int); omega⟩
  have n2 : W1.Has (m + 1 + 1) (m + 1) := ⟨by omega, by omega, by show _ < (S.2.rows : Int); omega⟩
  have c1 : Col κ s ρ (m + 1) ((m + 1 : ℕ) + 1) M1 := by
    have := col_upd (κ := κ) (s := s) (ρ := ρ) (m := m + 1) (n := m + 1) (A := S.1) (Or.inl (by push_cast; exact l1)) (fun n a b => by omega) (le_refl _)
    push_cast at this ⊢
    exact this
  have c2 : Col κ' s ρ (m + 1) ((m + 1 : ℕ) + 1) W1 := by
    have := col_upd (κ := κ') (s := s) (ρ := ρ) (m := m + 1) (n := m + 1) (A := S.2) (Or.inl (by push_cast; exact l2)) (fun n a b => by omega) (le_refl _)
    push_cast at this ⊢
    exact this
  dsimp only
  rw [Tri.bind_of f, Tri.get_bind k1, Tri.set_bind n1, Tri.get_bind k2, Tri.set_bind n2]
  have v1 : M1.val (m + 1) (m + 1) = colv κ s ρ (m + 1) (m + 1) := Tri.val_upd_same _ l1
  have v2 : W1.val (m + 1) (m + 1) = colv κ' s ρ (m + 1) (m + 1) := Tri.val_upd_same _ l2
  have s1 := colv_sub κ s ρ (m + 1)
  have s2 := colv_sub κ' s ρ (m + 1)
  push_cast at s1 s2
  rw [v1, v2, s1, s2]
  set M2 := M1.upd (m + 1 + 1) (m + 1) (colv κ s ρ (m + 1 + 1) (m + 1)) with hM2
  set W2 := W1.upd (m + 1 + 1) (m + 1) (colv κ' s ρ (m + 1 + 1) (m + 1)) with hW2
  have d1 : Col κ s ρ (m + 1) ((m + 1 : ℕ) + 2) M2 := by
    have := col_upd (κ := κ) (s := s) (ρ := ρ) (m := m + 1) (n := m + 1 + 1) (A := M1) (Or.inl (by push_cast; exact n1)) (by push_cast at c1 ⊢; exact c1) (by omega)
    push_cast at this ⊢
    rw [show (m : Int) + 1 + 2 = m + 1 + 1 + 1 from by ring]
    exact this
  have d2 : Col κ' s ρ (m + 1) ((m + 1 : ℕ) + 2) W2 := by
    have := col_upd (κ := κ') (s := s) (ρ := ρ) (m := m + 1) (n := m + 1 + 1) (A := W1) (Or.inl (by push_cast; exact n2)) (by push_cast at c2 ⊢; exact c2) (by omega)
    push_cast at this ⊢
    rw [show (m : Int) + 1 + 2 = m + 1 + 1 + 1 from by ring]
    exact this
  obtain ⟨S', e, f1, f2, g1, g2⟩ := columns_spec κ κ' s ρ deg (m + 1) (M2, W2) hd (by omega) a1 r1 a2 r2 d1 d2
  push_cast at e
  refine ⟨S', e, ?_, ?_, g1, g2⟩
  · have q1 : Frame deg (m + 1) S.1 M1 := by
      have := frame_upd (deg := deg) (m := m + 1) (A := S.1) (i := m + 1) (colv κ s ρ (m + 1) (m + 1)) (Or.inl (by push_cast; exact l1)) (by omega)
      push_cast at this
      exact this
    have q2 : Frame deg (m + 1) M1 M2 := by
      have := frame_upd (deg := deg) (m := m + 1) (A := M1) (i := m + 1 + 1) (colv κ s ρ (m + 1 + 1) (m + 1)) (Or.inl (by push_cast; exact n1)) (by omega)
      push_cast at this
      exact this
    exact (q1.trans q2).trans f1
  · have q1 : Frame deg (m + 1) S.2 W1 := by
      have := frame_upd (deg := deg) (m := m + 1) (A := S.2) (i := m + 1) (colv κ' s ρ (m + 1) (m + 1)) (Or.inl (by push_cast; exact l2)) (by omega)
      push_cast at this
      exact this
    have q2 : Frame deg (m + 1) W1 W2 := by
      have := frame_upd (deg := deg) (m := m + 1) (A := W1) (i := m + 1 + 1) (colv κ' s ρ (m + 1 + 1) (m + 1)) (Or.inl (by push_cast; exact n2)) (by omega)
      push_cast at this
      exact this
    exact (q1.trans q2).trans f2

theorem κr_zero (w : V3) : κr w 0 = 1 / w.norm := by unfold κr; simp
theorem κi_zero (w : V3) : κi w 0 = 0 := by unfold κi; simp

/-- The columns before a loop variable are filled; the others are zero if the rows are enough. -/
structure Filled (w : V3) (deg : ℕ) (i : Int) (S0 S : Tri × Tri) : Prop where
  r1 : S.1.rows = S0.1.rows
  r2 : S.2.rows = S0.2.rows
  cols : ∀ m : ℕ, (m : Int) < i → Cols w m (deg + 3) S
  z1 : deg + 2 < S.1.rows → ∀ a b, S.1.Has a b → i ≤ b → S.1.val a b = 0
  z2 : deg + 2 < S.2.rows → ∀ a b, S.2.Has a b → i ≤ b → S.2.val a b = 0

/-- The first orders of the recursion. -/
theorem orders_spec (w : V3) (deg : ℕ) (hd : deg ≤ 198) (top : Int) (S0 : Tri × Tri) (S : Tri × Tri) (a1 : deg + 2 ≤ S.1.rows) (r1 : top + 1 < S.1.rows) (a2 : deg + 2 ≤ S.2.rows) (r2 : top + 1 < S.2.rows)
    (ht : top ≤ deg + 1) (ht' : 0 ≤ top) (h : Filled w deg 1 S0 S) :
    ∃ S', forEach (irange 1 top) (order (w.x * (1 / w.norm) ^ 2) (w.y * (1 / w.norm) ^ 2) (w.z / w.norm * (1 / w.norm)) ((1 / w.norm) ^ 2) deg) S = .ok S' ∧ Filled w deg (top + 1) S0 S' := by
  have hr1 := h.r1
  have hr2 := h.r2
  obtain ⟨S', e, I⟩ := loop_range (f := order (w.x * (1 / w.norm) ^ 2) (w.y * (1 / w.norm) ^ 2) (w.z / w.norm * (1 / w.norm)) ((1 / w.norm) ^ 2) deg)
    (fun i S' => Filled w deg i S0 S') (a := 1) (b := top) (s := S) (by omega) h (by
      intro i T hi hi' I
      obtain ⟨m, rfl⟩ : ∃ m : ℕ, i = m + 1 := ⟨(i - 1).toNat, by omega⟩
      have q1 := I.r1
      have q2 := I.r2
      have cm := I.cols m (by omega)
      have cm' : Cols w m (m + 1) T := ⟨fun n a b c => cm.1 n a (by omega) c, fun n a b c => cm.2 n a (by omega) c⟩
      obtain ⟨S', e, f1, f2, g⟩ := order_spec w deg m hd (by omega) T (by omega) (by omega) (by omega) (by omega) cm'
      refine ⟨S', e, f1.1.trans q1, f2.1.trans q2, ?_, ?_, ?_⟩
      · intro m' hm'
        by_cases em : m' = m + 1
        · subst em; exact g
        · have c := I.cols m' (by omega)
          constructor
          · intro n a b cc
            have hh : n < T.1.rows := by rw [← f1.1]; exact cc
            rw [f1.2.1 n m' ⟨by omega, by omega, by omega⟩ (by push_cast; omega)]
            exact c.1 n a b hh
          · intro n a b cc
            have hh : n < T.2.rows := by rw [← f2.1]; exact cc
            rw [f2.2.1 n m' ⟨by omega, by omega, by omega⟩ (by push_cast; omega)]
            exact c.2 n a b hh
      · intro hh a b hab hb
        have hab' : T.1.Has a b := ⟨hab.1, hab.2.1, by rw [← f1.1]; exact hab.2.2⟩
        rw [f1.2.2 (by rw [← f1.1]; exact hh) a b hab' (by push_cast; omega)]
        exact I.z1 (by rw [← f1.1]; exact hh) a b hab' (by omega)
      · intro hh a b hab hb
        have hab' : T.2.Has a b := ⟨hab.1, hab.2.1, by rw [← f2.1]; exact hab.2.2⟩
        rw [f2.2.2 (by rw [← f2.1]; exact hh) a b hab' (by push_cast; omega)]
        exact I.z2 (by rw [← f2.1]; exact hh) a b hab' (by omega))
  exact ⟨S', e, I⟩

/-- The position divided by the radius. -/
noncomputable def scaled (r : V3) (Re : ℝ) : V3 := ⟨r.x / Re, r.y / Re, r.z / Re⟩

/-- The start of the recursion: the column of order zero. -/
theorem start_spec (w : V3) (deg : ℕ) (hd : deg ≤ 198) (S0 : Tri × Tri) (a1 : deg + 2 ≤ S0.1.rows) (a2 : deg + 2 ≤ S0.2.rows) :
    ∃ M0 M1, (S0.1.fill 0).set 0 0 (1 / w.norm) = .ok M0 ∧ M0.Has 0 0 ∧ M0.set 1 0 (Real.sqrt 3 * (w.z * (1 / w.norm) ^ 2) * M0.val 0 0) = .ok M1 ∧
    ∃ M2, forEach (irange 2 (deg + 2)) (column (w.z * (1 / w.norm) ^ 2) ((1 / w.norm) ^ 2) deg 0) M1 = .ok M2 ∧ Filled w deg 1 S0 (M2, S0.2.fill 0) := by
  have k0 : (S0.1.fill 0).Has 0 0 := ⟨by omega, by omega, by show (0 : Int) < S0.1.rows; omega⟩
  have k1 : ((S0.1.fill 0).upd 0 0 (1 / w.norm)).Has 1 0 := ⟨by omega, by omega, by show (1 : Int) < S0.1.rows; omega⟩
  refine ⟨_, _, Tri.set_ok _ k0, k0, Tri.set_ok _ k1, ?_⟩
  rw [Tri.val_upd_same _ k0]
  have hz : w.z * (1 / w.norm) ^ 2 = w.z / w.norm * (1 / w.norm) := by ring
  rw [hz]
  set s := w.z / w.norm with hs
  set ρ := 1 / w.norm with hρ
  have v0 : colv (κr w 0) s ρ 0 0 = ρ := by rw [κr_zero]; unfold colv; rw [Q_00]; simp [hρ]
  have v1 : Real.sqrt 3 * (s * ρ) * ρ = colv (κr w 0) s ρ (0 + 1) 0 := by
    rw [κr_zero]; unfold colv
    have := Q_subdiag 0 s
    norm_num [Q_00] at this
    rw [zero_add, this]
    ring
  have c0 : Col (κr w 0) s ρ 0 ((0 : ℕ) + 1) ((S0.1.fill 0).upd ((0 : ℕ) : Int) ((0 : ℕ) : Int) (colv (κr w 0) s ρ 0 0)) :=
    col_upd (A := S0.1.fill 0) (Or.inl k0) (fun n a b => by omega) (le_refl _)
  rw [v0] at c0
  have c1 : Col (κr w 0) s ρ 0 ((0 + 1 : ℕ) + 1) (((S0.1.fill 0).upd ((0 : ℕ) : Int) ((0 : ℕ) : Int) ρ).upd ((0 + 1 : ℕ) : Int) ((0 : ℕ) : Int) (colv (κr w 0) s ρ (0 + 1) 0)) :=
    col_upd (Or.inl k1) (by push_cast at c0 ⊢; exact c0) (by omega)
  rw [← v1] at c1
  obtain ⟨M2, e, f, g⟩ := column0_spec (κr w 0) s ρ deg (((S0.1.fill 0).upd 0 0 ρ).upd 1 0 (Real.sqrt 3 * (s * ρ) * ρ)) hd (by exact a1) (by push_cast at c1 ⊢; exact c1)
  push_cast at e
  refine ⟨M2, e, f.1, rfl, ?_, ?_, fun _ _ _ _ _ => rfl⟩
  · intro m hm
    have : m = 0 := by omega
    subst this
    refine ⟨g, fun n a b c => ?_⟩
    rw [κi_zero]
    unfold colv
    rw [zero_mul]
    rfl
  · intro hh a b hab hb
    have hr := f.1
    have hab' : (S0.1.fill 0).Has a b := ⟨hab.1, hab.2.1, by have := hab.2.2; rw [hr] at this; exact this⟩
    rw [f.2.2 (by rw [← hr]; exact hh) a b hab' (by push_cast; omega)]
    push_cast
    rw [Tri.val_upd_other _ k1 hab' (by omega), Tri.val_upd_other _ k0 hab' (by omega)]
    rfl

/-- The contents of the work arrays after the recursion. -/
structure Ready (w : V3) (deg ord : ℕ) (S0 S : Tri × Tri) : Prop where
  r1 : S.1.rows = S0.1.rows
  r2 : S.2.rows = S0.2.rows
  col1 : ∀ n m : ℕ, m ≤ n → n ≤ deg + 2 → n < S.1.rows → (m ≤ ord + 1 ∨ (m = ord + 2 ∧ n = m)) → S.1.val n m = (Z n m w).re
  col2 : ∀ n m : ℕ, m ≤ n → n ≤ deg + 2 → n < S.2.rows → (m ≤ ord + 1 ∨ (m = ord + 2 ∧ n = m)) → S.2.val n m = (Z n m w).im
  z1 : deg + 2 < S.1.rows → ∀ a b, S.1.Has a b → ord + 2 ≤ b → ¬(a = ord + 2 ∧ b = ord + 2) → S.1.val a b = 0
  z2 : deg + 2 < S.2.rows → ∀ a b, S.2.Has a b → ord + 2 ≤ b → ¬(a = ord + 2 ∧ b = ord + 2) → S.2.val a b = 0

theorem fill_spec (r : V3) (Re : ℝ) (deg ord : ℕ) (hd : deg ≤ 198) (ho : ord ≤ deg) (S0 : Tri × Tri) (a1 : deg + 2 ≤ S0.1.rows) (b1 : ord + 2 < S0.1.rows)
    (a2 : deg + 2 ≤ S0.2.rows) (b2 : ord + 2 < S0.2.rows) :
    ∃ S, fill r Re deg ord S0 = .ok S ∧ Ready (scaled r Re) deg ord S0 S := by
  obtain ⟨M0, M1, e1, k0, e2, M2, e3, F⟩ := start_spec (scaled r Re) deg hd S0 a1 a2
  unfold fill
  dsimp only
  rw [show (⟨r.x / Re, r.y / Re, r.z / Re⟩ : V3) = scaled r Re from rfl, show r.x / Re = (scaled r Re).x from rfl, show r.y / Re = (scaled r Re).y from rfl,
    show r.z / Re = (scaled r Re).z from rfl]
  rw [Tri.bind_of e1, Tri.get_bind k0, Tri.bind_of e2, Tri.bind_of e3]
  have q1 := F.r1
  have q2 := F.r2
  obtain ⟨S, e4, G⟩ := orders_spec (scaled r Re) deg hd (ord + 1) S0 (M2, S0.2.fill 0) (by omega) (by omega) (by omega) (by omega) (by omega) (by omega) F
  rw [show (scaled r Re).z * (1 / (scaled r Re).norm) ^ 2 = (scaled r Re).z / (scaled r Re).norm * (1 / (scaled r Re).norm) from by ring, Tri.bind_of e4]
  have p1 := G.r1
  have p2 := G.r2
  have c := G.cols (ord + 1) (by omega)
  have c' : Cols (scaled r Re) (ord + 1) ((ord + 1 : ℕ) + 1) S := ⟨fun n a b cc => c.1 n a (by omega) cc, fun n a b cc => c.2 n a (by omega) cc⟩
  have ds := diag_spec (scaled r Re) (ord + 1) (by omega) S (by omega) (by omega) c'
  rw [show ((ord + 1 : ℕ) : Int) + 1 = ord + 2 from by push_cast; ring] at ds
  refine ⟨_, ds, p1, p2, ?_, ?_, ?_, ?_⟩
  · intro n m a b cc dd
    rw [Tri.upd_rows] at cc
    have kk : S.1.Has ((ord : Int) + 2) (ord + 2) := ⟨by omega, by omega, by omega⟩
    by_cases e : n = ord + 2 ∧ m = ord + 2
    · obtain ⟨rfl, rfl⟩ := e
      push_cast
      rw [Tri.val_upd_same _ kk, Z_re]
    · dsimp only
      rw [Tri.val_upd_other _ kk ⟨by omega, by omega, by omega⟩ (by omega), Z_re]
      exact (G.cols m (by omega)).1 n a (by omega) cc
  · intro n m a b cc dd
    rw [Tri.upd_rows] at cc
    have kk : S.2.Has ((ord : Int) + 2) (ord + 2) := ⟨by omega, by omega, by omega⟩
    by_cases e : n = ord + 2 ∧ m = ord + 2
    · obtain ⟨rfl, rfl⟩ := e
      push_cast
      rw [Tri.val_upd_same _ kk, Z_im]
    · dsimp only
      rw [Tri.val_upd_other _ kk ⟨by omega, by omega, by omega⟩ (by omega), Z_im]
      exact (G.cols m (by omega)).2 n a (by omega) cc
  · intro hh a b hab hb hn
    have kk : S.1.Has ((ord : Int) + 2) (ord + 2) := ⟨by omega, by omega, by omega⟩
    dsimp only
    rw [Tri.val_upd_other _ kk hab hn]
    exact G.z1 hh a b hab (by omega)
  · intro hh a b hab hb hn
    have kk : S.2.Has ((ord : Int) + 2) (ord + 2) := ⟨by omega, by omega, by omega⟩
    dsimp only
    rw [Tri.val_upd_other _ kk hab hn]
    exact G.z2 hh a b hab (by omega)

end Cunningham
end Verif
