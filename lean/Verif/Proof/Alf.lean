import Verif.Model.Alf
import Verif.Proof.Tri
import Verif.Proof.LegendreNorm
/-
Columns of the recursion.
-/
namespace Verif.Alf
open Verif Verif.Legendre

theorem i32_ok {x : Int} (h0 : 0 ≤ x) (h : x ≤ 2147483647) : i32 x = .ok x := if_pos ⟨by omega, h⟩

theorem anm_ok (m k : ℕ) (h : m + k ≤ 2000) : anm (m + (k + 1) : Int) m = .ok (Real.sqrt (((2 * (m + k) + 1) * (2 * (m + k) + 3)) / ((k + 1) * (2 * m + k + 1)))) := by
  unfold anm
  rw [i32_ok (by apply mul_nonneg <;> omega), i32_ok (by apply mul_nonneg <;> omega)]
  · show Res.ok _ = _
    push_cast
    congr 3
    · ring
    · ring
  · have : ((m : Int) + (k + 1) - m) * (m + (k + 1) + m) ≤ 4003 * 4003 := by
      apply mul_le_mul <;> omega
    omega
  · have : (2 * ((m : Int) + (k + 1)) - 1) * (2 * (m + (k + 1)) + 1) ≤ 4003 * 4003 := by
      apply mul_le_mul <;> omega
    omega

theorem bnm_ok (m k : ℕ) (h : m + k ≤ 1022) : bnm (m + (k + 2) : Int) m =
    .ok (Real.sqrt (((2 * (m + k) + 5) * (2 * m + k + 1) * (k + 1)) / ((k + 2) * (2 * m + k + 2) * (2 * (m + k) + 1)))) := by
  have e1 : ((2 * ((m : Int) + (k + 2)) + 1) * (m + (k + 2) + m - 1)) * (m + (k + 2) - m - 1) = (2 * ((m : Int) + (k + 2)) + 1) * (((m : Int) + (k + 2) - 1) * (m + (k + 2) - 1) - m * m) := by ring
  have e2 : ((m : Int) + (k + 2) - m) * (m + (k + 2) + m) = (m + (k + 2)) * (m + (k + 2)) - m * m := by ring
  have hm : (0 : Int) ≤ (m : Int) * m := by positivity
  have a1 : ((m : Int) + (k + 2) - 1) * (m + (k + 2) - 1) ≤ 1023 * 1023 := by apply mul_le_mul <;> omega
  have a2 : ((m : Int) + (k + 2)) * (m + (k + 2)) ≤ 1024 * 1024 := by apply mul_le_mul <;> omega
  have b0 : 0 ≤ (2 * ((m : Int) + (k + 2)) + 1) * (m + (k + 2) + m - 1) := by apply mul_nonneg <;> omega
  have b1 : 0 ≤ ((2 * ((m : Int) + (k + 2)) + 1) * (m + (k + 2) + m - 1)) * (m + (k + 2) - m - 1) := mul_nonneg b0 (by omega)
  have b2 : 0 ≤ ((m : Int) + (k + 2) - m) * (m + (k + 2) + m) := by apply mul_nonneg <;> omega
  have b3 : 0 ≤ (((m : Int) + (k + 2) - m) * (m + (k + 2) + m)) * (2 * (m + (k + 2)) - 3) := mul_nonneg b2 (by omega)
  unfold bnm
  rw [i32_ok b0]
  · show Res.bind (i32 _) _ = _
    rw [i32_ok b1]
    · show Res.bind (i32 _) _ = _
      rw [i32_ok b2]
      · show Res.bind (i32 _) _ = _
        rw [i32_ok b3]
        · show Res.ok _ = _
          push_cast
          congr 3
          · ring
          · ring
        · have : (((m : Int) + (k + 2) - m) * (m + (k + 2) + m)) * (2 * (m + (k + 2)) - 3) ≤ (1024 * 1024) * 2045 := by
            apply mul_le_mul <;> omega
          omega
      · omega
    · rw [e1]
      have : (2 * ((m : Int) + (k + 2)) + 1) * (((m : Int) + (k + 2) - 1) * (m + (k + 2) - 1) - m * m) ≤ 2049 * (1023 * 1023) := by
        have hn : 0 ≤ ((m : Int) + (k + 2) - 1) * (m + (k + 2) - 1) - m * m := by
          have : ((m : Int) + (k + 2) - 1) * (m + (k + 2) - 1) - m * m = (2 * m + k + 1) * (k + 1) := by ring
          rw [this]; positivity
        apply mul_le_mul _ _ hn
        · omega
        · omega
        · omega
      omega
  · have : (2 * ((m : Int) + (k + 2)) + 1) * (m + (k + 2) + m - 1) ≤ 2049 * 2045 := by apply mul_le_mul <;> omega
    omega

/-- One column: it holds a multiple of the normalised functions if its first element does; other columns are unchanged. -/
theorem column_spec (t c : ℝ) (deg m : ℕ) (P : Tri) (hm : m ≤ 1024) (hd : deg ≤ 1024) (h1 : deg < P.rows) (h2 : m + 1 < P.rows) (h : P.val m m = c * Q m m t) :
    ∃ P', column t deg m P = .ok P' ∧ P'.rows = P.rows ∧ (∀ n : ℕ, m ≤ n → (n ≤ deg ∨ n ≤ m + 1) → P'.val n m = c * Q n m t) ∧
      ∀ i j, P.Has i j → j ≠ (m : Int) → P'.val i j = P.val i j := by
  unfold column
  have ha := anm_ok m 0 (by omega)
  simp only [Nat.cast_zero, zero_add, add_zero] at ha
  have k0 : P.Has m m := ⟨by omega, by omega, by omega⟩
  have k1 : P.Has (m + 1 : Int) m := ⟨by omega, by omega, by omega⟩
  rw [ha, Tri.get_ok k0]
  show ∃ P', Res.bind (P.set _ _ _) _ = _ ∧ _
  rw [Tri.set_ok _ k1]
  show ∃ P', forEach _ _ _ = _ ∧ _
  set v := Real.sqrt ((2 * (m : ℝ) + 1) * (2 * m + 3) / (1 * (2 * m + 1))) * t * P.val m m with hv
  have hv' : v = c * Q (m + 1) m t := by
    rw [hv, h, Q_subdiag, one_mul]; ring
  obtain ⟨P', e, r, f, g⟩ : ∃ P', forEach (irange (m + 2) deg) (fun n P =>
    (anm n m).bind fun a => (P.get (n - 1) m).bind fun p1 => (bnm n m).bind fun b => (P.get (n - 2) m).bind fun p2 =>
    P.set n m (a * t * p1 - b * p2)) (P.upd (m + 1) m v) = .ok P' ∧ P'.rows = P.rows ∧ (∀ n : ℕ, m ≤ n → (n ≤ deg ∨ n ≤ m + 1) → P'.val n m = c * Q n m t) ∧
      ∀ i j, P.Has i j → j ≠ (m : Int) → P'.val i j = P.val i j := by
    have base : ∀ n : ℕ, m ≤ n → n ≤ m + 1 → (P.upd (m + 1) m v).val n m = c * Q n m t := by
      intro n a b
      by_cases e : n = m + 1
      · subst e
        push_cast
        rw [Tri.val_upd_same v k1, hv']
      · have : n = m := by omega
        subst this
        rw [Tri.val_upd_other v k1 k0 (by omega), h]
    have frame0 : ∀ i j, P.Has i j → j ≠ (m : Int) → (P.upd (m + 1) m v).val i j = P.val i j := fun i j hh hj =>
      Tri.val_upd_other v k1 hh (fun e => hj e.2)
    by_cases hdm : deg ≤ m
    · refine ⟨P.upd (m + 1) m v, by rw [irange_nil (by omega)]; rfl, rfl, ?_, frame0⟩
      intro n a b
      exact base n a (by omega)
    · obtain ⟨P', e, I⟩ := loop_range (f := fun n P =>
          (anm n m).bind fun a => (P.get (n - 1) m).bind fun p1 => (bnm n m).bind fun b => (P.get (n - 2) m).bind fun p2 => P.set n m (a * t * p1 - b * p2))
        (fun i P' => P'.rows = P.rows ∧ (∀ n : ℕ, m ≤ n → (n : Int) < i → P'.val n m = c * Q n m t) ∧ ∀ i j, P.Has i j → j ≠ (m : Int) → P'.val i j = P.val i j)
        (a := (m : Int) + 2) (b := deg) (s := P.upd (m + 1) m v) (by omega)
        ⟨rfl, fun n a b => base n a (by omega), frame0⟩ (by
          intro i s hi hi' ⟨r, f, g⟩
          obtain ⟨k, rfl⟩ : ∃ k : ℕ, i = m + (k + 2) := ⟨(i - m - 2).toNat, by omega⟩
          have aa := anm_ok m (k + 1) (by omega)
          have bb := bnm_ok m k (by omega)
          push_cast at aa
          rw [show (m : Int) + (k + 1 + 1) = m + (k + 2) from by ring] at aa
          have s1 : s.Has (m + (k + 2) - 1 : Int) m := ⟨by omega, by omega, by rw [r]; omega⟩
          have s2 : s.Has (m + (k + 2) - 2 : Int) m := ⟨by omega, by omega, by rw [r]; omega⟩
          have s0 : s.Has (m + (k + 2) : Int) m := ⟨by omega, by omega, by rw [r]; omega⟩
          have f1 := f (m + (k + 1)) (by omega) (by push_cast; omega)
          have f2 := f (m + k) (by omega) (by push_cast; omega)
          push_cast at f1 f2
          rw [show (m : Int) + (k + 1) = m + (k + 2) - 1 from by ring] at f1
          rw [show (m : Int) + k = m + (k + 2) - 2 from by ring] at f2
          rw [aa, bb, Tri.get_ok s1, Tri.get_ok s2]
          refine ⟨s.upd (m + (k + 2)) m _, Tri.set_ok _ s0, ?_⟩
          · refine ⟨r, ?_, ?_⟩
            · intro n a b
              by_cases en : n = m + (k + 2)
              · subst en
                push_cast
                rw [Tri.val_upd_same _ s0, f1, f2, Q_three]
                rw [show ((2 * (m + (k + 1)) + 1 : ℝ)) = 2 * (m + k) + 3 from by ring,
                  show ((2 * (m + (k + 1)) + 3 : ℝ)) = 2 * (m + k) + 5 from by ring, show (k + 1 + 1 : ℝ) = k + 2 from by ring,
                  show (2 * m + (k + 1) + 1 : ℝ) = 2 * m + k + 2 from by ring]
                ring
              · rw [Tri.val_upd_other _ s0 ⟨by omega, by omega, by rw [r]; omega⟩ (by omega)]
                exact f n a (by omega)
            · intro i j hh hj
              rw [Tri.val_upd_other _ s0 ⟨hh.1, hh.2.1, by rw [r]; exact hh.2.2⟩ (fun e => hj e.2)]
              exact g i j hh hj)
      refine ⟨P', e, I.1, ?_, I.2.2⟩
      intro n a b
      exact I.2.1 n a (by omega)
  exact ⟨P', e, r, f, g⟩

end Verif.Alf
