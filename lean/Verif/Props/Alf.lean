import Verif.Proof.Alf
import Mathlib.Analysis.SpecialFunctions.Trigonometric.Deriv
import Mathlib.Analysis.Calculus.Deriv.Polynomial
/-
Properties C54, C55, C56 (Legendre part): the computed associated Legendre functions and their derivatives.
-/
namespace Verif.Alf
open Verif Verif.Legendre

/-- What the element (n, m) is to be: the fully normalised function at latitude `θ`, (cos θ)^m times the normalised m-th derivative of the
Legendre polynomial at sin θ. -/
noncomputable def value (n m : ℕ) (θ : ℝ) : ℝ := Real.cos θ ^ m * (N n m * (Polynomial.derivative^[m] (P n)).eval (Real.sin θ))

theorem value_Q (n m : ℕ) (θ : ℝ) : value n m θ = Real.cos θ ^ m * Q n m (Real.sin θ) := rfl

/-- For a latitude this is the function of textbooks. -/
theorem value_latitude (n m : ℕ) {θ : ℝ} (h : 0 ≤ Real.cos θ) : value n m θ = Pbar n m (Real.sin θ) := by
  rw [Pbar_eq, value_Q]
  congr 2
  rw [show 1 - Real.sin θ ^ 2 = Real.cos θ ^ 2 from by have := Real.sin_sq_add_cos_sq θ; linarith, Real.sqrt_sq h]

example : value 3 2 (1 / 2) = Pbar 3 2 (Real.sin (1 / 2)) :=
  value_latitude 3 2 (Real.cos_nonneg_of_mem_Icc ⟨by linarith [Real.two_le_pi], by linarith [Real.two_le_pi]⟩)

/-- The matrix can hold what is written: degrees up to the maximum, `(1, 1)`, and `(max_order + 1, max_order)`. -/
def Room (P : Tri) (deg ord : ℕ) : Prop := 2 ≤ P.rows ∧ deg < P.rows ∧ ord + 1 < P.rows

/-- C54: all values up to the maximum degree and order, for every angle. -/
theorem alf_value (θ : ℝ) (deg ord : ℕ) (P : Tri) (h1 : ord ≤ deg) (h2 : deg ≤ 1024) (hr : Room P deg ord) :
    ∃ P', alf θ deg ord P = .ok P' ∧ P'.rows = P.rows ∧ ∀ n m : ℕ, m ≤ n → n ≤ deg → m ≤ ord → P'.get n m = .ok (value n m θ) := by
  obtain ⟨r2, r1, r0⟩ := hr
  unfold alf
  rw [if_neg (by omega)]
  have k0 : P.Has 0 0 := ⟨by omega, by omega, by omega⟩
  have k1 : (P.upd 0 0 1).Has 1 1 := ⟨by omega, by omega, by rw [Tri.upd_rows]; omega⟩
  simp only [Tri.set_ok _ k0, Res.bind, Tri.set_ok _ k1]
  generalize hu : Real.cos θ = u
  generalize ht : Real.sin θ = t
  obtain ⟨P1, e1, J1, J2, J3, -⟩ := loop_range (f := fun m P => (column t deg m P).bind (diag u m))
    (fun i P' => P'.rows = P.rows ∧ (∀ n m : ℕ, (m : Int) < i → m ≤ n → n ≤ deg → P'.val n m = u ^ m * Q n m t) ∧
      (∀ m : ℕ, (m : Int) = i → P'.val m m = u ^ m * Q m m t) ∧ (i = 0 → P'.val 1 1 = Real.sqrt 3 * u)) (a := 0) (b := (ord : Int) - 1)
    (s := (P.upd 0 0 1).upd 1 1 (Real.sqrt 3 * u)) (by omega) (by
      refine ⟨rfl, fun n m h => by omega, fun m hm => ?_, fun _ => Tri.val_upd_same _ k1⟩
      have : m = 0 := by omega
      subst this
      rw [Tri.val_upd_other _ k1 ⟨by omega, by omega, by rw [Tri.upd_rows]; omega⟩ (by omega), Nat.cast_zero, Tri.val_upd_same _ k0, Q_00]; simp) (by
      intro i s hi hi' ⟨a1, a2, a3, a4⟩
      obtain ⟨m, rfl⟩ : ∃ m : ℕ, i = m := ⟨i.toNat, by omega⟩
      obtain ⟨s', c1, c2, c3, c4⟩ := column_spec t (u ^ m) deg m s (by omega) h2 (by omega) (by omega) (a3 m rfl)
      rw [c1]
      show ∃ s'', diag u m s' = _ ∧ _
      have hasd : ∀ n m : ℕ, m ≤ n → n ≤ deg → s.Has n m := fun n m a b => ⟨by omega, by omega, by rw [a1]; omega⟩
      unfold diag
      by_cases hm : m = 0
      · subst hm
        rw [if_neg (by simp)]
        refine ⟨s', rfl, c2.trans a1, ?_, ?_, fun h => absurd h (by simp)⟩
        · intro n m h hn hd
          have : m = 0 := by omega
          subst this
          exact c3 n hn (Or.inl hd)
        · intro m h
          have : m = 1 := by omega
          subst this
          push_cast
          rw [c4 1 1 (hasd 1 1 (by omega) (by omega)) (by simp), a4 (by simp), Q_11]; ring
      · rw [if_pos (by omega)]
        have k : s'.Has m m := ⟨by omega, by omega, by rw [c2, a1]; omega⟩
        have k' : s'.Has (m + 1) (m + 1) := ⟨by omega, by omega, by rw [c2, a1]; omega⟩
        rw [Tri.get_ok k]
        show ∃ s'', s'.set _ _ _ = _ ∧ _
        refine ⟨s'.upd (m + 1) (m + 1) _, Tri.set_ok _ k', c2.trans a1, ?_, ?_, fun h => absurd h (by omega)⟩
        · intro n m' h hn hd
          rw [Tri.val_upd_other _ k' ⟨by omega, by omega, by rw [c2, a1]; omega⟩ (by omega)]
          by_cases e : m' = m
          · subst e; exact c3 n hn (Or.inl hd)
          · rw [c4 n m' (hasd n m' hn hd) (by omega)]
            exact a2 n m' (by omega) hn hd
        · intro m' h
          have : m' = m + 1 := by omega
          subst this
          push_cast
          rw [Tri.val_upd_same _ k', c3 m (le_refl m) (Or.inr (by omega)), Q_diag m (by omega)]
          push_cast
          ring)
  simp only [Res.bind] at e1
  rw [e1]
  show ∃ P', column t deg ord P1 = _ ∧ _
  obtain ⟨P2, c1, c2, c3, c4⟩ := column_spec t (u ^ ord) deg ord P1 (by omega) h2 (by omega) (by omega) (J3 ord (by omega))
  refine ⟨P2, c1, c2.trans J1, ?_⟩
  intro n m a b c
  have k : P1.Has n m := ⟨by omega, by omega, by omega⟩
  rw [Tri.get_ok ⟨k.1, k.2.1, by rw [c2]; exact k.2.2⟩, value_Q, hu, ht]
  by_cases e : m = ord
  · subst e; rw [c3 n a (Or.inl b)]
  · rw [c4 n m k (by omega), J2 n m (by omega) a b]

/-- Degree and order 4 in a matrix of six rows. -/
example (θ : ℝ) : ∃ P', alf θ 4 4 ⟨6, fun _ => 7⟩ = .ok P' ∧ P'.rows = 6 ∧ ∀ n m : ℕ, m ≤ n → n ≤ 4 → m ≤ 4 → P'.get n m = .ok (value n m θ) :=
  alf_value θ 4 4 ⟨6, fun _ => 7⟩ (by decide) (by decide) ⟨by decide, by decide, by decide⟩

/-- C54: for a latitude, the fully normalised associated Legendre functions of sin θ. -/
theorem alf_latitude_partial (θ : ℝ) (deg ord : ℕ) (P : Tri) (h1 : ord ≤ deg) (h2 : deg ≤ 1024) (hr : Room P deg ord) (hθ : |θ| ≤ Real.pi / 2) :
    ∃ P', alf θ deg ord P = .ok P' ∧ P'.rows = P.rows ∧ ∀ n m : ℕ, m ≤ n → n ≤ deg → m ≤ ord → P'.get n m = .ok (Pbar n m (Real.sin θ)) := by
  obtain ⟨P', e, r, h⟩ := alf_value θ deg ord P h1 h2 hr
  refine ⟨P', e, r, fun n m a b c => ?_⟩
  rw [h n m a b c, value_latitude n m (Real.cos_nonneg_of_mem_Icc (abs_le.mp hθ))]

example : Room ⟨6, fun _ => 7⟩ 4 4 ∧ Room ⟨5, fun _ => 7⟩ 4 3 := ⟨⟨by decide, by decide, by decide⟩, ⟨by decide, by decide, by decide⟩⟩

/-! ### Undefined behaviour -/

theorem last_index (r : ℕ) (mem : Int → ℝ) : ¬(⟨r + 1, mem⟩ : Tri).In (r + 1) r := by
  rintro ⟨_, h⟩
  unfold Tri.st Storage.St.index Storage.St.slice Storage.St.numElements at h
  simp only at h
  push_cast at h
  obtain ⟨k, hk⟩ : ∃ k : Int, (r : Int) * (r - 1) = 2 * k := by
    rcases Int.even_or_odd (r : Int) with ⟨c, h⟩ | ⟨c, h⟩
    · exact ⟨c * (r - 1), by rw [h]; ring⟩
    · exact ⟨r * c, by rw [h]; ring⟩
  have e1 : ((r : Int) + 1) * (r + 1 + 1) = 2 * (k + 2 * r + 1) := by linear_combination hk
  rw [hk, e1, Int.mul_ediv_cancel_left _ (by norm_num), Int.mul_ediv_cancel_left _ (by norm_num)] at h
  have : (r : Int) * (r + 1) = 2 * k + 2 * r := by linear_combination hk
  linarith

theorem upd_in (t : Tri) (i j i' j' : Int) (v : ℝ) : (t.upd i j v).In i' j' ↔ t.In i' j' := Iff.rfl

/-- C54, C56: a matrix that holds exactly the requested degrees and orders, as documented, is too small when order equals degree: degree 0 writes
`(1, 1)` outside it. -/
theorem alf_exact_zero_fails (θ : ℝ) (mem : Int → ℝ) : alf θ 0 0 ⟨1, mem⟩ = .ub := by
  unfold alf
  rw [if_neg (by simp)]
  have h : (⟨1, mem⟩ : Tri).set 0 0 1 = .ok ((⟨1, mem⟩ : Tri).upd 0 0 1) := if_pos (show 0 ≤ Storage.St.index ⟨.lwTriangularColWise, 1, 1⟩ 0 0 ∧ Storage.St.index ⟨.lwTriangularColWise, 1, 1⟩ 0 0 < (Storage.St.numElements ⟨.lwTriangularColWise, 1, 1⟩ : Int) from by decide)
  have h' : ∀ v, ((⟨1, mem⟩ : Tri).upd 0 0 1).set 1 1 v = .ub := fun v => if_neg (by
    rintro ⟨a, b⟩
    revert b
    show ¬ (Storage.St.index ⟨.lwTriangularColWise, 1, 1⟩ 1 1 < (Storage.St.numElements ⟨.lwTriangularColWise, 1, 1⟩ : Int))
    decide)
  simp only [h, Res.bind, h']

/-- C54, C56: with order equal to degree, a matrix of exactly `degree + 1` rows is overrun by one cell, for every degree. -/
theorem alf_exact_fails (θ : ℝ) (deg : ℕ) (h0 : 0 < deg) (h2 : deg ≤ 1024) (mem : Int → ℝ) : alf θ deg deg ⟨deg + 1, mem⟩ = .ub := by
  unfold alf
  rw [if_neg (by omega)]
  have k0 : (⟨deg + 1, mem⟩ : Tri).Has 0 0 := ⟨by omega, by omega, by simp⟩
  have k1 : ((⟨deg + 1, mem⟩ : Tri).upd 0 0 1).Has 1 1 := ⟨by omega, by omega, by rw [Tri.upd_rows]; simp; omega⟩
  simp only [Tri.set_ok _ k0, Res.bind, Tri.set_ok _ k1]
  generalize hu : Real.cos θ = u
  generalize ht : Real.sin θ = t
  obtain ⟨P1, e1, J1, J2, J3⟩ := loop_range (f := fun m P => (column t deg m P).bind (diag u m))
    (fun i P' => P'.rows = deg + 1 ∧ (∀ m : ℕ, (m : Int) = i → P'.val m m = u ^ m * Q m m t) ∧ (i = 0 → P'.val 1 1 = Real.sqrt 3 * u)) (a := 0) (b := (deg : Int) - 1)
    (s := ((⟨deg + 1, mem⟩ : Tri).upd 0 0 1).upd 1 1 (Real.sqrt 3 * u)) (by omega) (by
      refine ⟨rfl, fun m hm => ?_, fun _ => Tri.val_upd_same _ k1⟩
      have : m = 0 := by omega
      subst this
      rw [Tri.val_upd_other _ k1 ⟨by omega, by omega, by rw [Tri.upd_rows]; simp⟩ (by omega), Nat.cast_zero, Tri.val_upd_same _ k0, Q_00]; simp) (by
      intro i s hi hi' ⟨a1, a3, a4⟩
      obtain ⟨m, rfl⟩ : ∃ m : ℕ, i = m := ⟨i.toNat, by omega⟩
      obtain ⟨s', c1, c2, c3, c4⟩ := column_spec t (u ^ m) deg m s (by omega) h2 (by omega) (by omega) (a3 m rfl)
      rw [c1]
      show ∃ s'', diag u m s' = _ ∧ _
      unfold diag
      by_cases hm : m = 0
      · subst hm
        rw [if_neg (by simp)]
        refine ⟨s', rfl, c2.trans a1, ?_, fun h => absurd h (by simp)⟩
        · intro m h
          have : m = 1 := by omega
          subst this
          push_cast
          rw [c4 1 1 ⟨by omega, by omega, by rw [a1]; omega⟩ (by simp), a4 (by simp), Q_11]; ring
      · rw [if_pos (by omega)]
        have k : s'.Has m m := ⟨by omega, by omega, by rw [c2, a1]; omega⟩
        have k' : s'.Has (m + 1) (m + 1) := ⟨by omega, by omega, by rw [c2, a1]; omega⟩
        rw [Tri.get_ok k]
        show ∃ s'', s'.set _ _ _ = _ ∧ _
        refine ⟨s'.upd (m + 1) (m + 1) _, Tri.set_ok _ k', c2.trans a1, ?_, fun h => absurd h (by omega)⟩
        · intro m' h
          have : m' = m + 1 := by omega
          subst this
          push_cast
          rw [Tri.val_upd_same _ k', c3 m (le_refl m) (Or.inr (by omega)), Q_diag m (by omega)]
          push_cast
          ring)
  simp only [Res.bind] at e1
  rw [e1]
  show column t deg deg P1 = .ub
  unfold column
  have ha := anm_ok deg 0 (by omega)
  simp only [Nat.cast_zero, zero_add, add_zero] at ha
  rw [ha, Tri.get_ok ⟨by omega, by omega, by rw [J1]; omega⟩]
  show Res.bind (P1.set _ _ _) _ = _
  have : ∀ v, P1.set ((deg : Int) + 1) deg v = .ub := by
    intro v
    apply if_neg
    obtain ⟨r, mm⟩ := P1
    simp only at J1
    subst J1
    exact last_index deg mm
  rw [this]
  rfl

end Verif.Alf
