import Verif.Props.Alf
import Verif.Proof.AlfD
/-
Property C55: derivatives of the Legendre functions; the degrees at which `int` overflows (C54).
-/
namespace Verif.Alf
open Verif Verif.Legendre

/-- C55: the second matrix holds MINUS the derivative with respect to the argument (so the derivative with respect to colatitude when the argument
is a latitude), away from the poles. -/
theorem alfD_value_partial (θ : ℝ) (hθ : Real.cos θ ≠ 0) (deg ord : ℕ) (P D : Tri) (h1 : ord ≤ deg) (h2 : deg ≤ 1023) (hr : Room P deg ord) (hD : D.rows = P.rows) :
    ∃ P' D', alfD θ deg ord (P, D) = .ok (P', D') ∧ P'.rows = P.rows ∧ D'.rows = P.rows ∧
      ∀ n m : ℕ, m ≤ n → n ≤ deg → m ≤ ord → P'.get n m = .ok (value n m θ) ∧ ∃ d, D'.get n m = .ok d ∧ HasDerivAt (value n m) (-d) θ := by
  obtain ⟨r2, r1, r0⟩ := hr
  unfold alfD
  dsimp only
  rw [if_neg (by omega)]
  have k0 : P.Has 0 0 := ⟨by omega, by omega, by omega⟩
  have k1 : (P.upd 0 0 1).Has 1 1 := ⟨by omega, by omega, by rw [Tri.upd_rows]; omega⟩
  rw [Tri.set_bind k0, Tri.set_bind k1]
  obtain ⟨s1, e1, J1, J0, J2, J3, -⟩ := loop_range (f := fun (m : Int) (s : Tri × Tri) => (columnD (Real.cos θ) (Real.sin θ) deg m s).bind fun s => (diag (Real.cos θ) m s.1).bind fun P => .ok (P, s.2))
    (fun i s' => s'.1.rows = P.rows ∧ s'.2.rows = P.rows ∧ (∀ n m : ℕ, (m : Int) < i → m ≤ n → n ≤ deg → s'.1.val n m = Real.cos θ ^ m * Q n m (Real.sin θ) ∧ s'.2.val n m = dv n m θ) ∧
      (∀ m : ℕ, (m : Int) = i → s'.1.val m m = Real.cos θ ^ m * Q m m (Real.sin θ)) ∧ (i = 0 → s'.1.val 1 1 = Real.sqrt 3 * Real.cos θ)) (a := 0) (b := (ord : Int) - 1)
    (s := ((P.upd 0 0 1).upd 1 1 (Real.sqrt 3 * Real.cos θ), D)) (by omega) (by
      refine ⟨rfl, hD, fun n m h => by omega, fun m hm => ?_, fun _ => Tri.val_upd_same _ k1⟩
      have : m = 0 := by omega
      subst this
      dsimp only
      rw [Tri.val_upd_other _ k1 ⟨by omega, by omega, by rw [Tri.upd_rows]; omega⟩ (by omega), Nat.cast_zero, Tri.val_upd_same _ k0, Q_00]; simp) (by
      intro i s hi hi' ⟨a1, a0, a2, a3, a4⟩
      obtain ⟨m, rfl⟩ : ∃ m : ℕ, i = m := ⟨i.toNat, by omega⟩
      obtain ⟨s', c1, c2, c2', c3, c4⟩ := columnD_spec θ hθ deg m s (by omega) h2 (by omega) (by omega) (by omega) (a3 m rfl)
      rw [Tri.bind_of c1]
      have hasd : ∀ n m : ℕ, m ≤ n → n ≤ deg → s.1.Has n m := fun n m a b => ⟨by omega, by omega, by rw [a1]; omega⟩
      unfold diag
      by_cases hm : m = 0
      · subst hm
        rw [if_neg (by simp)]
        refine ⟨s', rfl, c2.trans a1, c2'.trans a1, ?_, ?_, fun h => absurd h (by simp)⟩
        · intro n m h hn hd
          have : m = 0 := by omega
          subst this
          exact c3 n hn (Or.inl hd)
        · intro m h
          have : m = 1 := by omega
          subst this
          push_cast
          rw [(c4 1 1 (hasd 1 1 (by omega) (by omega)) (by simp)).1, a4 (by simp), Q_11]; ring
      · rw [if_pos (by omega)]
        have k : s'.1.Has m m := ⟨by omega, by omega, by rw [c2, a1]; omega⟩
        have k' : s'.1.Has (m + 1) (m + 1) := ⟨by omega, by omega, by rw [c2, a1]; omega⟩
        rw [Tri.get_bind k, Tri.set_bind k']
        refine ⟨_, rfl, c2.trans a1, c2'.trans a1, ?_, ?_, fun h => absurd h (by omega)⟩
        · intro n m' h hn hd
          dsimp only
          rw [Tri.val_upd_other _ k' ⟨by omega, by omega, by rw [c2, a1]; omega⟩ (by omega)]
          by_cases e : m' = m
          · subst e; exact c3 n hn (Or.inl hd)
          · rw [(c4 n m' (hasd n m' hn hd) (by omega)).1, (c4 n m' (hasd n m' hn hd) (by omega)).2]
            exact a2 n m' (by omega) hn hd
        · intro m' h
          have : m' = m + 1 := by omega
          subst this
          push_cast
          rw [Tri.val_upd_same _ k', (c3 m (le_refl m) (Or.inr (by omega))).1, Q_diag m (by omega)]
          push_cast
          ring)
  rw [Tri.bind_of e1]
  obtain ⟨s2, c1, c2, c2', c3, c4⟩ := columnD_spec θ hθ deg ord s1 (by omega) h2 (by omega) (by omega) (by omega) (J3 ord (by omega))
  refine ⟨s2.1, s2.2, c1, c2.trans J1, c2'.trans J1, ?_⟩
  intro n m a b c
  have k : s1.1.Has n m := ⟨by omega, by omega, by omega⟩
  have main : s2.1.val n m = Real.cos θ ^ m * Q n m (Real.sin θ) ∧ s2.2.val n m = dv n m θ := by
    by_cases e : m = ord
    · subst e; exact c3 n a (Or.inl b)
    · rw [(c4 n m k (by omega)).1, (c4 n m k (by omega)).2]
      exact J2 n m (by omega) a b
  rw [Tri.get_ok ⟨k.1, k.2.1, by rw [c2]; exact k.2.2⟩, Tri.get_ok ⟨k.1, k.2.1, by rw [c2']; exact k.2.2⟩, main.1, main.2]
  refine ⟨by rw [value_Q], _, rfl, ?_⟩
  unfold dv
  rw [neg_neg]
  exact (curve_deriv n m θ).differentiableAt.hasDerivAt

example : Real.cos 0 ≠ 0 ∧ Real.sin 0 = 0 ∧ Room ⟨6, fun _ => 7⟩ 4 4 := ⟨by simp, by simp, by decide, by decide, by decide⟩

/-- C55: the documentation asks for the derivative with respect to the argument; at no latitude but the poles is the value for (1, 0) that derivative. -/
theorem alfD_sign_fails (θ : ℝ) (hθ : Real.cos θ ≠ 0) (P D : Tri) (hP : 3 ≤ P.rows) (hD : D.rows = P.rows) :
    ∃ P' D' d, alfD θ 1 0 (P, D) = .ok (P', D') ∧ D'.get 1 0 = .ok d ∧ d ≠ deriv (value 1 0) θ := by
  obtain ⟨P', D', e, -, -, h⟩ := alfD_value_partial θ hθ 1 0 P D (by omega) (by omega) ⟨by omega, by omega, by omega⟩ hD
  obtain ⟨-, d, hd, hd'⟩ := h 1 0 (by omega) (by omega) (by omega)
  refine ⟨P', D', d, e, hd, ?_⟩
  rw [hd'.deriv]
  have hv : value 1 0 = fun x => Real.sqrt 3 * Real.sin x := by
    funext x
    rw [value_Q]
    have := Q_subdiag 0 (Real.sin x)
    norm_num [Q_00] at this
    rw [this]; simp
  rw [hv] at hd'
  have := (hd'.unique ((Real.hasDerivAt_sin θ).const_mul (Real.sqrt 3)))
  intro hh
  have h3 : Real.sqrt 3 * Real.cos θ = 0 := by linarith
  rcases mul_eq_zero.mp h3 with h | h
  · have : (0 : ℝ) < Real.sqrt 3 := Real.sqrt_pos.mpr (by norm_num)
    linarith
  · exact hθ h

theorem forEach_append {κ σ : Type _} (f : κ → σ → Res σ) : ∀ (l l' : List κ) (s : σ), forEach (l ++ l') f s = (forEach l f s).bind (forEach l' f)
  | [], l', s => rfl
  | k :: l, l', s => by
    simp only [List.cons_append, forEach]
    cases f k s with
    | ok a => exact forEach_append f l l' a
    | ub => rfl
    | abort => rfl
    | throw => rfl

theorem irange_append {a b : Int} : ∀ (k : ℕ), (a + k - 1 < b) → irange a b = irange a (a + k - 1) ++ irange (a + k) b
  | 0, h => by rw [irange_nil (a := a) (b := a + (0 : ℕ) - 1) (by omega)]; simp
  | k + 1, h => by
    rw [irange_append k (by omega), irange_cons (a := a + k) (by omega), show a + (k : Int) + 1 = a + ((k + 1 : ℕ) : Int) from by push_cast; ring]
    have : irange a (a + ((k + 1 : ℕ) : Int) - 1) = irange a (a + k - 1) ++ [a + k] := by
      unfold irange
      rw [show (a + ((k + 1 : ℕ) : Int) - 1 + 1 - a).toNat = k + 1 from by omega, show (a + (k : Int) - 1 + 1 - a).toNat = k from by omega, List.range_succ]
      simp
    rw [this]; simp

theorem bnm_overflow : bnm 1025 0 = .ub := by
  unfold bnm
  rw [i32_ok (by norm_num) (by norm_num)]
  simp only [Res.bind]
  rw [show i32 ((2 * 1025 + 1) * (1025 + 0 - 1) * (1025 - 0 - 1)) = .ub from if_neg (by norm_num)]

theorem column_overflow (t : ℝ) (deg : ℕ) (P : Tri) (hd : 1025 ≤ deg) (hP : deg < P.rows) : column t deg 0 P = .ub := by
  unfold column
  have ha := anm_ok 0 0 (by omega)
  simp only [Nat.cast_zero, zero_add, add_zero] at ha
  have k0 : P.Has 0 0 := ⟨by omega, by omega, by omega⟩
  have k1 : P.Has (0 + 1) 0 := ⟨by omega, by omega, by omega⟩
  rw [show (0 : Int) + 1 = 1 from rfl] at k1 ⊢
  rw [Tri.bind_of ha, Tri.get_bind k0, Tri.set_bind k1]
  rw [irange_append 1023 (by omega), forEach_append]
  obtain ⟨s, e, hs⟩ := loop_range (f := fun n P =>
          (anm n 0).bind fun a => (P.get (n - 1) 0).bind fun p1 => (bnm n 0).bind fun b => (P.get (n - 2) 0).bind fun p2 => P.set n 0 (a * t * p1 - b * p2))
        (fun _ P' => P'.rows = P.rows) (a := (0 : Int) + 2) (b := 0 + 2 + (1023 : ℕ) - 1) (s := P.upd 1 0 (Real.sqrt ((2 * 0 + 1) * (2 * 0 + 3) / (1 * (2 * 0 + 1))) * t * P.val 0 0)) (by norm_num) rfl (by
          intro i s h1 h2 hr
          obtain ⟨k, rfl⟩ : ∃ k : ℕ, i = (0 : ℕ) + (k + 2) := ⟨(i - 2).toNat, by omega⟩
          have aa := anm_ok 0 (k + 1) (by omega)
          have bb := bnm_ok 0 k (by omega)
          push_cast at aa
          rw [show (0 : Int) + (k + 1 + 1) = (0 : ℕ) + (k + 2) from by push_cast; ring] at aa
          rw [show ((0 : ℕ) : Int) = 0 from rfl] at aa bb ⊢
          have s1 : s.Has (0 + (k + 2) - 1 : Int) 0 := ⟨by omega, by omega, by rw [hr]; omega⟩
          have s2 : s.Has (0 + (k + 2) - 2 : Int) 0 := ⟨by omega, by omega, by rw [hr]; omega⟩
          have s0 : s.Has (0 + (k + 2) : Int) 0 := ⟨by omega, by omega, by rw [hr]; omega⟩
          rw [Tri.bind_of aa, Tri.get_bind s1, Tri.bind_of bb, Tri.get_bind s2, Tri.set_ok _ s0]
          exact ⟨_, rfl, hr⟩)
  rw [Tri.bind_of e, irange_cons (by omega), show ((0 : Int) + 2 + (1023 : ℕ)) = 1025 from by norm_num]
  simp only [forEach]
  have aa := anm_ok 0 1024 (by omega)
  norm_num at aa
  have s1 : s.Has (1025 - 1 : Int) 0 := ⟨by omega, by omega, by rw [hs]; omega⟩
  rw [Tri.bind_of aa, Tri.get_bind s1, bnm_overflow]
  rfl

/-- C54: from degree 1025 on, whatever the order, the angle and the size of the matrix, the computation overflows an `int`: undefined behaviour. -/
theorem alf_overflow_fails (θ : ℝ) (deg ord : ℕ) (P : Tri) (h1 : ord ≤ deg) (h2 : 1025 ≤ deg) (hP : deg < P.rows) : alf θ deg ord P = .ub := by
  unfold alf
  dsimp only
  rw [if_neg (by omega)]
  have k0 : P.Has 0 0 := ⟨by omega, by omega, by omega⟩
  have k1 : (P.upd 0 0 1).Has 1 1 := ⟨by omega, by omega, by rw [Tri.upd_rows]; omega⟩
  rw [Tri.set_bind k0, Tri.set_bind k1]
  by_cases h0 : ord = 0
  · subst h0
    rw [irange_nil (by norm_num)]
    exact column_overflow _ deg _ h2 hP
  · rw [irange_cons (by omega)]
    simp only [forEach]
    rw [column_overflow (Real.sin θ) deg ((P.upd 0 0 1).upd 1 1 (Real.sqrt 3 * Real.cos θ)) h2 hP]
    rfl

end Verif.Alf
