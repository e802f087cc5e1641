import Verif.Proof.Alf
import Mathlib.Analysis.SpecialFunctions.Trigonometric.Deriv
import Mathlib.Analysis.Calculus.Deriv.Polynomial
/-
Derivatives of the normalised functions, and the columns of the recursion with derivatives.
-/
namespace Verif.Alf
open Verif Verif.Legendre

/-- Derivative factor. -/
theorem N_deriv (m k : ℕ) : (2 * m + k + 1) * N (m + (k + 1)) m = Real.sqrt (((k + 1) * (2 * m + k + 1) * (2 * (m + k) + 3)) / (2 * (m + k) + 1)) * N (m + k) m := by
  apply sq_inj
  · have := N_nonneg (m + (k + 1)) m; positivity
  · have := N_nonneg (m + k) m; positivity
  · rw [mul_pow, mul_pow, N_sq, N_sq, Real.sq_sqrt (by positivity), show 2 * m + (k + 1) = (2 * m + k) + 1 from by ring, Nat.factorial_succ, Nat.factorial_succ]
    have := eps_pos m
    push_cast
    field_simp
    ring

theorem fnm_ok (m k : ℕ) (h : m + k ≤ 1022 ∨ k = 0 ∧ m ≤ 1024) : fnm (m + (k + 1) : Int) m =
    .ok (Real.sqrt (((k + 1) * (2 * m + k + 1) * (2 * (m + k) + 3)) / (2 * (m + k) + 1))) := by
  have hm : (0 : Int) ≤ (m : Int) * m := by positivity
  have e : (((m : Int) + (k + 1)) * (m + (k + 1)) - m * m) = (k + 1) * (2 * m + k + 1) := by ring
  have a0 : 0 ≤ ((m : Int) + (k + 1)) * (m + (k + 1)) := by positivity
  have a1 : ((m : Int) + (k + 1)) * (m + (k + 1)) ≤ 1025 * 1025 := by apply mul_le_mul <;> omega
  have a2 : (m : Int) * m ≤ 1024 * 1024 := by apply mul_le_mul <;> omega
  unfold fnm
  rw [i32_ok a0 (by omega), i32_ok hm (by omega)]
  simp only [Res.bind]
  rw [i32_ok]
  · simp only
    rw [e]
    push_cast
    congr 3
    · ring
    · ring
  · rw [e]; positivity
  · rcases h with h | ⟨rfl, h⟩
    · have a1 : ((m : Int) + (k + 1)) * (m + (k + 1)) ≤ 1023 * 1023 := by apply mul_le_mul <;> omega
      have : (((m : Int) + (k + 1)) * (m + (k + 1)) - m * m) * (2 * (m + (k + 1)) + 1) ≤ (1023 * 1023) * 2047 := by
        apply mul_le_mul
        · omega
        · omega
        · omega
        · omega
      omega
    · simp only [Nat.cast_zero]
      have : (((m : Int) + (0 + 1)) * (m + (0 + 1)) - m * m) * (2 * (m + (0 + 1)) + 1) ≤ 2049 * 2051 := by
        rw [show ((m : Int) + (0 + 1)) * (m + (0 + 1)) - m * m = 2 * m + 1 from by ring]
        apply mul_le_mul <;> omega
      omega

/-- (cos x)^m Q(sin x): the derivative. -/
theorem curve_deriv (n m : ℕ) (x : ℝ) : HasDerivAt (fun x => Real.cos x ^ m * Q n m (Real.sin x))
    ((m * Real.cos x ^ (m - 1) * (-Real.sin x)) * Q n m (Real.sin x) + Real.cos x ^ m * (N n m * ((q n (m + 1)).eval (Real.sin x) * Real.cos x))) x := by
  have h1 := (Real.hasDerivAt_cos x).pow m
  have h2 := ((q n m).hasDerivAt (Real.sin x)).comp x (Real.hasDerivAt_sin x)
  rw [← q_succ] at h2
  have h3 := h2.const_mul (N n m)
  exact h1.mul h3

theorem pow_pred (u : ℝ) (hu : u ≠ 0) (m : ℕ) : (m : ℝ) * u ^ (m - 1) = m * (1 / u * u ^ m) := by
  cases m with
  | zero => simp
  | succ m => rw [Nat.add_sub_cancel, pow_succ]; field_simp

/-- What the derivative matrix is to hold, with a sign: minus the derivative. -/
noncomputable def dv (n m : ℕ) (θ : ℝ) : ℝ := -deriv (fun x => Real.cos x ^ m * Q n m (Real.sin x)) θ

theorem dv_diag (m : ℕ) (θ : ℝ) (hu : Real.cos θ ≠ 0) : dv m m θ = m * (Real.sin θ / Real.cos θ) * (Real.cos θ ^ m * Q m m (Real.sin θ)) := by
  unfold dv
  rw [(curve_deriv m m θ).deriv, q_diag_zero, pow_pred _ hu]
  simp only [Polynomial.eval_zero]
  field_simp
  ring

theorem dv_step (m k : ℕ) (θ : ℝ) (hu : Real.cos θ ≠ 0) : dv (m + (k + 1)) m θ = 1 / Real.cos θ * ((m + (k + 1)) * Real.sin θ * (Real.cos θ ^ m * Q (m + (k + 1)) m (Real.sin θ)) -
    Real.sqrt (((k + 1) * (2 * m + k + 1) * (2 * (m + k) + 3)) / (2 * (m + k) + 1)) * (Real.cos θ ^ m * Q (m + k) m (Real.sin θ))) := by
  unfold dv
  rw [(curve_deriv (m + (k + 1)) m θ).deriv, pow_pred _ hu]
  have hd := ev_deriv (m + k) m (Real.sin θ)
  have hn := N_deriv m k
  rw [show 1 - Real.sin θ ^ 2 = Real.cos θ ^ 2 from by have := Real.sin_sq_add_cos_sq θ; linarith] at hd
  unfold Q
  rw [show m + (k + 1) = m + k + 1 from rfl] at hn ⊢
  generalize Real.sqrt _ = f at hn ⊢
  generalize Polynomial.eval (Real.sin θ) (q (m + k + 1) (m + 1)) = A at hd ⊢
  generalize Polynomial.eval (Real.sin θ) (q (m + k + 1) m) = B at hd ⊢
  generalize Polynomial.eval (Real.sin θ) (q (m + k) m) = E at hd ⊢
  generalize N (m + k + 1) m = a at hn ⊢
  generalize N (m + k) m = b at hn ⊢
  generalize Real.sin θ = t at hd ⊢
  generalize Real.cos θ = u at hd hu ⊢
  push_cast at hd
  field_simp
  linear_combination (-a) * hd - E * hn

/-- One column with derivatives. -/
theorem columnD_spec (θ : ℝ) (hu : Real.cos θ ≠ 0) (deg m : ℕ) (s : Tri × Tri) (hm : m ≤ 1024) (hd : deg ≤ 1023) (h1 : deg < s.1.rows) (h2 : m + 1 < s.1.rows)
    (h3 : s.2.rows = s.1.rows) (h : s.1.val m m = Real.cos θ ^ m * Q m m (Real.sin θ)) :
    ∃ s', columnD (Real.cos θ) (Real.sin θ) deg m s = .ok s' ∧ s'.1.rows = s.1.rows ∧ s'.2.rows = s.1.rows ∧
      (∀ n : ℕ, m ≤ n → (n ≤ deg ∨ n ≤ m + 1) → s'.1.val n m = Real.cos θ ^ m * Q n m (Real.sin θ) ∧ s'.2.val n m = dv n m θ) ∧
      ∀ i j, s.1.Has i j → j ≠ (m : Int) → s'.1.val i j = s.1.val i j ∧ s'.2.val i j = s.2.val i j := by
  obtain ⟨P, D⟩ := s
  simp only at h1 h2 h3 h
  have ha := anm_ok m 0 (by omega)
  have hf := fnm_ok m 0 (Or.inr ⟨rfl, hm⟩)
  simp only [Nat.cast_zero, zero_add, add_zero] at ha hf
  have k0 : P.Has m m := ⟨by omega, by omega, by omega⟩
  have k1 : P.Has (m + 1 : Int) m := ⟨by omega, by omega, by omega⟩
  have d0 : D.Has m m := ⟨by omega, by omega, by omega⟩
  set c := Real.cos θ ^ m with hc
  set t := Real.sin θ with ht
  set u := Real.cos θ with hu'
  have v1 : Real.sqrt ((2 * (m : ℝ) + 1) * (2 * m + 3) / (1 * (2 * m + 1))) * t * (c * Q m m t) = c * Q (m + 1) m t := by
    rw [Q_subdiag, one_mul]; ring
  have w0 := dv_diag m θ hu
  have w1 := dv_step m 0 θ hu
  rw [← hc, ← ht, ← hu'] at w0 w1
  simp only [Nat.cast_zero, zero_add, add_zero] at w1
  unfold columnD
  dsimp only
  rw [Tri.get_bind k0, Tri.set_bind d0, Tri.bind_of ha, Tri.set_bind k1]
  have k1' : (P.upd (m + 1) m (Real.sqrt ((2 * (m : ℝ) + 1) * (2 * m + 3) / (1 * (2 * m + 1))) * t * P.val m m)).Has (m + 1) m := k1
  have k0' : (P.upd (m + 1) m (Real.sqrt ((2 * (m : ℝ) + 1) * (2 * m + 3) / (1 * (2 * m + 1))) * t * P.val m m)).Has m m := k0
  have d1' : (D.upd m m (((m : Int) : ℝ) * (t / u) * P.val m m)).Has (m + 1) m := ⟨by omega, by omega, by rw [Tri.upd_rows]; omega⟩
  rw [Tri.get_bind k1', Tri.bind_of hf, Tri.get_bind k0', Tri.set_bind d1']
  rw [Tri.val_upd_same _ k1, Tri.val_upd_other _ k1 k0 (by omega), h, v1]
  push_cast
  rw [← w0]
  rw [show 1 / u * ((↑m + 1) * t * (c * Q (m + 1) m t) - Real.sqrt (1 * (2 * ↑m + 1) * (2 * ↑m + 3) / (2 * ↑m + 1)) * (c * Q m m t)) = dv (m + 1) m θ from w1.symm]
  set P1 := P.upd (m + 1) m (c * Q (m + 1) m t) with hP1
  set D1 := (D.upd m m (dv m m θ)).upd (m + 1) m (dv (m + 1) m θ) with hD1
  have d1 : (D.upd m m (dv m m θ)).Has (m + 1) m := ⟨by omega, by omega, by rw [Tri.upd_rows]; omega⟩
  have base : ∀ n : ℕ, m ≤ n → n ≤ m + 1 → P1.val n m = c * Q n m t ∧ D1.val n m = dv n m θ := by
    intro n a b
    by_cases e : n = m + 1
    · subst e
      push_cast
      exact ⟨Tri.val_upd_same _ k1, Tri.val_upd_same _ d1⟩
    · have : n = m := by omega
      subst this
      refine ⟨(Tri.val_upd_other _ k1 k0 (by omega)).trans h, ?_⟩
      rw [hD1, Tri.val_upd_other _ d1 d0 (by omega), Tri.val_upd_same _ d0]
  have frame0 : ∀ i j, P.Has i j → j ≠ (m : Int) → P1.val i j = P.val i j ∧ D1.val i j = D.val i j := by
    intro i j hh hj
    have hh' : D.Has i j := ⟨hh.1, hh.2.1, by rw [h3]; exact hh.2.2⟩
    refine ⟨Tri.val_upd_other _ k1 hh (fun e => hj e.2), ?_⟩
    rw [hD1, Tri.val_upd_other _ d1 hh' (fun e => hj e.2), Tri.val_upd_other _ d0 hh' (fun e => hj e.2)]
  by_cases hdm : deg ≤ m
  · refine ⟨(P1, D1), by rw [irange_nil (by omega)]; rfl, rfl, h3, ?_, frame0⟩
    intro n a b
    exact base n a (by omega)
  · obtain ⟨s', e, I1, I2, I3, I4⟩ := loop_range (f := fun (n : Int) (s : Tri × Tri) =>
      (anm n m).bind fun a => (s.1.get (n - 1) m).bind fun p1 => (bnm n m).bind fun b => (s.1.get (n - 2) m).bind fun p2 =>
      (s.1.set n m (a * t * p1 - b * p2)).bind fun P =>
      (P.get n m).bind fun p => (fnm n m).bind fun f => (P.get (n - 1) m).bind fun p1 =>
      (s.2.set n m (1 / u * (n * t * p - f * p1))).bind fun D => .ok (P, D))
      (fun i s' => s'.1.rows = P.rows ∧ s'.2.rows = P.rows ∧ (∀ n : ℕ, m ≤ n → (n : Int) < i → s'.1.val n m = c * Q n m t ∧ s'.2.val n m = dv n m θ) ∧
        ∀ i j, P.Has i j → j ≠ (m : Int) → s'.1.val i j = P.val i j ∧ s'.2.val i j = D.val i j)
      (a := (m : Int) + 2) (b := deg) (s := (P1, D1)) (by omega) ⟨rfl, h3, fun n a b => base n a (by omega), frame0⟩ (by
        intro i ⟨S, T⟩ hi hi' ⟨r, r', f, g⟩
        simp only at r r' f g
        obtain ⟨k, rfl⟩ : ∃ k : ℕ, i = m + (k + 2) := ⟨(i - m - 2).toNat, by omega⟩
        have aa := anm_ok m (k + 1) (by omega)
        have bb := bnm_ok m k (by omega)
        have ff := fnm_ok m (k + 1) (Or.inl (by omega))
        push_cast at aa ff
        rw [show (m : Int) + (k + 1 + 1) = m + (k + 2) from by ring] at aa ff
        have s1 : S.Has (m + (k + 2) - 1 : Int) m := ⟨by omega, by omega, by rw [r]; omega⟩
        have s2 : S.Has (m + (k + 2) - 2 : Int) m := ⟨by omega, by omega, by rw [r]; omega⟩
        have s0 : S.Has (m + (k + 2) : Int) m := ⟨by omega, by omega, by rw [r]; omega⟩
        have t0 : T.Has (m + (k + 2) : Int) m := ⟨by omega, by omega, by rw [r']; omega⟩
        have f1 := (f (m + (k + 1)) (by omega) (by push_cast; omega)).1
        have f2 := (f (m + k) (by omega) (by push_cast; omega)).1
        push_cast at f1 f2
        rw [show (m : Int) + (k + 1) = m + (k + 2) - 1 from by ring] at f1
        rw [show (m : Int) + k = m + (k + 2) - 2 from by ring] at f2
        have key : Real.sqrt ((2 * ((m : ℝ) + (k + 1)) + 1) * (2 * (m + (k + 1)) + 3) / ((k + 1 + 1) * (2 * m + (k + 1) + 1))) * t * (c * Q (m + (k + 1)) m t) -
            Real.sqrt ((2 * ((m : ℝ) + k) + 5) * (2 * m + k + 1) * (k + 1) / ((k + 2) * (2 * m + k + 2) * (2 * (m + k) + 1))) * (c * Q (m + k) m t) = c * Q (m + (k + 2)) m t := by
          rw [Q_three]
          rw [show ((2 * (m + (k + 1)) + 1 : ℝ)) = 2 * (m + k) + 3 from by ring,
            show ((2 * (m + (k + 1)) + 3 : ℝ)) = 2 * (m + k) + 5 from by ring, show (k + 1 + 1 : ℝ) = k + 2 from by ring,
            show (2 * m + (k + 1) + 1 : ℝ) = 2 * m + k + 2 from by ring]
          ring
        have w := dv_step m (k + 1) θ hu
        rw [← hc, ← ht, ← hu'] at w
        push_cast at w
        dsimp only
        rw [Tri.bind_of aa, Tri.get_bind s1, Tri.bind_of bb, Tri.get_bind s2, f1, f2, key, Tri.set_bind s0]
        have s0' : (S.upd (m + (k + 2)) m (c * Q (m + (k + 2)) m t)).Has (m + (k + 2)) m := s0
        have s1' : (S.upd (m + (k + 2)) m (c * Q (m + (k + 2)) m t)).Has (m + (k + 2) - 1) m := s1
        rw [Tri.get_bind s0', Tri.bind_of ff, Tri.get_bind s1', Tri.set_bind t0]
        rw [Tri.val_upd_same _ s0, Tri.val_upd_other _ s0 s1 (by omega), f1]
        push_cast
        rw [show (1 / u * (((m : ℝ) + (↑k + 2)) * t * (c * Q (m + (k + 2)) m t) -
          Real.sqrt ((↑k + 1 + 1) * (2 * ↑m + (↑k + 1) + 1) * (2 * (↑m + (↑k + 1)) + 3) / (2 * (↑m + (↑k + 1)) + 1)) * (c * Q (m + (k + 1)) m t))) = dv (m + (k + 2)) m θ from by
            rw [show m + (k + 1 + 1) = m + (k + 2) from rfl] at w
            rw [w, show (m + (k + 1 + 1) : ℝ) = m + (k + 2) from by ring]]
        refine ⟨_, rfl, r, r', ?_, ?_⟩
        · intro n a b
          by_cases en : n = m + (k + 2)
          · subst en
            push_cast
            exact ⟨Tri.val_upd_same _ s0, Tri.val_upd_same _ t0⟩
          · simp only
            rw [Tri.val_upd_other _ s0 ⟨by omega, by omega, by rw [r]; omega⟩ (by omega), Tri.val_upd_other _ t0 ⟨by omega, by omega, by rw [r']; omega⟩ (by omega)]
            exact f n a (by omega)
        · intro i j hh hj
          simp only
          rw [Tri.val_upd_other _ s0 ⟨hh.1, hh.2.1, by rw [r]; exact hh.2.2⟩ (fun e => hj e.2), Tri.val_upd_other _ t0 ⟨hh.1, hh.2.1, by rw [r']; exact hh.2.2⟩ (fun e => hj e.2)]
          exact g i j hh hj)
    refine ⟨s', e, I1, I2, ?_, I4⟩
    intro n a b
    exact I3 n a (by omega)

end Verif.Alf
