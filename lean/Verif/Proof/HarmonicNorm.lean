import Verif.Proof.Harmonic
/-
Derivatives of the normalised solid harmonics.
-/
namespace Verif.Harmonic
open Verif Verif.Legendre

/-- The factor of a degree. -/
noncomputable def fa (n : ℕ) : ℝ := Real.sqrt ((2 * n + 1) / (2 * n + 3))

/-- √2 for the step to order zero. -/
noncomputable def two (m : ℕ) : ℝ := if m = 0 then Real.sqrt 2 else 1

theorem two_nonneg (m : ℕ) : 0 ≤ two m := by unfold two; split_ifs <;> positivity

theorem two_sq (m : ℕ) : two m ^ 2 * eps m = eps (m + 1) := by
  unfold two eps
  by_cases h : m = 0 <;> simp [h]

theorem N_minus (m k : ℕ) : N (m + 1 + k) (m + 1) * ((k + 1) * (k + 2)) = fa (m + 1 + k) * (Real.sqrt ((k + 1) * (k + 2)) * two m) * N (m + 1 + k + 1) m := by
  have h2 := two_nonneg m
  have ha : 0 ≤ fa (m + 1 + k) := Real.sqrt_nonneg _
  apply sq_inj
  · have := N_nonneg (m + 1 + k) (m + 1); positivity
  · have := N_nonneg (m + 1 + k + 1) m; positivity
  · rw [show m + 1 + k + 1 = m + (k + 2) from by ring]
    unfold fa
    simp only [mul_pow, N_sq]
    rw [Real.sq_sqrt (by positivity), Real.sq_sqrt (by positivity), show 2 * (m + 1) + k = 2 * m + (k + 2) from by ring, Nat.factorial_succ (k + 1), Nat.factorial_succ k, ← two_sq]
    have := eps_pos m
    push_cast
    have : (0 : ℝ) < 2 * (m + 1 + k) + 3 := by positivity
    field_simp
    ring

theorem N_same (m k : ℕ) : N (m + k) m * (k + 1) = fa (m + k) * Real.sqrt ((k + 1) * (2 * m + k + 1)) * N (m + k + 1) m := by
  have ha : 0 ≤ fa (m + k) := Real.sqrt_nonneg _
  apply sq_inj
  · have := N_nonneg (m + k) m; positivity
  · have := N_nonneg (m + k + 1) m; positivity
  · rw [show m + k + 1 = m + (k + 1) from by ring]
    unfold fa
    simp only [mul_pow, N_sq]
    rw [Real.sq_sqrt (by positivity), Real.sq_sqrt (by positivity), show 2 * m + (k + 1) = 2 * m + k + 1 from by ring, Nat.factorial_succ k, Nat.factorial_succ (2 * m + k)]
    have := eps_pos m
    push_cast
    have : (0 : ℝ) < 2 * (m + k) + 3 := by positivity
    field_simp
    ring

theorem N_plus (m k : ℕ) : N (m + k) m * two m = fa (m + k) * Real.sqrt ((2 * m + k + 1) * (2 * m + k + 2)) * N (m + k + 1) (m + 1) := by
  have h2 := two_nonneg m
  have ha : 0 ≤ fa (m + k) := Real.sqrt_nonneg _
  apply sq_inj
  · have := N_nonneg (m + k) m; positivity
  · have := N_nonneg (m + k + 1) (m + 1); positivity
  · rw [show m + k + 1 = (m + 1) + k from by ring]
    unfold fa
    simp only [mul_pow, N_sq]
    rw [Real.sq_sqrt (by positivity), Real.sq_sqrt (by positivity), show 2 * (m + 1) + k = 2 * m + k + 1 + 1 from by ring, Nat.factorial_succ (2 * m + k + 1), Nat.factorial_succ (2 * m + k), ← two_sq]
    have := eps_pos m
    push_cast
    have : (0 : ℝ) < 2 * (m + k) + 3 := by positivity
    field_simp
    ring

/-- The derivative of a normalised solid harmonic, order at least one. -/
theorem Z_deriv (n m : ℕ) (hm : m + 1 ≤ n) {p : ℝ → V3} {d : V3} {t : ℝ} (h : Moves p d t) (h0 : p t ≠ 0) :
    HasDerivAt (fun τ => Z n (m + 1) (p τ)) (((fa n / 2 : ℝ) : ℂ) *
      (hor d * ((Real.sqrt (((n : ℝ) - m) * (n - m + 1)) * two m : ℝ) : ℂ) * Z (n + 1) m (p t)
        - (starRingEnd ℂ) (hor d) * ((Real.sqrt (((n : ℝ) + m + 2) * (n + m + 3)) : ℝ) : ℂ) * Z (n + 1) (m + 2) (p t)
        - 2 * d.z * ((Real.sqrt (((n : ℝ) - m) * (n + m + 2)) : ℝ) : ℂ) * Z (n + 1) (m + 1) (p t))) t := by
  refine ((V_deriv n m h h0).const_mul (N n (m + 1) : ℂ)).congr_deriv ?_
  obtain ⟨k, rfl⟩ := Nat.exists_eq_add_of_le hm
  have e1 := N_minus m k
  have e2 := N_same (m + 1) k
  have e3 := N_plus (m + 1) k
  rw [show two (m + 1) = 1 from if_neg (by omega), mul_one] at e3
  push_cast at e1 e2 e3 ⊢
  rw [show ((m : ℝ) + 1 + k - m) = k + 1 from by ring, show ((k : ℝ) + 1 + 1) = k + 2 from by ring, show ((m : ℝ) + 1 + k + m + 2) = 2 * (m + 1) + k + 1 from by ring,
    show ((m : ℝ) + 1 + k + m + 3) = 2 * (m + 1) + k + 2 from by ring]
  have c1 := congrArg (fun x : ℝ => (x : ℂ)) e1
  have c2 := congrArg (fun x : ℝ => (x : ℂ)) e2
  have c3 := congrArg (fun x : ℝ => (x : ℂ)) e3
  push_cast at c1 c2 c3
  unfold Z
  push_cast
  rw [show m + 2 = m + 1 + 1 from rfl]
  linear_combination (1 / 2 * hor d * V (m + 1 + k + 1) m (p t)) * c1 - (d.z * V (m + 1 + k + 1) (m + 1) (p t)) * c2 - 1 / 2 * (starRingEnd ℂ) (hor d) * V (m + 1 + k + 1) (m + 1 + 1) (p t) * c3

/-- The derivative of a normalised zonal solid harmonic. -/
theorem Z_deriv_zero (n : ℕ) {p : ℝ → V3} {d : V3} {t : ℝ} (h : Moves p d t) (h0 : p t ≠ 0) :
    HasDerivAt (fun τ => Z n 0 (p τ)) (((fa n / 2 : ℝ) : ℂ) *
      (-hor d * ((Real.sqrt (((n : ℝ) + 1) * (n + 2)) / Real.sqrt 2 : ℝ) : ℂ) * (starRingEnd ℂ) (Z (n + 1) 1 (p t))
        - (starRingEnd ℂ) (hor d) * ((Real.sqrt (((n : ℝ) + 1) * (n + 2)) / Real.sqrt 2 : ℝ) : ℂ) * Z (n + 1) 1 (p t)
        - 2 * d.z * ((Real.sqrt (((n : ℝ) + 1) * (n + 1)) : ℝ) : ℂ) * Z (n + 1) 0 (p t))) t := by
  refine ((V_deriv_zero n h h0).const_mul (N n 0 : ℂ)).congr_deriv ?_
  have e2 := N_same 0 n
  have e3 := N_plus 0 n
  rw [show two 0 = Real.sqrt 2 from if_pos rfl] at e3
  simp only [zero_add, Nat.cast_zero, mul_zero] at e2 e3
  have s2 : Real.sqrt 2 ≠ 0 := by positivity
  have e3' : N n 0 = fa n * (Real.sqrt (((n : ℝ) + 1) * (n + 2)) / Real.sqrt 2) * N (n + 1) 1 := by
    field_simp
    exact e3
  have c2 := congrArg (fun x : ℝ => (x : ℂ)) e2
  have c3 := congrArg (fun x : ℝ => (x : ℂ)) e3'
  simp only [Complex.ofReal_mul, Complex.ofReal_add, Complex.ofReal_one, Complex.ofReal_natCast] at c2 c3
  unfold Z
  rw [map_mul, Complex.conj_ofReal]
  generalize Real.sqrt (((n : ℝ) + 1) * (n + 2)) / Real.sqrt 2 = k at *
  simp only [Complex.ofReal_div, Complex.ofReal_add, Complex.ofReal_one, Complex.ofReal_natCast, Complex.ofReal_ofNat]
  linear_combination (-(d.z * V (n + 1) 0 (p t))) * c2 - 1 / 2 * ((starRingEnd ℂ) (hor d) * V (n + 1) 1 (p t) + hor d * (starRingEnd ℂ) (V (n + 1) 1 (p t))) * c3

/-- W(n, 0) = 0. -/
theorem Z_zero_im (n : ℕ) (v : V3) : (Z n 0 v).im = 0 := by
  unfold Z V
  rw [pow_zero, one_mul, ← Complex.ofReal_mul, Complex.ofReal_im]

end Verif.Harmonic
