import Verif.Props.Frames
import Mathlib.LinearAlgebra.Lagrange
/-
Bounds on what is interpolated from daily records.
-/
namespace Verif.Orient
open Verif Verif.Eop Polynomial

/-- Records about a day apart. -/
def Daily (w : List (Rec ℚ)) : Prop := w.IsChain fun a b => 0.99 ≤ b.t - a.t ∧ b.t - a.t ≤ 1.01

theorem Daily.sorted {w : List (Rec ℚ)} (h : Daily w) : Sorted w := by
  have hc : w.IsChain fun a b => a.t < b.t := h.imp fun a b hab => by linarith [hab.1]
  haveI : IsTrans (Rec ℚ) fun a b => a.t < b.t := ⟨fun a b c h1 h2 => h1.trans h2⟩
  exact List.isChain_iff_pairwise.mp hc

/-- Daily records from an interval are daily. -/
theorem Daily.filter {w : List (Rec ℚ)} (h : Daily w) (a b : ℚ) : Daily (w.filter fun r => a ≤ r.t ∧ r.t < b) := by
  induction w with
  | nil => exact .nil
  | cons x rest ih =>
    have hs := h.sorted
    have ih := ih (List.IsChain.tail h)
    by_cases hx : a ≤ x.t ∧ x.t < b
    · rw [List.filter_cons_of_pos (by simpa using hx)]
      cases rest with
      | nil => exact .singleton _
      | cons y rest =>
        obtain ⟨hxy, hrest⟩ := List.isChain_cons_cons.mp h
        by_cases hy : a ≤ y.t ∧ y.t < b
        · rw [List.filter_cons_of_pos (by simpa using hy)] at ih ⊢
          exact List.isChain_cons_cons.mpr ⟨hxy, ih⟩
        · have hnil : (y :: rest).filter (fun r => decide (a ≤ r.t ∧ r.t < b)) = [] := by
            rw [List.filter_eq_nil_iff]
            intro z hz
            have hyb : b ≤ y.t := by
              by_contra hc
              exact hy ⟨by linarith [hxy.1, hx.1], not_le.mp hc⟩
            have : y.t ≤ z.t := by
              rcases List.mem_cons.mp hz with rfl | hz
              · exact le_rfl
              · exact ((List.pairwise_cons.mp (List.pairwise_cons.mp hs).2).1 z hz).le
            simp only [decide_eq_true_eq]
            intro hc
            linarith [hc.2]
          rw [hnil]
          exact .singleton _
    · rw [List.filter_cons_of_neg (by simpa using hx)]
      exact ih

theorem Daily.gap {w : List (Rec ℚ)} (h : Daily w) : ∀ (d i : Nat) (hi : i + d < w.length),
    0.99 * (d : ℚ) ≤ (w[i + d]'hi).t - (w[i]'(by omega)).t ∧ (w[i + d]'hi).t - (w[i]'(by omega)).t ≤ 1.01 * d
  | 0, i, hi => by simp
  | d + 1, i, hi => by
    have h1 := Daily.gap h d i (by omega)
    have h2 := List.isChain_iff_getElem.mp h (i + d) (by omega)
    simp only [← Nat.add_assoc]
    push_cast
    constructor <;> linarith [h1.1, h1.2, h2.1, h2.2]

/-- What is interpolated from at most six daily records is at most 21000 times as large as they are. -/
theorem through_small {w : List (Rec ℚ)} (hd : Daily w) (hn : w.length ≤ 6) {q : Rec ℚ → ℝ} {b : ℝ} (hb : ∀ r ∈ w, |q r| ≤ b) {t v : ℝ}
    (h1 : ∃ r ∈ w, (r.t : ℝ) ≤ t) (h2 : ∃ r ∈ w, t < (r.t : ℝ)) (h : Through w q t v) : |v| ≤ 21000 * b := by
  obtain ⟨p, p1, p2, rfl⟩ := h
  have hb0 : 0 ≤ b := by
    obtain ⟨r, hr, -⟩ := h1
    exact (abs_nonneg _).trans (hb r hr)
  set x : Fin w.length → ℝ := fun i => (w[i].t : ℝ) with hx
  have gap : ∀ i j : Fin w.length, i < j → 0.99 ≤ x j - x i ∧ x j - x i ≤ 5.05 := by
    intro i j hij
    obtain ⟨d, hd'⟩ : ∃ d, (j : ℕ) = i + d := ⟨j - i, by omega⟩
    have hi := i.isLt
    have hj := j.isLt
    have hg := hd.gap d i (by omega)
    have e : w[j] = w[(i : ℕ) + d]'(by omega) := by
      show w[(j : ℕ)] = _
      congr 1
    have hd1 : (1 : ℚ) ≤ d := by
      have : 1 ≤ d := by omega
      exact_mod_cast this
    have hd5 : (d : ℚ) ≤ 5 := by
      have : d ≤ 5 := by omega
      exact_mod_cast this
    have g1 : (0.99 : ℚ) ≤ w[j].t - w[i].t := by rw [e]; exact le_trans (by linarith) hg.1
    have g2 : w[j].t - w[i].t ≤ (5.05 : ℚ) := by rw [e]; exact hg.2.trans (by linarith)
    simp only [hx]
    constructor
    · have := (Rat.cast_le (K := ℝ)).mpr g1
      push_cast at this
      linarith
    · have := (Rat.cast_le (K := ℝ)).mpr g2
      push_cast at this
      linarith
  have hne : ∀ i j : Fin w.length, i ≠ j → 0.99 ≤ |x i - x j| := by
    intro i j hij
    rcases lt_or_gt_of_ne hij with h | h
    · rw [abs_sub_comm]; exact (gap i j h).1.trans (le_abs_self _)
    · exact (gap j i h).1.trans (le_abs_self _)
  have hdist : ∀ i j : Fin w.length, |x i - x j| ≤ 5.05 := by
    intro i j
    rcases lt_trichotomy i j with h | h | h
    · rw [abs_sub_comm, abs_of_nonneg (by linarith [(gap i j h).1])]; exact (gap i j h).2
    · subst h; simp; norm_num
    · rw [abs_of_nonneg (by linarith [(gap j i h).1])]; exact (gap j i h).2
  have ht : ∀ j : Fin w.length, |t - x j| ≤ 5.05 := by
    intro j
    obtain ⟨r1, m1, l1⟩ := h1
    obtain ⟨r2, m2, l2⟩ := h2
    obtain ⟨i1, n1, e1⟩ := List.getElem_of_mem m1
    obtain ⟨i2, n2, e2⟩ := List.getElem_of_mem m2
    have a1 := abs_le.mp (hdist ⟨i1, n1⟩ j)
    have a2 := abs_le.mp (hdist ⟨i2, n2⟩ j)
    have b1 : x ⟨i1, n1⟩ = (r1.t : ℝ) := by simp only [hx]; rw [← e1]; rfl
    have b2 : x ⟨i2, n2⟩ = (r2.t : ℝ) := by simp only [hx]; rw [← e2]; rfl
    rw [b1] at a1
    rw [b2] at a2
    rw [abs_le]
    constructor <;> linarith [a1.1, a1.2, a2.1, a2.2]
  have hinj : Set.InjOn x (Finset.univ : Finset (Fin w.length)) := by
    intro i _ j _ hij
    by_contra hc
    have := hne i j hc
    rw [hij, sub_self, abs_zero] at this
    norm_num at this
  have hp : p = Lagrange.interpolate Finset.univ x fun i => q w[i] :=
    Lagrange.eq_interpolate_of_eval_eq _ hinj (by simpa using p1) fun i _ => p2 w[i] (List.getElem_mem _)
  rw [hp, Lagrange.interpolate_apply, Polynomial.eval_finsetSum]
  refine (Finset.abs_sum_le_sum_abs _ _).trans ?_
  have hterm : ∀ i ∈ (Finset.univ : Finset (Fin w.length)), |(C (q w[i]) * Lagrange.basis Finset.univ x i).eval t| ≤ b * 3500 := by
    intro i _
    rw [Polynomial.eval_mul, Polynomial.eval_C, abs_mul]
    refine mul_le_mul (hb _ (List.getElem_mem _)) ?_ (abs_nonneg _) hb0
    unfold Lagrange.basis
    rw [Polynomial.eval_prod, Finset.abs_prod]
    have hfac : ∀ j ∈ Finset.univ.erase i, |(Lagrange.basisDivisor (x i) (x j)).eval t| ≤ 5.11 := by
      intro j hj
      have hij := hne i j (Finset.ne_of_mem_erase hj).symm
      unfold Lagrange.basisDivisor
      simp only [eval_mul, eval_C, eval_sub, eval_X]
      rw [abs_mul, abs_inv, inv_mul_le_iff₀ (by linarith)]
      linarith [ht j]
    refine (Finset.prod_le_prod (fun _ _ => abs_nonneg _) hfac).trans ?_
    rw [Finset.prod_const, Finset.card_erase_of_mem (Finset.mem_univ _), Finset.card_univ, Fintype.card_fin]
    refine (pow_le_pow_right₀ (by norm_num) (show w.length - 1 ≤ 5 by omega)).trans ?_
    norm_num
  refine (Finset.sum_le_sum hterm).trans ?_
  rw [Finset.sum_const, Finset.card_univ, Fintype.card_fin, nsmul_eq_mul]
  have : (w.length : ℝ) ≤ 6 := by exact_mod_cast hn
  nlinarith

/-- Daily records with corrections of the CIP up to 0.1 arcseconds give corrections below a degree. -/
theorem small_of_daily {recs : List (Rec ℚ)} (hd : Daily recs) (hX : ∀ r ∈ recs, |r.dX| ≤ 0.1) (hY : ∀ r ∈ recs, |r.dY| ≤ 0.1) {t : ℝ}
    (ht : |centuries t| ≤ 10) : Small recs t := by
  refine ⟨ht, ?_⟩
  rintro e ⟨l, r, a, b, hn, -, -, -, hE⟩
  obtain ⟨pre, post, hsplit, -⟩ := hn.split
  have hsub : ∀ x ∈ l ++ r, x ∈ recs := by
    intro x hx
    rw [hsplit]
    simp only [List.mem_append] at hx ⊢
    tauto
  have hw : Daily (l ++ r) := by
    unfold Daily at hd ⊢
    rw [hsplit, List.append_assoc pre, List.append_assoc pre] at hd
    exact hd.right_of_append.left_of_append
  have hlen : (l ++ r).length ≤ 6 := by
    rw [List.length_append]
    have := hn.same
    have := hn.most
    omega
  have n1 : ∃ x ∈ l ++ r, (x.t : ℝ) ≤ t := by
    obtain ⟨x, hx⟩ := List.exists_mem_of_length_pos (show 0 < l.length from hn.some)
    exact ⟨x, by simp [hx], hn.left x hx⟩
  have n2 : ∃ x ∈ l ++ r, t < (x.t : ℝ) := by
    obtain ⟨x, hx⟩ := List.exists_mem_of_length_pos (show 0 < r.length by have := hn.same; have := hn.some; omega)
    exact ⟨x, by simp [hx], hn.right x hx⟩
  have cast : ∀ v : ℚ, |v| ≤ 0.1 → |(v : ℝ)| ≤ 0.1 := by
    intro v hv
    have := (Rat.cast_le (K := ℝ)).mpr hv
    push_cast at this
    linarith
  have b1 := through_small hw hlen (b := 0.1) (fun x hx => cast _ (hX x (hsub x hx))) n1 n2 hE.dX
  have b2 := through_small hw hlen (b := 0.1) (fun x hx => cast _ (hY x (hsub x hx))) n1 n2 hE.dY
  constructor <;> linarith

end Verif.Orient
