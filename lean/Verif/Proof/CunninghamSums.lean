import Verif.Proof.CunninghamTerms
import Verif.Proof.CunninghamFill
import Mathlib.Algebra.BigOperators.Intervals
import Mathlib.Analysis.Calculus.Deriv.Add
import Mathlib.Analysis.Calculus.Deriv.Mul
/-
The sums of the second part, as finite sums of the terms, and their derivatives.
-/
namespace Verif

noncomputable instance : AddCommMonoid V3 where
  add_assoc a b c := by ext <;> simp only [V3.add_x, V3.add_y, V3.add_z] <;> ring
  zero_add a := by ext <;> simp
  add_zero a := by ext <;> simp
  add_comm a b := by ext <;> simp only [V3.add_x, V3.add_y, V3.add_z] <;> ring
  nsmul := nsmulRec

noncomputable instance : AddCommMonoid M3 where
  add_assoc a b c := by simp only [M3.add_def, add_assoc]
  zero_add a := by simp only [M3.add_def, M3.zero_def, zero_add]
  add_zero a := by simp only [M3.add_def, M3.zero_def, add_zero]
  add_comm a b := by simp only [M3.add_def]; ext <;> simp only <;> ring
  nsmul := nsmulRec

namespace Harmonic

theorem dot_add (a b d : V3) : (a + b).dot d = a.dot d + b.dot d := by
  unfold V3.dot; simp only [V3.add_x, V3.add_y, V3.add_z]; ring

theorem zero_dot (d : V3) : (0 : V3).dot d = 0 := by unfold V3.dot; simp

theorem smul_dot (s : ℝ) (a d : V3) : (s * a).dot d = s * a.dot d := by
  unfold V3.dot; simp only [V3.smul_x, V3.smul_y, V3.smul_z]; ring

/-- A sum of functions with gradients. -/
theorem deriv_sum {ι : Type} (s : Finset ι) (f : ι → ℝ → ℝ) (v : ι → V3) (d : V3) (t : ℝ) (h : ∀ i ∈ s, HasDerivAt (f i) (1 / 2 * (v i).dot d) t) :
    HasDerivAt (fun τ => ∑ i ∈ s, f i τ) (1 / 2 * (∑ i ∈ s, v i).dot d) t := by
  classical
  induction s using Finset.induction_on with
  | empty => simp only [Finset.sum_empty, zero_dot, mul_zero]; exact hasDerivAt_const _ _
  | insert a s ha ih =>
    simp only [Finset.sum_insert ha, dot_add, mul_add]
    exact (h a (Finset.mem_insert_self a s)).add (ih fun i hi => h i (Finset.mem_insert_of_mem hi))

theorem moves_zero (t : ℝ) : Moves (fun _ => 0) 0 t := ⟨hasDerivAt_const _ _, hasDerivAt_const _ _, hasDerivAt_const _ _⟩

theorem Moves.add {p q : ℝ → V3} {v w : V3} {t : ℝ} (h : Moves p v t) (k : Moves q w t) : Moves (fun τ => p τ + q τ) (v + w) t :=
  ⟨h.1.add k.1, h.2.1.add k.2.1, h.2.2.add k.2.2⟩

theorem Moves.smul {p : ℝ → V3} {v : V3} {t : ℝ} (c : ℝ) (h : Moves p v t) : Moves (fun τ => c * p τ) (c * v) t :=
  ⟨h.1.const_mul c, h.2.1.const_mul c, h.2.2.const_mul c⟩

theorem half_add (A B : M3) (d : V3) : (1 / 2 : ℝ) * ((A + B) * d) = (1 / 2 : ℝ) * (A * d) + (1 / 2 : ℝ) * (B * d) := by
  simp only [M3.add_def, M3.mulVec_def]
  ext <;> simp only [V3.smul_x, V3.smul_y, V3.smul_z, V3.add_x, V3.add_y, V3.add_z] <;> ring

theorem half_zero (d : V3) : (1 / 2 : ℝ) * ((0 : M3) * d) = 0 := by
  simp only [M3.zero_def, M3.mulVec_def]
  ext <;> simp

theorem moves_sum {ι : Type} (s : Finset ι) (p : ι → ℝ → V3) (A : ι → M3) (d : V3) (t : ℝ) (h : ∀ i ∈ s, Moves (p i) ((1 / 2 : ℝ) * (A i * d)) t) :
    Moves (fun τ => ∑ i ∈ s, p i τ) ((1 / 2 : ℝ) * ((∑ i ∈ s, A i) * d)) t := by
  classical
  induction s using Finset.induction_on with
  | empty => simp only [Finset.sum_empty, half_zero]; exact moves_zero t
  | insert a s ha ih =>
    simp only [Finset.sum_insert ha, half_add]
    exact (h a (Finset.mem_insert_self a s)).add (ih fun i hi => h i (Finset.mem_insert_of_mem hi))

end Harmonic

namespace Cunningham
open Verif Verif.Legendre Verif.Harmonic

/-- Both arrays as one complex function. -/
noncomputable def F (s : Tri × Tri) (n m : ℕ) : ℂ := ⟨s.1.val n m, s.2.val n m⟩

/-- A position in both buffers. -/
def Reach2 (s : Tri × Tri) (i j : Int) : Prop := s.1.Reach i j ∧ s.2.Reach i j

theorem rd_bind {α : Type} {s : Tri × Tri} {i j : Int} (h : Reach2 s i j) (f : ℝ × ℝ → Res α) : (rd s i j).bind f = f (s.1.val i j, s.2.val i j) := by
  unfold rd
  rw [Tri.get_reach h.1, Tri.get_reach h.2]
  rfl

theorem get_bind_reach {α : Type} {t : Tri} {i j : Int} (h : t.Reach i j) (f : ℝ → Res α) : (t.get i j).bind f = f (t.val i j) := by
  rw [Tri.get_reach h]; rfl

theorem two_cases (k : ℕ) : (if ((k : Int) + 2 = 2) then Real.sqrt 2 else 1) = two k := by
  unfold two
  by_cases h : k = 0
  · rw [if_pos h, if_pos (by omega)]
  · rw [if_neg h, if_neg (by omega)]

theorem two_succ (k : ℕ) : two (k + 1) = 1 := if_neg (by omega)

theorem term_ok (C S : Int → Int → ℝ) (s : Tri × Tri) (k n : ℕ) (o : Out)
    (h1 : ∀ j : Int, k + 1 ≤ j → j ≤ k + 3 → Reach2 s (n + 1) j) (h2 : ∀ j : Int, k ≤ j → j ≤ k + 4 → Reach2 s (n + 2) j) :
    term C S s (k + 2) n o = .ok ⟨o.a + accT n (k + 1) (C n (k + 2)) (S n (k + 2)) (F s), o.g + gradT n k (C n (k + 2)) (S n (k + 2)) (F s)⟩ := by
  unfold term
  rw [rd_bind (h1 _ (by omega) (by omega)), rd_bind (h1 _ (by omega) (by omega)), rd_bind (h1 _ (by omega) (by omega)),
    rd_bind (h2 _ (by omega) (by omega)), rd_bind (h2 _ (by omega) (by omega)), rd_bind (h2 _ (by omega) (by omega)), rd_bind (h2 _ (by omega) (by omega)), rd_bind (h2 _ (by omega) (by omega))]
  rw [show (k : Int) + 2 - 1 = k + 1 from by ring, show (k : Int) + 2 - 2 = k from by ring, show (k : Int) + 2 + 1 = k + 3 from by ring,
    show (k : Int) + 2 + 2 = k + 4 from by ring, two_cases]
  unfold Out.add accT gradT F fa fb sym
  rw [two_succ]
  push_cast
  rw [show (n : ℝ) - (k + 2) + 1 = n - k - 1 from by ring, show (n : ℝ) - (k + 2) + 2 = n - k from by ring, show (n : ℝ) - (k + 2) + 3 = n - k + 1 from by ring,
    show (n : ℝ) - (k + 2) + 4 = n - k + 2 from by ring, show (n : ℝ) + (k + 2) + 1 = n + k + 3 from by ring, show (n : ℝ) + (k + 2) + 2 = n + k + 4 from by ring,
    show (n : ℝ) + (k + 2) + 3 = n + k + 5 from by ring, show (n : ℝ) + (k + 2) + 4 = n + k + 6 from by ring,
    show (n : ℝ) - (k + 1) = n - k - 1 from by ring, show (n : ℝ) - k - 1 + 1 = n - k from by ring, show (n : ℝ) + (k + 1) + 2 = n + k + 3 from by ring,
    show (n : ℝ) + (k + 1) + 3 = n + k + 4 from by ring, show (k : Int) + 1 + 1 = k + 2 from by ring, show (k : Int) + 1 + 2 = k + 3 from by ring, mul_one]

theorem term1_ok (C S : Int → Int → ℝ) (s : Tri × Tri) (n : ℕ) (o : Out)
    (h1 : ∀ j : Int, 0 ≤ j → j ≤ 2 → Reach2 s (n + 1) j) (h2 : ∀ j : Int, 0 ≤ j → j ≤ 3 → Reach2 s (n + 2) j) :
    term1 C S s n o = .ok ⟨o.a + accT n 0 (C n 1) (S n 1) (F s), o.g + gradT1 n (C n 1) (S n 1) (F s)⟩ := by
  unfold term1
  rw [rd_bind (h1 _ (by omega) (by omega)), rd_bind (h1 _ (by omega) (by omega)), rd_bind (h1 _ (by omega) (by omega)),
    rd_bind (h2 _ (by omega) (by omega)), rd_bind (h2 _ (by omega) (by omega)), rd_bind (h2 _ (by omega) (by omega)), rd_bind (h2 _ (by omega) (by omega))]
  unfold Out.add accT gradT1 F fa fb sym
  rw [show two 0 = Real.sqrt 2 from if_pos rfl]
  push_cast
  rw [show (n : ℝ) - 1 + 1 = n from by ring, show (n : ℝ) - 1 + 2 = n + 1 from by ring, show (n : ℝ) - 1 + 3 = n + 2 from by ring,
    show (n : ℝ) + 1 + 1 = n + 2 from by ring, show (n : ℝ) + 1 + 2 = n + 3 from by ring, show (n : ℝ) + 1 + 3 = n + 4 from by ring, show (n : ℝ) + 1 + 4 = n + 5 from by ring]
  simp only [sub_zero, add_zero, zero_add]

theorem term0_ok (C : Int → Int → ℝ) (s : Tri × Tri) (n : ℕ) (o : Out)
    (h1 : ∀ j : Int, 0 ≤ j → j ≤ 1 → Reach2 s (n + 1) j) (h2 : ∀ j : Int, 0 ≤ j → j ≤ 2 → Reach2 s (n + 2) j) :
    term0 C s n o = .ok ⟨o.a + accT0 n (C n 0) (F s), o.g + gradT0 n (C n 0) (F s)⟩ := by
  unfold term0
  rw [get_bind_reach (h1 _ (by omega) (by omega)).1, rd_bind (h1 _ (by omega) (by omega)),
    get_bind_reach (h2 _ (by omega) (by omega)).1, rd_bind (h2 _ (by omega) (by omega)), rd_bind (h2 _ (by omega) (by omega))]
  unfold Out.add accT0 gradT0 F fa fb sym
  push_cast
  rfl

/-- A loop that adds. -/
theorem forEach_sum {l : List Int} {f : Int → Out → Res Out} {a : Int → V3} {g : Int → M3} (h : ∀ i ∈ l, ∀ o, f i o = .ok ⟨o.a + a i, o.g + g i⟩) (o : Out) :
    forEach l f o = .ok ⟨o.a + (l.map a).sum, o.g + (l.map g).sum⟩ := by
  induction l generalizing o with
  | nil => simp [forEach]
  | cons i l ih =>
    rw [forEach, Tri.bind_of (h i (List.mem_cons_self ..) o), ih (fun j hj => h j (List.mem_cons_of_mem _ hj))]
    simp only [List.map_cons, List.sum_cons, add_assoc]

theorem irange_sum {α : Type} [AddCommMonoid α] (f : Int → α) (a b : Int) : ((irange a b).reverse.map f).sum = ∑ k ∈ Finset.range (b + 1 - a).toNat, f (a + k) := by
  rw [List.map_reverse, List.sum_reverse]
  unfold irange
  rw [List.map_map]
  generalize (b + 1 - a).toNat = N
  induction N with
  | zero => rfl
  | succ N ih => rw [List.range_succ, List.map_append, List.sum_append, ih, Finset.sum_range_succ]; simp

theorem mem_irange_reverse {a b i : Int} (h : i ∈ (irange a b).reverse) : a ≤ i ∧ i ≤ b := by
  rw [List.mem_reverse] at h
  unfold irange at h
  obtain ⟨k, hk, rfl⟩ := List.mem_map.1 h
  have := List.mem_range.1 hk
  omega

/-- The sum of the accelerations. -/
noncomputable def accSum (C S : ℕ → ℕ → ℝ) (deg q : ℕ) (G : ℕ → ℕ → ℂ) : V3 :=
  ∑ k ∈ Finset.range q, ∑ j ∈ Finset.range (deg + 1 - (k + 2)), accT (k + 2 + j) (k + 1) (C (k + 2 + j) (k + 2)) (S (k + 2 + j) (k + 2)) G +
  ∑ j ∈ Finset.range (deg + 1 - 1), accT (1 + j) 0 (C (1 + j) 1) (S (1 + j) 1) G +
  ∑ j ∈ Finset.range (deg + 1), accT0 (0 + j) (C (0 + j) 0) G

/-- The sum of the gradients. -/
noncomputable def gradSum (C S : ℕ → ℕ → ℝ) (deg q : ℕ) (G : ℕ → ℕ → ℂ) : M3 :=
  ∑ k ∈ Finset.range q, ∑ j ∈ Finset.range (deg + 1 - (k + 2)), gradT (k + 2 + j) k (C (k + 2 + j) (k + 2)) (S (k + 2 + j) (k + 2)) G +
  ∑ j ∈ Finset.range (deg + 1 - 1), gradT1 (1 + j) (C (1 + j) 1) (S (1 + j) 1) G +
  ∑ j ∈ Finset.range (deg + 1), gradT0 (0 + j) (C (0 + j) 0) G

/-- All reads of the second part are in the buffers. -/
def Readable (deg ord : ℕ) (s : Tri × Tri) : Prop :=
  (∀ n j : Int, 0 ≤ n → n ≤ deg → 0 ≤ j → j ≤ n + 1 → Reach2 s (n + 1) j) ∧
  (∀ n j : Int, 0 ≤ n → n ≤ deg → 0 ≤ j → j ≤ n + 2 → (j ≤ ord + 2 ∨ j ≤ 3) → Reach2 s (n + 2) j)

theorem sums_ok (C' S' : Int → Int → ℝ) (deg ord : ℕ) (s : Tri × Tri) (h : Readable deg ord s) :
    sums C' S' deg ord s = .ok ⟨accSum (fun n m => C' n m) (fun n m => S' n m) deg (ord - 1) (F s), gradSum (fun n m => C' n m) (fun n m => S' n m) deg (ord - 1) (F s)⟩ := by
  set C : ℕ → ℕ → ℝ := fun n m => C' n m with hC
  set S : ℕ → ℕ → ℝ := fun n m => S' n m with hS
  obtain ⟨R1, R2⟩ := h
  unfold sums
  have t2 : ∀ m ∈ (irange 2 (ord : Int)).reverse, ∀ o, forEach (irange m deg).reverse (term C' S' s m) o =
      .ok ⟨o.a + ((irange m deg).reverse.map fun n => accT n.toNat (m - 1).toNat (C n.toNat m.toNat) (S n.toNat m.toNat) (F s)).sum,
        o.g + ((irange m deg).reverse.map fun n => gradT n.toNat (m - 2).toNat (C n.toNat m.toNat) (S n.toNat m.toNat) (F s)).sum⟩ := by
    intro m hm o
    have hm' := mem_irange_reverse hm
    refine forEach_sum (fun n hn o => ?_) o
    have hn' := mem_irange_reverse hn
    obtain ⟨k, rfl⟩ : ∃ k : ℕ, m = k + 2 := ⟨(m - 2).toNat, by omega⟩
    obtain ⟨n, rfl⟩ : ∃ k : ℕ, n = k := ⟨n.toNat, by omega⟩
    rw [term_ok _ _ s k n o (fun j a b => R1 n j (by omega) (by omega) (by omega) (by omega)) (fun j a b => R2 n j (by omega) (by omega) (by omega) (by omega) (by omega))]
    rw [show ((k : Int) + 2 - 1).toNat = k + 1 from by omega, show ((k : Int) + 2 - 2).toNat = k from by omega, show ((k : Int) + 2).toNat = k + 2 from by omega]
    rfl
  have t1 : ∀ n ∈ (irange 1 (deg : Int)).reverse, ∀ o, term1 C' S' s n o =
      .ok ⟨o.a + accT n.toNat 0 (C n.toNat 1) (S n.toNat 1) (F s), o.g + gradT1 n.toNat (C n.toNat 1) (S n.toNat 1) (F s)⟩ := by
    intro n hn o
    have hn' := mem_irange_reverse hn
    obtain ⟨n, rfl⟩ : ∃ k : ℕ, n = k := ⟨n.toNat, by omega⟩
    rw [term1_ok _ _ s n o (fun j a b => R1 n j (by omega) (by omega) (by omega) (by omega)) (fun j a b => R2 n j (by omega) (by omega) (by omega) (by omega) (by omega))]
    rfl
  have t0 : ∀ n ∈ (irange 0 (deg : Int)).reverse, ∀ o, term0 C' s n o =
      .ok ⟨o.a + accT0 n.toNat (C n.toNat 0) (F s), o.g + gradT0 n.toNat (C n.toNat 0) (F s)⟩ := by
    intro n hn o
    have hn' := mem_irange_reverse hn
    obtain ⟨n, rfl⟩ : ∃ k : ℕ, n = k := ⟨n.toNat, by omega⟩
    rw [term0_ok _ s n o (fun j a b => R1 n j (by omega) (by omega) (by omega) (by omega)) (fun j a b => R2 n j (by omega) (by omega) (by omega) (by omega) (by omega))]
    rfl
  rw [Tri.bind_of (forEach_sum t2 _), Tri.bind_of (forEach_sum t1 _), forEach_sum t0]
  simp only [irange_sum, zero_add]
  unfold accSum gradSum
  have eo : ((ord : Int) + 1 - 2).toNat = ord - 1 := by omega
  have e1 : ((deg : Int) + 1 - 1).toNat = deg + 1 - 1 := by omega
  have e0 : ((deg : Int) + 1 - 0).toNat = deg + 1 := by omega
  have n0 : ∀ j : ℕ, ((j : ℕ) : Int).toNat = j := fun j => by omega
  have n1 : ∀ j : ℕ, (1 + (j : Int)).toNat = 1 + j := fun j => by omega
  have n2 : ∀ k : ℕ, (2 + (k : Int)).toNat = k + 2 := fun k => by omega
  have n3 : ∀ k : ℕ, (2 + (k : Int) - 1).toNat = k + 1 := fun k => by omega
  have n4 : ∀ k : ℕ, (2 + (k : Int) - 2).toNat = k := fun k => by omega
  have n5 : ∀ k j : ℕ, (2 + (k : Int) + j).toNat = k + 2 + j := fun k j => by omega
  have n6 : ∀ k : ℕ, ((deg : Int) + 1 - (2 + k)).toNat = deg + 1 - (k + 2) := fun k => by omega
  simp only [eo, e1, e0, n0, n1, n2, n3, n4, n5, n6, zero_add]

end Cunningham
end Verif
