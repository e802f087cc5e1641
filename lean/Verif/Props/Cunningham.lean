import Verif.Proof.CunninghamGrad
import Verif.Props.AlfD
/-
Properties C56, C57, C58: acceleration and gradient of the gravity field.
-/
namespace Verif.Cunningham
open Verif Verif.Legendre Verif.Harmonic

/-- Rows of a work array with which the computation stays inside it. The wrapper accepts, and creates, `degree + 2` rows. -/
def Enough (deg ord rows : ℕ) : Prop := deg + 3 ≤ rows ∨ (rows = deg + 2 ∧ ord + 2 ≤ deg ∧ 3 ≤ deg)

/-- The coefficients by degree and order. -/
def Coeffs.c (cs : Coeffs) (n m : ℕ) : ℝ := cs.C n m
def Coeffs.s (cs : Coeffs) (n m : ℕ) : ℝ := cs.S n m

theorem readable {deg ord : ℕ} (ho : ord ≤ deg) {S : Tri × Tri} (h1 : Enough deg ord S.1.rows) (h2 : Enough deg ord S.2.rows) : Readable deg ord S := by
  have reach : ∀ t : Tri, Enough deg ord t.rows → (∀ n j : Int, 0 ≤ n → n ≤ deg → 0 ≤ j → j ≤ n + 1 → t.Reach (n + 1) j) ∧
      (∀ n j : Int, 0 ≤ n → n ≤ deg → 0 ≤ j → j ≤ n + 2 → (j ≤ ord + 2 ∨ j ≤ 3) → t.Reach (n + 2) j) := by
    intro t h
    constructor
    · intro n j a b c d
      rcases h with h | ⟨h, _, _⟩ <;> exact Or.inl ⟨by omega, by omega, by omega⟩
    · intro n j a b c d e
      rcases h with h | ⟨h, h', h''⟩
      · exact Or.inl ⟨by omega, by omega, by omega⟩
      · by_cases k : n < deg
        · exact Or.inl ⟨by omega, by omega, by omega⟩
        · exact Or.inr ⟨by omega, by omega, by omega⟩
  exact ⟨fun n j a b c d => ⟨(reach _ h1).1 n j a b c d, (reach _ h2).1 n j a b c d⟩, fun n j a b c d e => ⟨(reach _ h1).2 n j a b c d e, (reach _ h2).2 n j a b c d e⟩⟩

theorem impl_ok (cs : Coeffs) (r : V3) (deg ord : ℕ) (Re GM : ℝ) (W M : Tri) (hd : deg ≤ 198) (ho : ord ≤ deg) (hW : Enough deg ord W.rows) (hM : Enough deg ord M.rows) :
    ∃ s, fill r Re deg ord (M, W) = .ok s ∧ Ready (scaled r Re) deg ord (M, W) s ∧
      impl cs.C cs.S r deg ord Re GM W M = .ok ⟨GM / (2 * Re * Re) * accSum cs.c cs.s deg (ord - 1) (F s), GM / (4 * Re * Re * Re) * gradSum cs.c cs.s deg (ord - 1) (F s)⟩ := by
  have room : ∀ R, Enough deg ord R → deg + 2 ≤ R ∧ ord + 2 < R := by
    intro R h; rcases h with h | ⟨h, _, _⟩ <;> omega
  obtain ⟨s, e, g⟩ := fill_spec r Re deg ord hd ho (M, W) (room _ hM).1 (room _ hM).2 (room _ hW).1 (room _ hW).2
  refine ⟨s, e, g, ?_⟩
  unfold impl
  have R := readable ho (S := s) (by rw [g.r1]; exact hM) (by rw [g.r2]; exact hW)
  rw [if_neg (by omega), Tri.bind_of e, Tri.bind_of (sums_ok cs.C cs.S deg ord s R)]
  rfl

theorem gradient_eq (cs : Coeffs) (r : V3) (deg ord : ℕ) (Re GM : ℝ) (W M : Tri) (junk : Int → ℝ) (ho : ord ≤ deg) (h1 : deg ≤ cs.degree) (h2 : ord ≤ cs.order) (hRe : 0 ≤ Re) (hGM : 0 ≤ GM)
    (hW : deg + 2 ≤ W.rows) (hM : deg + 2 ≤ M.rows) :
    gradient cs r deg ord Re GM (some W) (some M) junk = (impl cs.C cs.S r deg ord Re GM W M).bind fun o => .ok (some o) := by
  unfold gradient
  simp only [Option.getD_some]
  rw [if_neg (show ¬((deg : Int) < 0) from by omega), if_neg (show ¬((ord : Int) < 0) from by omega), if_neg (by omega), if_neg (by omega), if_neg (by omega), if_neg (by omega),
    if_neg (not_lt.2 hRe), if_neg (not_lt.2 hGM)]

theorem enough_rows {deg ord R : ℕ} (h : Enough deg ord R) : deg + 2 ≤ R := by
  rcases h with h | ⟨h, _, _⟩ <;> omega

/-- C56, partial: the computation stays inside its work arrays. Missing: the sizes that are accepted but too small (see `exact_size_fails`). -/
theorem in_bounds_partial (cs : Coeffs) (r : V3) (deg ord : ℕ) (Re GM : ℝ) (W M : Tri) (junk : Int → ℝ) (hd : deg ≤ 198) (ho : ord ≤ deg) (h1 : deg ≤ cs.degree) (h2 : ord ≤ cs.order)
    (hRe : 0 ≤ Re) (hGM : 0 ≤ GM) (hW : Enough deg ord W.rows) (hM : Enough deg ord M.rows) :
    ∃ o, gradient cs r deg ord Re GM (some W) (some M) junk = .ok (some o) := by
  obtain ⟨s, -, -, e⟩ := impl_ok cs r deg ord Re GM W M hd ho hW hM
  rw [gradient_eq cs r deg ord Re GM W M junk ho h1 h2 hRe hGM (enough_rows hW) (enough_rows hM), e]
  exact ⟨_, rfl⟩

/-- C56: what the work arrays held before has no influence (every read is of a cell that was written before), whatever the arguments. -/
theorem scratch_irrelevant (cs : Coeffs) (r : V3) (degree ord : Int) (Re GM : ℝ) (W M W' M' : Tri) (junk : Int → ℝ) (hW : W'.rows = W.rows) (hM : M'.rows = M.rows) :
    gradient cs r degree ord Re GM (some W') (some M') junk = gradient cs r degree ord Re GM (some W) (some M) junk := by
  have e : ∀ t t' : Tri, t'.rows = t.rows → t'.fill 0 = t.fill 0 := by
    intro t t' h
    unfold Tri.fill
    rw [h]
  have i : ∀ d o R G, impl cs.C cs.S r d o R G W' M' = impl cs.C cs.S r d o R G W M := by
    intro d o R G
    unfold impl fill
    rw [e M M' hM, e W W' hW]
  unfold gradient
  simp only [Option.getD_some, i, hW, hM]

/-- C56: the same if the arrays are created by the function. -/
theorem junk_irrelevant (cs : Coeffs) (r : V3) (degree ord : Int) (Re GM : ℝ) (junk junk' : Int → ℝ) :
    gradient cs r degree ord Re GM none none junk = gradient cs r degree ord Re GM none none junk' := by
  exact scratch_irrelevant cs r degree ord Re GM _ _ _ _ junk rfl rfl |>.trans rfl

/-- Negative arguments stand for those of the coefficient set. -/
theorem defaults (cs : Coeffs) (r : V3) (d o : Int) (Re GM : ℝ) (W M : Option Tri) (junk : Int → ℝ) (hd : d < 0) (ho : o < 0) (hR : Re < 0) (hG : GM < 0)
    (h1 : 0 ≤ cs.degree) (h2 : 0 ≤ cs.order) (h3 : 0 ≤ cs.Re) (h4 : 0 ≤ cs.GM) :
    gradient cs r d o Re GM W M junk = gradient cs r cs.degree cs.order cs.Re cs.GM W M junk := by
  unfold gradient
  rw [if_pos hd, if_pos ho, if_pos hR, if_pos hG, if_neg (not_lt.2 h1), if_neg (not_lt.2 h2), if_neg (not_lt.2 h3), if_neg (not_lt.2 h4)]

/-- C57, partial: the acceleration is the gradient of the potential truncated at the given degree and order. Missing: order 0 (see
`order_zero_fails`), the sizes of `Enough`, degrees over 198 (the program aborts). -/
theorem acceleration_is_gradient_partial (cs : Coeffs) (r : V3) (deg ord : ℕ) (Re GM : ℝ) (W M : Tri) (junk : Int → ℝ) (hd : deg ≤ 198) (h0 : 1 ≤ ord) (ho : ord ≤ deg) (h1 : deg ≤ cs.degree) (h2 : ord ≤ cs.order)
    (hRe : 0 < Re) (hGM : 0 ≤ GM) (hr : r ≠ 0) (hW : Enough deg ord W.rows) (hM : Enough deg ord M.rows) :
    ∃ o, gradient cs r deg ord Re GM (some W) (some M) junk = .ok (some o) ∧ IsGradient (potential GM Re cs.c cs.s deg ord) r o.a := by
  obtain ⟨s, -, g, e⟩ := impl_ok cs r deg ord Re GM W M hd ho hW hM
  rw [gradient_eq cs r deg ord Re GM W M junk ho h1 h2 hRe.le hGM (enough_rows hW) (enough_rows hM), e]
  refine ⟨_, rfl, ?_⟩
  obtain ⟨q, rfl⟩ : ∃ q, ord = q + 1 := ⟨ord - 1, by omega⟩
  have := accel_gradient (GM := GM) hRe cs.c cs.s deg q hr
  unfold accel at this
  rw [accSum_congr cs.c cs.s deg q (by omega) (Zat (scaled r Re)) (F s) (by
    intro n m a b c
    unfold F Zat
    have r1 := enough_rows hM
    have r2 := enough_rows hW
    have q1 := g.r1
    have q2 := g.r2
    dsimp only at q1 q2
    apply Complex.ext
    · exact (g.col1 n m a (by omega) (by omega) (by omega)).symm
    · exact (g.col2 n m a (by omega) (by omega) (by omega)).symm)] at this
  exact this

/-- C57, partial: with order equal to degree and work arrays of `degree + 3` rows, the returned matrix is the derivative of the gradient of the
potential: along every motion through the point the gradient changes at the rate matrix · velocity. Missing: order below degree (see
`gradient_order_fails`) and default arrays (see `exact_size_fails`). -/
theorem matrix_is_derivative_partial (cs : Coeffs) (r : V3) (deg : ℕ) (Re GM : ℝ) (W M : Tri) (junk : Int → ℝ) (hd : deg ≤ 198) (h0 : 1 ≤ deg) (h1 : deg ≤ cs.degree) (h2 : deg ≤ cs.order)
    (hRe : 0 < Re) (hGM : 0 ≤ GM) (hr : r ≠ 0) (hW : deg + 3 ≤ W.rows) (hM : deg + 3 ≤ M.rows) :
    ∃ o, gradient cs r deg deg Re GM (some W) (some M) junk = .ok (some o) ∧
      ∀ f : V3 → V3, (∀ v, v ≠ 0 → IsGradient (potential GM Re cs.c cs.s deg deg) v (f v)) →
        ∀ (p : ℝ → V3) (d : V3) (t : ℝ), p t = r → Moves p d t → Moves (fun τ => f (p τ)) (o.g * d) t := by
  obtain ⟨s, -, g, e⟩ := impl_ok cs r deg deg Re GM W M hd (le_refl _) (Or.inl hW) (Or.inl hM)
  rw [gradient_eq cs r deg deg Re GM W M junk (le_refl _) h1 h2 hRe.le hGM (by omega) (by omega), e]
  refine ⟨_, rfl, ?_⟩
  obtain ⟨q, rfl⟩ : ∃ q, deg = q + 1 := ⟨deg - 1, by omega⟩
  intro f hf p d t hp hm
  have h0 : p t ≠ 0 := by rw [hp]; exact hr
  have mv := accel_moves (GM := GM) hRe cs.c cs.s (q + 1) q hm h0
  have ev : ∀ᶠ τ in nhds t, f (p τ) = accel GM Re cs.c cs.s (q + 1) q (p τ) := by
    filter_upwards [moves_ne hm h0] with τ hτ
    exact gradient_unique (hf _ hτ) (accel_gradient hRe cs.c cs.s (q + 1) q hτ)
  unfold hess at mv
  rw [hp, gradSum_congr cs.c cs.s (q + 1) q (by omega) (Zat (scaled r Re)) (F s) (by
    intro n m a b c
    unfold F Zat
    have q1 := g.r1
    have q2 := g.r2
    dsimp only at q1 q2
    apply Complex.ext
    · exact (g.col1 n m a (by omega) (by omega) (by omega)).symm
    · exact (g.col2 n m a (by omega) (by omega) (by omega)).symm)] at mv
  refine ⟨mv.1.congr_of_eventuallyEq ?_, mv.2.1.congr_of_eventuallyEq ?_, mv.2.2.congr_of_eventuallyEq ?_⟩
  · filter_upwards [ev] with τ h using by rw [h]
  · filter_upwards [ev] with τ h using by rw [h]
  · filter_upwards [ev] with τ h using by rw [h]

/-- The hypotheses can be met: a field of degree and order 3, arrays of 6 rows. -/
example (r : V3) (hr : r ≠ 0) (C S : Int → Int → ℝ) : ∃ o, gradient ⟨3, 3, C, S, 5, 2⟩ r 3 3 2 5 (some ⟨6, fun _ => 7⟩) (some ⟨6, fun _ => 9⟩) (fun _ => 8) = .ok (some o) ∧
    IsGradient (potential 5 2 (fun n m => C n m) (fun n m => S n m) 3 3) r o.a :=
  acceleration_is_gradient_partial ⟨3, 3, C, S, 5, 2⟩ r 3 3 2 5 _ _ _ (by norm_num) (by norm_num) (by norm_num) (by norm_num) (by norm_num) (by norm_num) (by norm_num) hr (Or.inl (by norm_num)) (Or.inl (by norm_num))

/-! ### Symmetry and trace -/

/-- Symmetric and trace-free. -/
def Harm (g : M3) : Prop := g.transpose = g ∧ g.trace = 0

theorem harm_zero : Harm 0 := ⟨rfl, by simp [M3.trace, M3.zero_def]⟩

theorem harm_add {g : M3} (h : Harm g) (f gxx gxy gxz gyy gyz gzz : ℝ) (hz : gxx + gyy + gzz = 0) : Harm (g + f * (⟨gxx, gxy, gxz, gxy, gyy, gyz, gxz, gyz, gzz⟩ : M3)) := by
  obtain ⟨h1, h2⟩ := h
  have e := h1
  unfold M3.transpose at e
  have a := congrArg M3.xy e
  have b := congrArg M3.xz e
  have c := congrArg M3.yz e
  dsimp only at a b c
  constructor
  · unfold M3.transpose
    simp only [M3.add_def, M3.smul_def]
    ext <;> simp only <;> linarith
  · unfold M3.trace at *
    simp only [M3.add_def, M3.smul_def]
    linear_combination h2 + f * hz

theorem harm_smul {g : M3} (h : Harm g) (f : ℝ) : Harm (f * g) := by
  obtain ⟨h1, h2⟩ := h
  have e := h1
  unfold M3.transpose at e
  have a := congrArg M3.xy e
  have b := congrArg M3.xz e
  have c := congrArg M3.yz e
  dsimp only at a b c
  constructor
  · unfold M3.transpose
    simp only [M3.smul_def]
    ext <;> simp only [a, b, c]
  · unfold M3.trace at *
    simp only [M3.smul_def]
    linear_combination f * h2

theorem forEach_inv {κ : Type} {P : Out → Prop} {f : κ → Out → Res Out} (hf : ∀ i o o', P o → f i o = .ok o' → P o') : ∀ (l : List κ) (o o' : Out), P o → forEach l f o = .ok o' → P o'
  | [], o, o', h, e => by cases e; exact h
  | k :: l, o, o', h, e => by
    rw [forEach] at e
    cases hk : f k o with
    | ok a => rw [hk] at e; exact forEach_inv hf l a o' (hf k o a h hk) e
    | ub => rw [hk] at e; cases e
    | abort => rw [hk] at e; cases e
    | throw => rw [hk] at e; cases e

theorem bind_ok {α β : Type} {r : Res α} {f : α → Res β} {b : β} (h : r.bind f = .ok b) : ∃ a, r = .ok a ∧ f a = .ok b := by
  cases r with
  | ok a => exact ⟨a, rfl, h⟩
  | ub => cases h
  | abort => cases h
  | throw => cases h

theorem term_harm (C S : Int → Int → ℝ) (s : Tri × Tri) (m n : Int) (o o' : Out) (h : Harm o.g) (e : term C S s m n o = .ok o') : Harm o'.g := by
  unfold term at e
  obtain ⟨_, -, e⟩ := bind_ok e
  obtain ⟨_, -, e⟩ := bind_ok e
  obtain ⟨_, -, e⟩ := bind_ok e
  obtain ⟨_, -, e⟩ := bind_ok e
  obtain ⟨_, -, e⟩ := bind_ok e
  obtain ⟨_, -, e⟩ := bind_ok e
  obtain ⟨_, -, e⟩ := bind_ok e
  obtain ⟨_, -, e⟩ := bind_ok e
  cases e
  exact harm_add h _ _ _ _ _ _ _ (by ring)

theorem term1_harm (C S : Int → Int → ℝ) (s : Tri × Tri) (n : Int) (o o' : Out) (h : Harm o.g) (e : term1 C S s n o = .ok o') : Harm o'.g := by
  unfold term1 at e
  obtain ⟨_, -, e⟩ := bind_ok e
  obtain ⟨_, -, e⟩ := bind_ok e
  obtain ⟨_, -, e⟩ := bind_ok e
  obtain ⟨_, -, e⟩ := bind_ok e
  obtain ⟨_, -, e⟩ := bind_ok e
  obtain ⟨_, -, e⟩ := bind_ok e
  obtain ⟨_, -, e⟩ := bind_ok e
  cases e
  exact harm_add h _ _ _ _ _ _ _ (by ring)

theorem term0_harm (C : Int → Int → ℝ) (s : Tri × Tri) (n : Int) (o o' : Out) (h : Harm o.g) (e : term0 C s n o = .ok o') : Harm o'.g := by
  unfold term0 at e
  obtain ⟨_, -, e⟩ := bind_ok e
  obtain ⟨_, -, e⟩ := bind_ok e
  obtain ⟨_, -, e⟩ := bind_ok e
  obtain ⟨_, -, e⟩ := bind_ok e
  obtain ⟨_, -, e⟩ := bind_ok e
  cases e
  exact harm_add h _ _ _ _ _ _ _ (by ring)

theorem sums_harm (C S : Int → Int → ℝ) (d m : Int) (s : Tri × Tri) (o : Out) (e : sums C S d m s = .ok o) : Harm o.g := by
  unfold sums at e
  obtain ⟨o1, e1, e⟩ := bind_ok e
  obtain ⟨o2, e2, e⟩ := bind_ok e
  have h1 : Harm o1.g := forEach_inv (P := fun o => Harm o.g) (fun i o o' h k => forEach_inv (P := fun o => Harm o.g) (fun n o o' h k => term_harm C S s i n o o' h k) _ o o' h k) _ _ _ harm_zero e1
  have h2 : Harm o2.g := forEach_inv (P := fun o => Harm o.g) (fun n o o' h k => term1_harm C S s n o o' h k) _ _ _ h1 e2
  exact forEach_inv (P := fun o => Harm o.g) (fun n o o' h k => term0_harm C s n o o' h k) _ _ _ h2 e

/-- C58: whatever the arguments, a matrix that is returned is symmetric and has trace zero. -/
theorem symmetric_traceless (cs : Coeffs) (r : V3) (degree ord : Int) (Re GM : ℝ) (W M : Option Tri) (junk : Int → ℝ) (o : Out) (h : gradient cs r degree ord Re GM W M junk = .ok (some o)) :
    o.g.transpose = o.g ∧ o.g.trace = 0 := by
  unfold gradient at h
  dsimp only at h
  generalize (if degree < 0 then cs.degree else degree) = d at h
  generalize (if ord < 0 then cs.order else ord) = m at h
  split at h
  · cases h
  split at h
  · cases h
  split at h
  · cases h
  split at h
  · cases h
  obtain ⟨o', e, k⟩ := bind_ok h
  cases k
  unfold impl at e
  split at e
  · cases e
  obtain ⟨s, -, e⟩ := bind_ok e
  obtain ⟨o'', e', e⟩ := bind_ok e
  cases e
  exact harm_smul (sums_harm _ _ _ _ _ _ e') _

/-- Such calls exist, with a matrix that is not zero only by accident: any field of degree and order 3. -/
example (r : V3) (C S : Int → Int → ℝ) : ∃ o, gradient ⟨3, 3, C, S, 5, 2⟩ r 3 3 2 5 (some ⟨6, fun _ => 7⟩) (some ⟨6, fun _ => 9⟩) (fun _ => 8) = .ok (some o) :=
  in_bounds_partial ⟨3, 3, C, S, 5, 2⟩ r 3 3 2 5 _ _ _ (by norm_num) (by norm_num) (by norm_num) (by norm_num) (by norm_num) (by norm_num) (Or.inl (by norm_num)) (Or.inl (by norm_num))

/-! ### Disagreements -/

theorem gradient_none (cs : Coeffs) (r : V3) (deg ord : ℕ) (Re GM : ℝ) (junk : Int → ℝ) (ho : ord ≤ deg) (h1 : deg ≤ cs.degree) (h2 : ord ≤ cs.order) (hRe : 0 ≤ Re) (hGM : 0 ≤ GM) :
    gradient cs r deg ord Re GM none none junk = (impl cs.C cs.S r deg ord Re GM ⟨deg + 2, junk⟩ ⟨deg + 2, junk⟩).bind fun o => .ok (some o) :=
  gradient_eq cs r deg ord Re GM ⟨deg + 2, junk⟩ ⟨deg + 2, junk⟩ junk ho h1 h2 hRe hGM (le_refl _) (le_refl _)

theorem set_after {t : Tri} {r : ℕ} (h : t.rows = r + 1) (v : ℝ) : t.set (r + 1) r v = .ub := by
  apply if_neg
  obtain ⟨_, mm⟩ := t
  simp only at h
  subst h
  exact Alf.last_index r mm

theorem get_after {t : Tri} {r : ℕ} (h : t.rows = r + 1) : t.get (r + 1) r = .ub := by
  apply if_neg
  obtain ⟨_, mm⟩ := t
  simp only at h
  subst h
  exact Alf.last_index r mm

theorem bind_ub {α β : Type} {r : Res α} (h : r = .ub) (f : α → Res β) : r.bind f = .ub := by rw [h]; rfl

/-- C56: with order equal to degree, the arrays created by the function (and any arrays of `degree + 2` rows, which are accepted) are overrun, for
every degree. -/
theorem exact_size_fails (cs : Coeffs) (r : V3) (deg : ℕ) (Re GM : ℝ) (junk : Int → ℝ) (hd : deg ≤ 198) (h1 : deg ≤ cs.degree) (h2 : deg ≤ cs.order) (hRe : 0 ≤ Re) (hGM : 0 ≤ GM) :
    gradient cs r deg deg Re GM none none junk = .ub := by
  rw [gradient_none cs r deg deg Re GM junk (le_refl _) h1 h2 hRe hGM]
  apply bind_ub
  unfold impl
  rw [if_neg (by omega)]
  apply bind_ub
  obtain ⟨M0, M1, e1, k0, e2, M2, e3, G0⟩ := start_spec (scaled r Re) deg hd (⟨deg + 2, junk⟩, ⟨deg + 2, junk⟩) (le_refl _) (le_refl _)
  unfold fill
  dsimp only
  rw [show (⟨r.x / Re, r.y / Re, r.z / Re⟩ : V3) = scaled r Re from rfl, show r.x / Re = (scaled r Re).x from rfl, show r.y / Re = (scaled r Re).y from rfl,
    show r.z / Re = (scaled r Re).z from rfl]
  rw [Tri.bind_of e1, Tri.get_bind k0, Tri.bind_of e2, Tri.bind_of e3]
  apply bind_ub
  have q1 := G0.r1
  have q2 := G0.r2
  dsimp only at q1 q2
  obtain ⟨S, e4, G⟩ := orders_spec (scaled r Re) deg hd deg (⟨deg + 2, junk⟩, ⟨deg + 2, junk⟩) (M2, Tri.fill ⟨deg + 2, junk⟩ 0) (by dsimp only; omega) (by dsimp only; omega) (by dsimp only; omega) (by dsimp only; omega) (by omega) (by omega) G0
  have p1 := G.r1
  have p2 := G.r2
  dsimp only at p1 p2
  rw [Alf.irange_append (a := 1) (b := (deg : Int) + 1) deg (by omega), Alf.forEach_append, show (1 : Int) + deg - 1 = deg from by ring,
    show (scaled r Re).z * (1 / (scaled r Re).norm) ^ 2 = (scaled r Re).z / (scaled r Re).norm * (1 / (scaled r Re).norm) from by ring, Tri.bind_of e4,
    show (1 : Int) + deg = deg + 1 from by ring, irange_cons (le_refl _)]
  apply bind_ub
  have c := G.cols deg (by omega)
  have c' : Cols (scaled r Re) deg ((deg : Int) + 1) S := ⟨fun n a b cc => c.1 n a (by omega) cc, fun n a b cc => c.2 n a (by omega) cc⟩
  unfold order
  rw [Tri.bind_of (diag_spec (scaled r Re) deg (by omega) S (by omega) (by omega) c')]
  have f := f1_ok (deg + 1) 0 (by omega)
  push_cast at f
  dsimp only
  rw [Tri.bind_of f, Tri.get_bind ⟨by omega, by omega, by rw [Tri.upd_rows]; omega⟩]
  apply bind_ub
  have := set_after (t := S.1.upd (deg + 1) (deg + 1) (colv (κr (scaled r Re) (deg + 1)) ((scaled r Re).z / (scaled r Re).norm) (1 / (scaled r Re).norm) (deg + 1) (deg + 1))) (r := deg + 1) (by rw [Tri.upd_rows]; omega)
  push_cast at this
  exact this _

/-- Such calls exist: the call with only a coefficient set of degree and order 2. -/
example (r : V3) (C S : Int → Int → ℝ) (junk : Int → ℝ) : gradient ⟨2, 2, C, S, 5, 2⟩ r (-1) (-1) (-1) (-1) none none junk = .ub := by
  rw [defaults _ _ _ _ _ _ _ _ _ (by norm_num) (by norm_num) (by norm_num) (by norm_num) (by norm_num) (by norm_num) (by norm_num) (by norm_num)]
  exact exact_size_fails ⟨2, 2, C, S, 5, 2⟩ r 2 2 5 junk (by norm_num) (by norm_num) (by norm_num) (by norm_num) (by norm_num)

theorem irange_reverse {a b : Int} (h : a ≤ b) : (irange a b).reverse = b :: (irange a (b - 1)).reverse := by
  obtain ⟨k, hk⟩ : ∃ k : ℕ, b = a + k := ⟨(b - a).toNat, by omega⟩
  rw [Alf.irange_append (a := a) (b := b) k (by omega), hk, irange_cons (le_refl _), irange_nil (a := a + k + 1) (by omega)]
  simp

/-- C56: with order one below the degree, the arrays created by the function are read after their end. -/
theorem next_order_fails (cs : Coeffs) (r : V3) (ord : ℕ) (Re GM : ℝ) (junk : Int → ℝ) (ho : 2 ≤ ord) (hd : ord ≤ 197) (h1 : ord + 1 ≤ cs.degree) (h2 : ord ≤ cs.order) (hRe : 0 ≤ Re) (hGM : 0 ≤ GM) :
    gradient cs r (ord + 1) ord Re GM none none junk = .ub := by
  have e := gradient_none cs r (ord + 1) ord Re GM junk (by omega) (by push_cast; omega) h2 hRe hGM
  push_cast at e
  rw [e]
  apply bind_ub
  unfold impl
  rw [if_neg (by omega)]
  obtain ⟨s, e, g⟩ := fill_spec r Re (ord + 1) ord (by omega) (by omega) (⟨ord + 1 + 2, junk⟩, ⟨ord + 1 + 2, junk⟩) (le_refl _) (by dsimp only; omega) (le_refl _) (by dsimp only; omega)
  push_cast at e
  rw [Tri.bind_of e]
  apply bind_ub
  have p1 := g.r1
  have p2 := g.r2
  dsimp only at p1 p2
  unfold sums
  apply bind_ub
  rw [irange_reverse (by omega)]
  apply bind_ub
  dsimp only
  rw [irange_reverse (by omega)]
  apply bind_ub
  unfold term
  have R : ∀ i j : Int, 0 ≤ j → j ≤ i → i < ord + 3 → Reach2 s i j := fun i j a b c => ⟨Or.inl ⟨a, b, by omega⟩, Or.inl ⟨a, b, by omega⟩⟩
  have R' : ∀ j : Int, 0 ≤ j → j < ord + 2 → Reach2 s (ord + 1 + 2) j := fun j a b => ⟨Or.inr ⟨by omega, a, by omega⟩, Or.inr ⟨by omega, a, by omega⟩⟩
  rw [rd_bind (R _ _ (by omega) (by omega) (by omega)), rd_bind (R _ _ (by omega) (by omega) (by omega)), rd_bind (R _ _ (by omega) (by omega) (by omega)),
    rd_bind (R' _ (by omega) (by omega)), rd_bind (R' _ (by omega) (by omega)), rd_bind (R' _ (by omega) (by omega)), rd_bind (R' _ (by omega) (by omega))]
  apply bind_ub
  unfold rd
  apply bind_ub
  have := get_after (t := s.1) (r := ord + 2) (by omega)
  push_cast at this
  rw [show (ord : Int) + 1 + 2 = ord + 2 + 1 from by ring]
  exact this

example (r : V3) (C S : Int → Int → ℝ) (junk : Int → ℝ) : gradient ⟨3, 3, C, S, 5, 2⟩ r 3 2 2 5 none none junk = .ub :=
  next_order_fails ⟨3, 3, C, S, 5, 2⟩ r 2 2 5 junk (by norm_num) (by norm_num) (by norm_num) (by norm_num) (by norm_num) (by norm_num)

/-- Degrees over 198 end the program, whatever the arrays. -/
theorem degree_limit (cs : Coeffs) (r : V3) (deg ord : ℕ) (Re GM : ℝ) (W M : Tri) (junk : Int → ℝ) (hd : 198 < deg) (ho : ord ≤ deg) (h1 : deg ≤ cs.degree) (h2 : ord ≤ cs.order)
    (hRe : 0 ≤ Re) (hGM : 0 ≤ GM) (hW : deg + 2 ≤ W.rows) (hM : deg + 2 ≤ M.rows) : gradient cs r deg ord Re GM (some W) (some M) junk = .abort := by
  rw [gradient_eq cs r deg ord Re GM W M junk ho h1 h2 hRe hGM hW hM]
  unfold impl
  rw [if_pos (by omega)]
  rfl

/-- The zero function's gradient. -/
theorem gradient_zero (q : V3) : IsGradient (fun _ => 0) q 0 := by
  intro p v t _ _
  rw [zero_dot]
  exact hasDerivAt_const _ _

/-- Degree 1 and order 0: the acceleration is that of the potential of order 1. -/
theorem order_zero (cs : Coeffs) (r : V3) (Re GM : ℝ) (W M : Tri) (junk : Int → ℝ) (h1 : 1 ≤ cs.degree) (h2 : 0 ≤ cs.order) (hRe : 0 < Re) (hGM : 0 ≤ GM) (hr : r ≠ 0) (hW : 4 ≤ W.rows) (hM : 4 ≤ M.rows) :
    ∃ o, gradient cs r 1 0 Re GM (some W) (some M) junk = .ok (some o) ∧ IsGradient (potential GM Re cs.c cs.s 1 1) r o.a := by
  obtain ⟨s, -, g, e⟩ := impl_ok cs r 1 0 Re GM W M (by norm_num) (by norm_num) (Or.inl hW) (Or.inl hM)
  have e' := gradient_eq cs r 1 0 Re GM W M junk (by norm_num) (by simpa using h1) (by simpa using h2) hRe.le hGM (by omega) (by omega)
  push_cast at e e'
  rw [e', e]
  refine ⟨_, rfl, ?_⟩
  have := accel_gradient (GM := GM) hRe cs.c cs.s 1 0 hr
  unfold accel at this
  rw [accSum_congr cs.c cs.s 1 0 (by norm_num) (Zat (scaled r Re)) (F s) (by
    intro n m a b c
    unfold F Zat
    have q1 := g.r1
    have q2 := g.r2
    dsimp only at q1 q2
    apply Complex.ext
    · exact (g.col1 n m a (by omega) (by omega) (by omega)).symm
    · exact (g.col2 n m a (by omega) (by omega) (by omega)).symm)] at this
  exact this

/-- Coefficients that are all zero but one. -/
noncomputable def one (n m : Int) : Int → Int → ℝ := fun i j => if i = n ∧ j = m then 1 else 0

theorem line (q d : V3) : Moves (fun τ => q + τ * d) d 0 := by
  refine ⟨?_, ?_, ?_⟩
  · simpa using ((hasDerivAt_id (0 : ℝ)).mul_const d.x).const_add q.x
  · simpa using ((hasDerivAt_id (0 : ℝ)).mul_const d.y).const_add q.y
  · simpa using ((hasDerivAt_id (0 : ℝ)).mul_const d.z).const_add q.z

/-- C57: order 0 does not truncate at order 0. The only non-zero coefficient is of order 1, so that the potential truncated at order 0 is zero; the
acceleration is not. -/
theorem order_zero_fails : ∃ (cs : Coeffs) (r : V3) (W M : Tri) (o : Out), r ≠ 0 ∧ (∀ junk, gradient cs r 1 0 1 1 (some W) (some M) junk = .ok (some o)) ∧
    (∀ v, potential 1 1 cs.c cs.s 1 0 v = 0) ∧ o.a ≠ 0 ∧ ¬IsGradient (potential 1 1 cs.c cs.s 1 0) r o.a := by
  have hr : (⟨1, 0, 0⟩ : V3) ≠ 0 := by
    intro h
    have := congrArg V3.x h
    simp at this
  obtain ⟨o, e, g⟩ := order_zero ⟨1, 1, one 1 1, fun _ _ => 0, 1, 1⟩ ⟨1, 0, 0⟩ 1 1 ⟨4, fun _ => 0⟩ ⟨4, fun _ => 0⟩ (fun _ => 0) (by norm_num) (by norm_num) (by norm_num) (by norm_num) hr (by norm_num) (by norm_num)
  have hz : ∀ v, potential 1 1 (Coeffs.c ⟨1, 1, one 1 1, fun _ _ => 0, 1, 1⟩) (Coeffs.s ⟨1, 1, one 1 1, fun _ _ => 0, 1, 1⟩) 1 0 v = 0 := by
    intro v
    unfold potential
    refine Finset.sum_eq_zero fun n hn => Finset.sum_eq_zero fun m hm => ?_
    have : m = 0 := by rw [Finset.mem_range] at hm; omega
    subst this
    unfold harmonic Coeffs.c Coeffs.s one
    dsimp only
    rw [if_neg (by simp)]
    ring
  have hne : o.a ≠ 0 := by
    intro h0
    rw [h0] at g
    have k := g _ ⟨1, 0, 0⟩ 0 (by ext <;> simp) (line ⟨1, 0, 0⟩ ⟨1, 0, 0⟩)
    rw [zero_dot] at k
    have ev : (fun τ : ℝ => potential 1 1 (Coeffs.c ⟨1, 1, one 1 1, fun _ _ => 0, 1, 1⟩) (Coeffs.s ⟨1, 1, one 1 1, fun _ _ => 0, 1, 1⟩) 1 1 (⟨1, 0, 0⟩ + τ * (⟨1, 0, 0⟩ : V3))) =ᶠ[nhds 0]
        fun τ => Real.sqrt 3 * ((1 + τ) ^ 2)⁻¹ := by
      have pos : ∀ᶠ τ : ℝ in nhds 0, -1 < τ := eventually_gt_nhds (by norm_num)
      filter_upwards [pos] with τ hτ
      have hp : 0 < 1 + τ := by linarith
      have ep : (⟨1, 0, 0⟩ + τ * (⟨1, 0, 0⟩ : V3)) = ⟨1 + τ, 0, 0⟩ := by ext <;> simp
      have hv : (⟨1 + τ, 0, 0⟩ : V3) ≠ 0 := by
        intro h
        have := congrArg V3.x h
        simp at this
        linarith
      have nm : (⟨1 + τ, 0, 0⟩ : V3).norm = 1 + τ := by
        unfold V3.norm V3.dot
        simp only [mul_zero, add_zero]
        exact Real.sqrt_mul_self hp.le
      rw [ep, show potential 1 1 (Coeffs.c ⟨1, 1, one 1 1, fun _ _ => 0, 1, 1⟩) (Coeffs.s ⟨1, 1, one 1 1, fun _ _ => 0, 1, 1⟩) 1 1 = potential 1 1 (Coeffs.c ⟨1, 1, one 1 1, fun _ _ => 0, 1, 1⟩) (Coeffs.s ⟨1, 1, one 1 1, fun _ _ => 0, 1, 1⟩) 1 (0 + 1) from rfl, potential_eq one_pos _ _ _ _ hv]
      have sc : scaled ⟨1 + τ, 0, 0⟩ 1 = ⟨1 + τ, 0, 0⟩ := by unfold scaled; ext <;> simp
      rw [sc]
      unfold potSum
      simp only [Finset.range_zero, Finset.sum_empty, Finset.sum_range_succ, Coeffs.c, Coeffs.s, one, zero_add, zero_mul, add_zero, Nat.add_sub_cancel, Nat.cast_zero, Nat.cast_one]
      simp only [Z_re, κr, nm, colv, Q_11, pow_one, hor]
      simp
      field_simp
    have d2 : HasDerivAt (fun τ : ℝ => Real.sqrt 3 * ((1 + τ) ^ 2)⁻¹) (Real.sqrt 3 * (-(2 * (1 + 0) ^ 1 * 1) / ((1 + 0) ^ 2) ^ 2)) 0 := by
      have h1 : HasDerivAt (fun τ : ℝ => 1 + τ) 1 0 := by simpa using (hasDerivAt_id (0 : ℝ)).const_add 1
      have h2 := (h1.fun_pow 2).fun_inv (by norm_num)
      exact (h2.const_mul (Real.sqrt 3)).congr_deriv (by norm_num)
    have := (k.congr_of_eventuallyEq ev.symm).unique d2
    have s3 : 0 < Real.sqrt 3 := Real.sqrt_pos.2 (by norm_num)
    norm_num at this
  refine ⟨_, _, _, _, o, hr, fun junk => e, hz, hne, fun h => hne ?_⟩
  have : potential 1 1 (Coeffs.c ⟨1, 1, one 1 1, fun _ _ => 0, 1, 1⟩) (Coeffs.s ⟨1, 1, one 1 1, fun _ _ => 0, 1, 1⟩) 1 0 = fun _ => 0 := funext hz
  rw [this] at h
  exact gradient_unique h (gradient_zero _)

theorem fd_pos (m : ℕ) : 0 < fd m := by
  unfold fd
  split
  · exact Real.sqrt_pos.2 (by norm_num)
  · exact Real.sqrt_pos.2 (by positivity)

/-- C57: with order below the degree, the matrix is not the derivative of the gradient of the truncated potential, whatever the arrays (here of 5 rows):
degree 2, order 1, one coefficient of degree 2 and order 1. -/
theorem gradient_order_fails : ∃ (cs : Coeffs) (r : V3) (W M : Tri) (o : Out) (f : V3 → V3), r ≠ 0 ∧ (∀ junk, gradient cs r 2 1 1 1 (some W) (some M) junk = .ok (some o)) ∧
    (∀ v, v ≠ 0 → IsGradient (potential 1 1 cs.c cs.s 2 1) v (f v)) ∧ ∃ (p : ℝ → V3) (d : V3) (t : ℝ), p t = r ∧ Moves p d t ∧ ¬Moves (fun τ => f (p τ)) (o.g * d) t := by
  have hr : (⟨1, 0, 1⟩ : V3) ≠ 0 := by
    intro h
    have := congrArg V3.x h
    simp at this
  set cs : Coeffs := ⟨2, 1, one 2 1, fun _ _ => 0, 1, 1⟩ with hcs
  obtain ⟨s, -, g, e⟩ := impl_ok cs ⟨1, 0, 1⟩ 2 1 1 1 ⟨5, fun _ => 0⟩ ⟨5, fun _ => 0⟩ (by norm_num) (by norm_num) (Or.inl (by norm_num)) (Or.inl (by norm_num))
  have e' := fun junk => gradient_eq cs ⟨1, 0, 1⟩ 2 1 1 1 ⟨5, fun _ => 0⟩ ⟨5, fun _ => 0⟩ junk (by norm_num) (by rw [hcs]; norm_num) (by rw [hcs]; norm_num) (by norm_num) (by norm_num) (by norm_num) (by norm_num)
  push_cast at e e'
  rw [e] at e'
  refine ⟨cs, ⟨1, 0, 1⟩, _, _, _, accel 1 1 cs.c cs.s 2 0, hr, e', fun v hv => accel_gradient one_pos cs.c cs.s 2 0 hv, _, ⟨1, 0, 0⟩, 0, ?_, line ⟨1, 0, 1⟩ ⟨1, 0, 0⟩, ?_⟩
  · ext <;> simp
  have at0 : (⟨1, 0, 1⟩ : V3) + (0 : ℝ) * (⟨1, 0, 0⟩ : V3) = ⟨1, 0, 1⟩ := by ext <;> simp
  have mv := accel_moves (GM := 1) (Re := 1) one_pos cs.c cs.s 2 0 (line ⟨1, 0, 1⟩ ⟨1, 0, 0⟩) (by rw [at0]; exact hr)
  rw [at0] at mv
  intro h
  have u := h.1.unique mv.1
  have sc : scaled ⟨1, 0, 1⟩ 1 = ⟨1, 0, 1⟩ := by unfold scaled; ext <;> simp
  have q1 := g.r1
  dsimp only at q1
  have z43 : s.1.val 4 3 = 0 := g.z1 (by omega) 4 3 ⟨by omega, by omega, by omega⟩ (by norm_num) (by norm_num)
  have v41 : s.1.val 4 1 = (Z 4 1 (scaled ⟨1, 0, 1⟩ 1)).re := g.col1 4 1 (by norm_num) (by norm_num) (by omega) (by norm_num)
  unfold hess at u
  simp only [M3.smul_def, M3.mulVec_def, mul_zero, add_zero, mul_one] at u
  unfold gradSum at u
  simp only [Finset.range_zero, Finset.sum_empty, Finset.sum_range_succ, hcs, Coeffs.c, Coeffs.s, one, zero_add, gradT1, gradT0, F, Zat, sym, M3.add_def, M3.smul_def, M3.zero_def] at u
  norm_num at u
  rcases u with u | u
  · rw [v41, z43, sc] at u
    have k : (Z 4 3 ⟨1, 0, 1⟩).re = 0 := by
      have h8 : Real.sqrt 840 ≠ 0 := (Real.sqrt_pos.2 (by norm_num)).ne'
      have : Real.sqrt 840 * (Z 4 3 ⟨1, 0, 1⟩).re = 0 := by linarith
      exact (mul_eq_zero.1 this).resolve_left h8
    have np : 0 < (⟨1, 0, 1⟩ : V3).norm := norm_pos hr
    rw [Z_re] at k
    unfold colv κr at k
    rw [Q_subdiag 3, Q_diag' 2, Q_diag' 1, Q_diag' 0, Q_00] at k
    have hh : hor ⟨1, 0, 1⟩ = 1 := rfl
    rw [hh, one_pow, Complex.one_re, one_mul] at k
    have p0 := fd_pos 0
    have p1 := fd_pos 1
    have p2 := fd_pos 2
    have : 0 < Real.sqrt (2 * ((3 : ℕ) : ℝ) + 3) := Real.sqrt_pos.2 (by norm_num)
    have q : 0 < (⟨1, 0, 1⟩ : V3).z / (⟨1, 0, 1⟩ : V3).norm := div_pos one_pos np
    generalize (⟨1, 0, 1⟩ : V3).z / (⟨1, 0, 1⟩ : V3).norm = z at k q
    generalize (⟨1, 0, 1⟩ : V3).norm = ν at k np
    refine absurd k (ne_of_gt ?_)
    positivity
  · have : 0 < fb 2 := by unfold fb; exact Real.sqrt_pos.2 (by positivity)
    linarith

end Verif.Cunningham
