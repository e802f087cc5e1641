import Verif.Proof.RoundedFcn
import Verif.Proof.RoundNearest
/-
Property C118: free core nutation in double precision.
-/
namespace Verif.RoundedFcn
open Verif Verif.Rounded Verif.Fcn Verif.Rounding

variable {fl : Arith} {dd : ℝ → ℝ → ℝ} {fsin fcos : ℝ → ℝ}

theorem value_sc (hf : Faithful fl) {v M : ℝ} (h : |v| ≤ M) : Sc 1 M (fl v) v :=
  ⟨h, (hf.rel v).trans (by rw [one_mul]; exact mul_le_mul_of_nonneg_left h u_pos.le)⟩

theorem value_sc' (hf : Faithful fl) {v M : ℝ} (h : |v| ≤ M) : Sc 1 M (-fl v) (-v) := (value_sc hf h).neg

/-- Neighbours in the table. -/
theorem pair_gap {l : List (Coef ℝ)} (hl : Spaced l) {t : ℝ} {p n : Coef ℝ} (h : search t l.reverse = some (p, n)) :
    p ∈ l ∧ n ∈ l ∧ p.t ≤ t ∧ t < n.t ∧ p.t + 1 ≤ n.t := by
  obtain ⟨pre, post, h1, h2, h3⟩ := search_some h
  have h4 : l = post.reverse ++ p :: n :: pre.reverse := by
    have := congrArg List.reverse h1
    simpa using this
  refine ⟨by rw [h4]; simp, by rw [h4]; simp, h2, h3, ?_⟩
  rw [Spaced, h4, List.pairwise_append, List.pairwise_cons] at hl
  exact hl.2.1.1 n (by simp)

/-- Every amplitude. -/
theorem amplitudes_sc (hf : Faithful fl) (hd : DayDifference dd) {l : List (Coef ℝ)} (hl : Spaced l) {M : ℝ} (hM : Bounded M l) (t : ℝ) {first last : Coef ℝ}
    (h1 : l.head? = some first) (h2 : l.reverse.head? = some last) :
    let a' := amplitudes fl dd t first last (search t l.reverse)
    let a := exactAmplitudes t first last (search t l.reverse)
    Sc 64 M a'.1.1 a.1.1 ∧ Sc 64 M a'.1.2.1 a.1.2.1 ∧ Sc 64 M a'.1.2.2.1 a.1.2.2.1 ∧ Sc 64 M a'.1.2.2.2 a.1.2.2.2 := by
  have m1 : first ∈ l := List.mem_of_mem_head? h1
  have m2 : last ∈ l := by simpa using List.mem_of_mem_head? h2
  have one : ∀ {x' x : ℝ}, Sc 1 M x' x → Sc 64 M x' x := fun h => h.mono (by norm_num)
  rcases hs : search t l.reverse with _ | ⟨p, n⟩
  · simp only [amplitudes, exactAmplitudes]
    split_ifs with h
    · obtain ⟨b1, b2⟩ := hM last m2
      exact ⟨one (value_sc hf b1), one (value_sc hf b2), one (value_sc hf b2), one (value_sc' hf b1)⟩
    · obtain ⟨b1, b2⟩ := hM first m1
      exact ⟨one (value_sc hf b1), one (value_sc hf b2), one (value_sc hf b2), one (value_sc' hf b1)⟩
  · obtain ⟨m3, m4, t1, t2, g⟩ := pair_gap hl hs
    obtain ⟨b1, b2⟩ := hM p m3
    obtain ⟨b3, b4⟩ := hM n m4
    have key := fun (k : ℕ) {p' p0 n' n0 : ℝ} (hp : Sc 1 M p' p0) (hn : Sc 1 M n' n0) =>
      interp_sc hf k hp hn (dt := t - p.t) (dT := n.t - p.t) (by linarith) (by linarith) (by linarith) (hd t p.t) (hd n.t p.t)
    exact ⟨key 0 (value_sc hf b1) (value_sc hf b3), key 1 (value_sc hf b2) (value_sc hf b4), key 2 (value_sc hf b2) (value_sc hf b4),
      key 3 (value_sc' hf b1) (value_sc' hf b3)⟩

theorem ends {l : List (Coef ℝ)} (hne : l ≠ []) : ∃ first last, l.head? = some first ∧ l.reverse.head? = some last := by
  obtain ⟨first, tl, rfl⟩ : ∃ a b, l = a :: b := by cases l with | nil => exact absurd rfl hne | cons a b => exact ⟨a, b, rfl⟩
  refine ⟨first, (first :: tl).getLast (by simp), rfl, ?_⟩
  rw [List.head?_reverse]
  exact List.getLast?_eq_some_getLast (by simp)

theorem rounded_eq (fl : Arith) (dd : ℝ → ℝ → ℝ) (fsin fcos : ℝ → ℝ) {t : ℝ} {l : List (Coef ℝ)} {first last : Coef ℝ} (h1 : l.head? = some first)
    (h2 : l.reverse.head? = some last) :
    let a := amplitudes fl dd t first last (search t l.reverse)
    lambertFcn fl dd fsin fcos t l = .ok ⟨fl (fl.pr 8 (a.1.1 * fcos (phi fl dd t)) - fl.pr 9 (a.1.2.1 * fsin (phi fl dd t))),
      fl (fl.pr 10 (a.1.2.2.1 * fcos (phi fl dd t)) - fl.pr 11 (a.1.2.2.2 * fsin (phi fl dd t))), fl (a.2.1 + a.2.1), fl (a.2.2 + a.2.2)⟩ := by
  unfold lambertFcn
  simp only [h1, h2]

/-- C118, coordinates: for every table whose epochs are a day or more apart and every epoch, X + iY computed in double precision is the table's
amplitude times exp(i phase), up to (140 + 17 |phase|) half units in the last place of the largest number of the table. -/
theorem fcn_rounded (hf : Faithful fl) (hd : DayDifference dd) (ht : Trig fsin fcos) (t : ℝ) {l : List (Coef ℝ)} (hl : Spaced l) (hne : l ≠ []) {M : ℝ}
    (hM : Bounded M l) : ∃ r A, lambertFcn fl dd fsin fcos t l = .ok r ∧ Amplitude l t A ∧
      |r.x - (A * Complex.exp (phase t * Complex.I)).re| ≤ (140 + 17 * |phase t|) * u * M ∧
      |r.y - (A * Complex.exp (phase t * Complex.I)).im| ≤ (140 + 17 * |phase t|) * u * M := by
  obtain ⟨first, last, h1, h2⟩ := ends hne
  have hsort : Sorted l := hl.imp (fun h => by linarith)
  obtain ⟨r, A, e1, hA, e2⟩ := fcn_amplitude t l hsort hne
  have hex := exact_eq (t := t) h1 h2
  simp only at hex
  rw [hex] at e1
  obtain ⟨s1, s2, s3, s4⟩ := amplitudes_sc hf hd hl hM t h1 h2
  have hp := phi_err hf hd t
  have M0 := s1.nonneg
  have hu0 := u_pos
  refine ⟨_, A, rounded_eq fl dd fsin fcos h1 h2, hA, ?_⟩
  injection e1 with e1
  have ex : (A * Complex.exp (phase t * Complex.I)).re = r.x := by rw [← e2]
  have ey : (A * Complex.exp (phase t * Complex.I)).im = r.y := by rw [← e2]
  rw [ex, ey, ← e1]
  set x := phi fl dd t
  have hc : |fcos x - Real.cos (phase t)| ≤ (8.4 * |phase t| + 0.2) * u + 2 * u := by
    have := abs_add_le (fcos x - Real.cos x) (Real.cos x - Real.cos (phase t))
    rw [sub_add_sub_cancel] at this
    have a := ht.cos x
    have b := Real.abs_cos_sub_cos_le x (phase t)
    linarith
  have hs : |fsin x - Real.sin (phase t)| ≤ (8.4 * |phase t| + 0.2) * u + 2 * u := by
    have := abs_add_le (fsin x - Real.sin x) (Real.sin x - Real.sin (phase t))
    rw [sub_add_sub_cancel] at this
    have a := ht.sin x
    have b := Real.abs_sin_sub_sin_le x (phase t)
    linarith
  obtain ⟨o1, o2⟩ := trig_one ht x
  have hle : (137 * u + 2 * ((8.4 * |phase t| + 0.2) * u)) * M ≤ (140 + 17 * |phase t|) * u * M := by
    refine mul_le_mul_of_nonneg_right ?_ M0
    have : 0 ≤ |phase t| * u := by positivity
    linarith
  exact ⟨(rotate_err hf 8 9 s1 s2 hc hs o2 o1).trans hle, (rotate_err hf 10 11 s3 s4 hc hs o2 o1).trans hle⟩

/-- C118, uncertainties: those computed in double precision are those of exact arithmetic, up to 140 half units in the last place of the largest one plus the
distance in days from the table plus 1. -/
theorem sigma_rounded (hf : Faithful fl) (hd : DayDifference dd) (t : ℝ) {l : List (Coef ℝ)} (hl : Spaced l) (hne : l ≠ []) {S D : ℝ} (hS : Sure S l)
    (D0 : 0 ≤ D) (hD : Covers D t l) : ∃ r r', Fcn.lambertFcn t l = .ok r ∧ lambertFcn fl dd fsin fcos t l = .ok r' ∧
      |r'.sx - r.sx| ≤ 140 * u * (S + D + 1) ∧ |r'.sy - r.sy| ≤ 140 * u * (S + D + 1) := by
  obtain ⟨first, last, h1, h2⟩ := ends hne
  have m1 : first ∈ l := List.mem_of_mem_head? h1
  have m2 : last ∈ l := by simpa using List.mem_of_mem_head? h2
  have S0 : 0 ≤ S := (abs_nonneg _).trans (hS first m1)
  have hex := exact_eq (t := t) h1 h2
  simp only at hex
  refine ⟨_, _, hex, rounded_eq fl dd fsin fcos h1 h2, ?_⟩
  have two : ∀ {x' x : ℝ}, Sc 64 (S + D + 1) x' x → |fl (x' + x') - (x + x)| ≤ 140 * u * (S + D + 1) := by
    intro x' x h
    have := (h.addf hf 64 h).2
    have hu : 0 ≤ u * (S + D + 1) := by have := u_pos; positivity
    linarith
  have hsort : ∀ c ∈ l, first.t ≤ c.t ∧ c.t ≤ last.t := by
    intro c hc
    constructor
    · obtain ⟨tl, rfl⟩ : ∃ b, l = first :: b := by
        cases l with
        | nil => simp at h1
        | cons a b => simp at h1; exact ⟨b, by rw [h1]⟩
      rcases List.mem_cons.mp hc with rfl | h
      · exact le_rfl
      · have := (List.pairwise_cons.mp hl).1 c h
        linarith
    · rw [List.head?_reverse] at h2
      obtain ⟨pre, hp⟩ := List.getLast?_eq_some_iff.mp h2
      rw [hp] at hc hl
      rcases List.mem_append.mp hc with h | h
      · have := (List.pairwise_append.mp hl).2.2 c h last (by simp)
        linarith
      · simp at h; rw [h]
  obtain ⟨⟨ca, hca, ta⟩, cb, hcb, tb⟩ := hD
  rcases hs : search t l.reverse with _ | ⟨p, n⟩
  · simp only [amplitudes, exactAmplitudes]
    split_ifs with h
    · have hx : |t - last.t| ≤ D := by
        have := (hsort cb hcb).2
        exact abs_le.mpr ⟨by linarith, by linarith⟩
      have b := hS last m2
      exact ⟨two ((sigma_sc hf 4 b hx (hd _ _)).mono (by norm_num)), two ((sigma_sc hf 5 b hx (hd _ _)).mono (by norm_num))⟩
    · have hlt : t < first.t := by
        refine search_none hs h2 ?_ (by push Not at h; exact h)
        rw [List.getLast?_reverse]; exact h1
      have hx : |t - first.t| ≤ D := by
        have := (hsort ca hca).1
        exact abs_le.mpr ⟨by linarith, by linarith⟩
      have b := hS first m1
      exact ⟨two ((sigma_sc hf 6 b hx (hd _ _)).mono (by norm_num)), two ((sigma_sc hf 7 b hx (hd _ _)).mono (by norm_num))⟩
  · obtain ⟨m3, m4, t1, t2, g⟩ := pair_gap hl hs
    have key := fun (k : ℕ) => interp_sc hf k (value_sc hf (hS p m3)) (value_sc hf (hS n m4)) (dt := t - p.t) (dT := n.t - p.t) (by linarith) (by linarith) (by linarith) (hd t p.t) (hd n.t p.t)
    have absd : ∀ {x' x : ℝ}, Sc 64 S x' x → Sc 64 (S + D + 1) |x'| |x| := by
      intro x' x h
      refine Sc.le (M := S) ⟨by rw [abs_abs]; exact h.1, (abs_abs_sub_abs_le_abs_sub _ _).trans h.2⟩ (by norm_num) (by linarith)
    exact ⟨two (absd (key 4)), two (absd (key 5))⟩

/-- The table in the code meets every hypothesis. -/
theorem table52c_spaced : Spaced loadTable52c ∧ loadTable52c ≠ [] ∧ Bounded 300 loadTable52c ∧ Sure 20 loadTable52c := by
  refine ⟨?_, by simp [loadTable52c, table52c], ?_, ?_⟩
  · have h : table52c.Pairwise (fun a b => a.t + 1 ≤ b.t) := by decide +kernel
    unfold Spaced loadTable52c
    rw [List.pairwise_map]
    exact h.imp (fun {a b} hab => by simp only; exact_mod_cast hab)
  · have h : ∀ c ∈ table52c, |c.re| ≤ 300 ∧ |c.im| ≤ 300 := by decide +kernel
    intro c hc
    unfold loadTable52c at hc
    obtain ⟨q, hq, rfl⟩ := List.mem_map.mp hc
    refine ⟨?_, ?_⟩ <;> dsimp only
    · exact_mod_cast (h q hq).1
    · exact_mod_cast (h q hq).2
  · have h : ∀ c ∈ table52c, |c.sg| ≤ 20 := by decide +kernel
    intro c hc
    unfold loadTable52c at hc
    obtain ⟨q, hq, rfl⟩ := List.mem_map.mp hc
    dsimp only
    exact_mod_cast h q hq

theorem exact_days : DayDifference (fun a b => a - b) := by
  intro a b
  rw [sub_self, abs_zero]
  have := u_pos
  positivity

theorem exact_trig : Trig Real.sin Real.cos := ⟨fun x => by simp [u_pos.le], fun x => by simp [u_pos.le]⟩

/-- The table in the code, any epoch, nearest rounding with any fusing of the products. -/
example (s : ℕ → Bool) (t : ℝ) := fcn_rounded (rn_faithful s) exact_days exact_trig t table52c_spaced.1 table52c_spaced.2.1 table52c_spaced.2.2.1

/-- The uncertainties on MJD 50000. -/
example (s : ℕ → Bool) (t : ℝ) (ht : t = 50000) := sigma_rounded (fsin := Real.sin) (fcos := Real.cos) (rn_faithful s) exact_days t table52c_spaced.1
  table52c_spaced.2.1 table52c_spaced.2.2.2 (D := 0) le_rfl (by
    obtain ⟨⟨a, ha, ha'⟩, b, hb, hb'⟩ : (∃ c ∈ table52c, c.t ≤ 50000) ∧ ∃ c ∈ table52c, 50000 ≤ c.t := by decide +kernel
    subst ht
    refine ⟨⟨_, List.mem_map_of_mem ha, ?_⟩, _, List.mem_map_of_mem hb, ?_⟩
    · rw [add_zero]; dsimp only; exact_mod_cast ha'
    · rw [add_zero]; dsimp only; exact_mod_cast hb')

end Verif.RoundedFcn
