import Verif.Spec.Fcn
import Verif.Proof.Chars
import Mathlib.Tactic.Linarith
import Mathlib.Tactic.Positivity
import Mathlib.Tactic.FinCases
/-
C65, C66: free core nutation.
-/
namespace Verif.Fcn
open Verif.Chars

/-! ### Lemmas -/

theorem search_some {t : ℝ} {l : List (Coef ℝ)} {a b : Coef ℝ} (h : search t l = some (a, b)) :
    ∃ pre post, l = pre ++ b :: a :: post ∧ a.t ≤ t ∧ t < b.t := by
  induction l with
  | nil => simp [search] at h
  | cons x xs ih =>
    cases xs with
    | nil => simp [search] at h
    | cons y ys =>
      simp only [search] at h
      split at h
      · rename_i hc
        injection h with h
        injection h with h1 h2
        subst h1 h2
        exact ⟨[], ys, rfl, hc.1, hc.2⟩
      · obtain ⟨pre, post, h1, h2, h3⟩ := ih h
        exact ⟨x :: pre, post, by rw [h1]; rfl, h2, h3⟩

theorem search_none {t : ℝ} {l : List (Coef ℝ)} (h : search t l = none) {last first : Coef ℝ}
    (hl : l.head? = some last) (hf : l.getLast? = some first) (h1 : t < last.t) : t < first.t := by
  induction l generalizing last with
  | nil => simp at hl
  | cons x xs ih =>
    simp only [List.head?_cons, Option.some.injEq] at hl
    subst hl
    cases xs with
    | nil => simp at hf; rw [← hf]; exact h1
    | cons y ys =>
      simp only [search] at h
      split at h
      · cases h
      · rename_i hc
        push Not at hc
        have : t < y.t := by
          by_contra h'
          push Not at h'
          exact absurd h1 (not_lt.mpr (hc h'))
        exact ih h rfl (by simpa using hf) this

/-! ### C65 -/

/-- C65: for every strictly increasing table and every epoch the result exists, and X + iY is the table's
amplitude times exp(i phase). -/
theorem fcn_amplitude (t : ℝ) (l : List (Coef ℝ)) (hl : Sorted l) (hne : l ≠ []) :
    ∃ r A, lambertFcn t l = .ok r ∧ Amplitude l t A ∧
      (⟨r.x, r.y⟩ : ℂ) = A * Complex.exp (phase t * Complex.I) := by
  obtain ⟨first, tl, rfl⟩ : ∃ a b, l = a :: b := by cases l with | nil => exact absurd rfl hne | cons a b => exact ⟨a, b, rfl⟩
  obtain ⟨last, hlast⟩ : ∃ x, (first :: tl).reverse.head? = some x := by
    rw [List.head?_reverse]
    exact ⟨_, List.getLast?_eq_some_getLast (by simp)⟩
  have hphi : (2 * Real.pi / (-430.21 : ℝ)) * (t - 51544.5) = phase t := by unfold phase; ring
  have hexp : Complex.exp (phase t * Complex.I) = ⟨Real.cos (phase t), Real.sin (phase t)⟩ := by
    rw [Complex.exp_mul_I]
    apply Complex.ext
    · simp [Complex.cos_ofReal_re, Complex.sin_ofReal_re]
    · simp [Complex.cos_ofReal_re, Complex.sin_ofReal_re]
  unfold lambertFcn
  simp only [List.head?_cons, hlast, hphi]
  rcases hs : search t (first :: tl).reverse with _ | ⟨a, b⟩
  · simp only
    by_cases hlt : t ≥ last.t
    · rw [if_pos hlt]
      refine ⟨_, last.amp, rfl, ?_, ?_⟩
      · rw [List.head?_reverse] at hlast
        obtain ⟨pre, hp⟩ := List.getLast?_eq_some_iff.mp hlast
        exact .after pre last hp hlt
      · rw [hexp]
        apply Complex.ext <;> simp [Coef.amp] <;> ring
    · rw [if_neg hlt]
      refine ⟨_, first.amp, rfl, ?_, ?_⟩
      · refine .before first tl rfl (search_none hs hlast ?_ (by push Not at hlt; exact hlt))
        rw [List.getLast?_reverse]; rfl
      · rw [hexp]
        apply Complex.ext <;> simp [Coef.amp] <;> ring
  · obtain ⟨pre, post, h1, h2, h3⟩ := search_some hs
    simp only
    refine ⟨_, a.amp + ((t - a.t) / (b.t - a.t) : ℝ) * (b.amp - a.amp), rfl, ?_, ?_⟩
    · refine .between post.reverse pre.reverse a b ?_ h2 h3
      have := congrArg List.reverse h1
      simpa using this
    · rw [hexp]
      generalize hk : (t - a.t) / (b.t - a.t) = k
      have hh : ∀ x, x / (b.t - a.t) * (t - a.t) = k * x := by intro x; rw [← hk]; ring
      simp only [hh]
      apply Complex.ext <;> simp [Coef.amp] <;> ring

/-- The amplitude is well determined: on a strictly increasing table `Amplitude` is a function of `t`. -/
theorem amplitude_unique {l : List (Coef ℝ)} (hl : Sorted l) {t : ℝ} {A B : ℂ} (hA : Amplitude l t A)
    (hB : Amplitude l t B) : A = B := by
  have mem_lt : ∀ {pre post : List (Coef ℝ)} {a : Coef ℝ}, l = pre ++ a :: post → (∀ c ∈ pre, c.t < a.t) ∧ ∀ c ∈ post, a.t < c.t := by
    intro pre post a h
    rw [Sorted, h, List.pairwise_append] at hl
    obtain ⟨_, h2, h3⟩ := hl
    rw [List.pairwise_cons] at h2
    exact ⟨fun c hc => h3 c hc a (by simp), h2.1⟩
  -- the position of an entry is determined
  have split_eq : ∀ {p q p' q' : List (Coef ℝ)} {a a' : Coef ℝ}, p ++ a :: q = p' ++ a' :: q' → p.length = p'.length → a = a' ∧ q = q' := by
    intro p q p' q' a a' h hlen
    have := List.append_inj h hlen
    injection this.2 with h1 h2
    exact ⟨h1, h2⟩
  have trich : ∀ {p q p' q' : List (Coef ℝ)} {a b a' b' : Coef ℝ}, l = p ++ a :: b :: q → l = p' ++ a' :: b' :: q' →
      a.t ≤ t → t < b.t → a'.t ≤ t → t < b'.t → p.length = p'.length := by
    intro p q p' q' a b a' b' h h' h1 h2 h3 h4
    have key : ∀ {p q p' q' : List (Coef ℝ)} {a b a' b' : Coef ℝ}, l = p ++ a :: b :: q → l = p' ++ a' :: b' :: q' →
        t < b.t → a'.t ≤ t → ¬ p.length < p'.length := by
      intro p q p' q' a b a' b' h h' h2 h3 hlt
      -- b is at index p.length + 1 ≤ p'.length, the index of a'
      have e1 : l = (p ++ [a]) ++ b :: q := by rw [h]; simp
      obtain ⟨_, m2⟩ := mem_lt e1
      by_cases heq : (p ++ [a]).length = p'.length
      · have := split_eq (e1.symm.trans h') heq
        rw [this.1] at h2
        linarith
      · have hmem : a' ∈ q := by
          have h5 : l[p'.length]? = some a' := by rw [h']; simp
          rw [e1, List.getElem?_append_right (by simp only [List.length_append, List.length_cons, List.length_nil] at heq ⊢; omega)] at h5
          simp only [List.length_append, List.length_cons, List.length_nil] at h5 heq
          obtain ⟨k, hk⟩ : ∃ k, p'.length - (p.length + (0 + 1)) = k + 1 := ⟨p'.length - p.length - 2, by omega⟩
          rw [hk, List.getElem?_cons_succ] at h5
          exact List.mem_of_getElem? h5
        have := m2 a' hmem
        linarith
    have k1 := key h h' h2 h3
    have k2 := key h' h h4 h1
    omega
  cases hA with
  | between p q a b hl1 h1 h2 =>
    cases hB with
    | between p' q' a' b' hl1' h1' h2' =>
      have e := split_eq (hl1.symm.trans hl1') (trich hl1 hl1' h1 h2 h1' h2')
      injection e.2 with e2 _
      rw [e.1, e2]
    | before a' q' hl1' h1' =>
      exfalso
      have m := (mem_lt (pre := []) (a := a') (post := q') (by rw [hl1']; rfl)).2
      have : a = a' ∨ a ∈ q' := by
        have : a ∈ l := by rw [hl1]; simp
        rw [hl1'] at this; simpa using this
      rcases this with rfl | h
      · linarith
      · have := m a h; linarith
    | after p' a' hl1' h1' =>
      exfalso
      have m := (mem_lt (pre := p') (a := a') (post := []) hl1').1
      have : b ∈ p' ∨ b = a' := by
        have : b ∈ l := by rw [hl1]; simp
        rw [hl1'] at this; simpa using this
      rcases this with h | rfl
      · have := m b h; linarith
      · linarith
  | before a q hl1 h1 =>
    cases hB with
    | between p' q' a' b' hl1' h1' h2' =>
      exfalso
      have m := (mem_lt (pre := []) (a := a) (post := q) (by rw [hl1]; rfl)).2
      have : a' = a ∨ a' ∈ q := by
        have : a' ∈ l := by rw [hl1']; simp
        rw [hl1] at this; simpa using this
      rcases this with rfl | h
      · linarith
      · have := m a' h; linarith
    | before a' q' hl1' h1' =>
      rw [hl1] at hl1'; injection hl1' with e _; rw [e]
    | after p' a' hl1' h1' =>
      exfalso
      have m := (mem_lt (pre := []) (a := a) (post := q) (by rw [hl1]; rfl)).2
      have : a' = a ∨ a' ∈ q := by
        have : a' ∈ l := by rw [hl1']; simp
        rw [hl1] at this; simpa using this
      rcases this with rfl | h
      · linarith
      · have := m a' h; linarith
  | after p a hl1 h1 =>
    cases hB with
    | between p' q' a' b' hl1' h1' h2' =>
      exfalso
      have m := (mem_lt (pre := p) (a := a) (post := []) hl1).1
      have : b' ∈ p ∨ b' = a := by
        have : b' ∈ l := by rw [hl1']; simp
        rw [hl1] at this; simpa using this
      rcases this with h | rfl
      · have := m b' h; linarith
      · linarith
    | before a' q' hl1' h1' =>
      exfalso
      have m := (mem_lt (pre := []) (a := a') (post := q') (by rw [hl1']; rfl)).2
      have : a = a' ∨ a ∈ q' := by
        have : a ∈ l := by rw [hl1]; simp
        rw [hl1'] at this; simpa using this
      rcases this with rfl | h
      · linarith
      · have := m a h; linarith
    | after p' a' hl1' h1' =>
      rw [hl1] at hl1'
      have := List.append_inj_right' hl1' rfl
      injection this with e _; rw [e]

/-- C65: at the epoch of a table entry the amplitude is that entry's. -/
theorem fcn_at_node (l : List (Coef ℝ)) (hl : Sorted l) (c : Coef ℝ) (hc : c ∈ l) :
    ∃ r, lambertFcn c.t l = .ok r ∧
      (⟨r.x, r.y⟩ : ℂ) = c.amp * Complex.exp (phase c.t * Complex.I) := by
  obtain ⟨r, A, h1, h2, h3⟩ := fcn_amplitude c.t l hl (List.ne_nil_of_mem hc)
  refine ⟨r, h1, ?_⟩
  rw [h3]
  congr 1
  obtain ⟨pre, post, rfl⟩ := List.append_of_mem hc
  apply amplitude_unique hl h2
  cases post with
  | nil => exact .after pre c rfl le_rfl
  | cons b post =>
    have : c.t < b.t := by
      have := List.pairwise_append.mp hl
      exact (List.pairwise_cons.mp this.2.1).1 b (by simp)
    have h := Amplitude.between (l := pre ++ c :: b :: post) (t := c.t) pre post c b rfl le_rfl this
    simpa using h

/-- C65 (partial): for a table with non-negative uncertainties, from its first epoch on, the uncertainty is
non-negative; after the last epoch it is the last entry's (twice) plus 0.6 microarcseconds per day.
Missing: before the first epoch (`fcn_sigma_fails`). -/
theorem fcn_sigma_partial (t : ℝ) (l : List (Coef ℝ)) (hs : ∀ c ∈ l, 0 ≤ c.sg) (first : Coef ℝ)
    (hf : l.head? = some first) (ht : first.t ≤ t) :
    ∃ r, lambertFcn t l = .ok r ∧ 0 ≤ r.sx ∧ r.sy = r.sx ∧
      ∀ pre last, l = pre ++ [last] → (∀ c ∈ l, c.t ≤ t) → r.sx = 2 * (last.sg + 0.3 * (t - last.t)) := by
  obtain ⟨tl, rfl⟩ : ∃ b, l = first :: b := by
    cases l with
    | nil => simp at hf
    | cons a b => simp at hf; exact ⟨b, by rw [hf]⟩
  obtain ⟨last, hlast⟩ : ∃ x, (first :: tl).reverse.head? = some x := by
    rw [List.head?_reverse]
    exact ⟨_, List.getLast?_eq_some_getLast (by simp)⟩
  have hlast' : ∃ pre, first :: tl = pre ++ [last] := by
    rw [List.head?_reverse] at hlast
    exact List.getLast?_eq_some_iff.mp hlast
  unfold lambertFcn
  simp only [List.head?_cons, hlast]
  rcases hsr : search t (first :: tl).reverse with _ | ⟨a, b⟩
  · simp only
    by_cases hlt : t ≥ last.t
    · rw [if_pos hlt]
      refine ⟨_, rfl, ?_, rfl, ?_⟩
      · obtain ⟨pre, hp⟩ := hlast'
        have : 0 ≤ last.sg := hs last (by rw [hp]; simp)
        simp only
        have : 0 ≤ (0.3 : ℝ) * (t - last.t) := by apply mul_nonneg <;> linarith
        linarith
      · intro pre last' hp _
        obtain ⟨pre', hp'⟩ := hlast'
        rw [hp] at hp'
        have := List.append_inj_right' hp' rfl
        injection this with e _
        subst e
        simp only; ring
    · exfalso
      push Not at hlt
      have := search_none hsr hlast (first := first) (by rw [List.getLast?_reverse]; rfl) hlt
      linarith
  · simp only
    refine ⟨_, rfl, by positivity, rfl, ?_⟩
    intro pre last' hp hall
    exfalso
    obtain ⟨p, q, h1, h2, h3⟩ := search_some hsr
    have : b ∈ first :: tl := by
      have : b ∈ (first :: tl).reverse := by rw [h1]; simp
      exact List.mem_reverse.mp this
    have := hall b this
    linarith

/-- C65 fails: before the first epoch the uncertainty shrinks with distance and becomes negative; the IERS
table at MJD 45000. -/
theorem fcn_sigma_fails : ∃ r, lambertFcn 45000 loadTable52c = .ok r ∧ r.sx < 0 := by
  have hs : search 45000 loadTable52c.reverse = none := by
    rcases h : search 45000 loadTable52c.reverse with _ | ⟨a, b⟩
    · rfl
    · exfalso
      obtain ⟨pre, post, h1, h2, _⟩ := search_some h
      have hm : a ∈ loadTable52c := by
        have : a ∈ loadTable52c.reverse := by rw [h1]; simp
        simpa using this
      unfold loadTable52c at hm
      obtain ⟨c, hc, rfl⟩ := List.mem_map.mp hm
      have hall : ∀ c ∈ table52c, (45000 : ℚ) < c.t := by decide +kernel
      have := hall c hc
      have h3 : ((45000 : ℚ) : ℝ) < (c.t : ℝ) := by exact_mod_cast this
      push_cast at h3
      simp only at h2
      linarith
  unfold lambertFcn
  rw [hs]
  simp only [loadTable52c, table52c, List.map_cons, List.map_nil, List.head?_cons, List.reverse_cons, List.reverse_nil,
    List.nil_append, List.cons_append]
  rw [if_neg (by norm_num)]
  refine ⟨_, rfl, ?_⟩
  norm_num

/-- The empty table is undefined behaviour. -/
theorem fcn_empty_fails (t : ℝ) : lambertFcn t [] = .ub := rfl

/-- C65 applies to the IERS table: strictly increasing, uncertainties positive. -/
theorem table52c_ok : Sorted loadTable52c ∧ loadTable52c ≠ [] ∧ ∀ c ∈ loadTable52c, 0 ≤ c.sg := by
  refine ⟨?_, by simp [loadTable52c, table52c], ?_⟩
  · unfold Sorted loadTable52c
    rw [List.pairwise_map]
    have h : table52c.Pairwise (fun a b => a.t < b.t) := by decide +kernel
    exact h.imp (fun {a b} hab => by simpa using (Rat.cast_lt (K := ℝ)).mpr hab)
  · intro c hc
    unfold loadTable52c at hc
    obtain ⟨q, hq, rfl⟩ := List.mem_map.mp hc
    have hall : ∀ c ∈ table52c, (0 : ℚ) ≤ c.sg := by decide +kernel
    have := hall q hq
    simpa using (Rat.cast_nonneg (K := ℝ)).mpr this

/-- The entries of the IERS table are at the first of January of the years from 1984 to 2013. -/
theorem table52c_dates : loadTable52c.map (fun c => c.t) = (List.range 30).map (fun k => ((newYear (1984 + k) : Int) : ℝ)) := by
  have h : table52c.map (fun c => c.t) = (List.range 30).map (fun k => ((newYear (1984 + k) : Int) : ℚ)) := by decide +kernel
  have h2 := congrArg (List.map fun q : ℚ => (q : ℝ)) h
  rw [List.map_map, List.map_map] at h2
  unfold loadTable52c
  rw [List.map_map]
  refine (Eq.trans ?_ (h2.trans ?_))
  · rfl
  · apply List.map_congr_left
    intro k _
    simp

/-- The first entry is at MJD 45700, the last at 56293. -/
example : newYear 1984 = 45700 ∧ newYear 2013 = 56293 := by decide

/-! ### C66 -/

/-- The records of a list of (year, record) that fall in `[from, to)`. -/
def selected (from_ to_ : ℚ) (recs : List (ℚ × Coef ℚ)) : List (Coef ℚ) :=
  (recs.map Prod.snd).filter (fun c => from_ ≤ c.t ∧ c.t < to_)

theorem readLine_vals {from_ to_ : ℚ} {line : List Char} {st : RState} {y : ℚ} {c : Coef ℚ}
    (h : readFields st.d line = (columns y c, 0)) :
    readLine from_ to_ line st =
      { st with vec := st.vec ++ selected from_ to_ [(y, c)], d := columns y c } := by
  unfold readLine
  rw [h]
  simp only [columns, selected, List.map_cons, List.map_nil]
  by_cases hc : c.t ≥ from_ ∧ c.t < to_
  · simp [hc.1, hc.2]
  · have : ¬ (from_ ≤ c.t ∧ c.t < to_) := hc
    simp [this]

theorem five {l : List ℚ} (h : l.length = 5) : ∃ y c, l = columns y c := by
  match l, h with
  | [a, b, c, d, e], _ => exact ⟨a, ⟨b, c, d, e⟩, rfl⟩

theorem selected_append (f t : ℚ) (a b : List (ℚ × Coef ℚ)) :
    selected f t (a ++ b) = selected f t a ++ selected f t b := by simp [selected]

theorem loop_complete (from_ to_ : ℚ) (lines : List (List Char)) : ∀ (recs : List (ℚ × Coef ℚ)) (st : RState),
    st.error = 0 → st.d.length = 5 → st.lineNr + lines.length < 1000 →
    List.Forall₂ (fun l r => l.length < LINE_LEN ∧ LineIs l (columns r.1 r.2)) lines recs →
    ∃ st', readLoop from_ to_ lines st = (st', false) ∧ st'.error = 0 ∧ st'.lineNr < 1000 ∧
      st'.vec = st.vec ++ selected from_ to_ recs := by
  induction lines with
  | nil =>
    intro recs st he _ hn h
    cases h
    exact ⟨st, rfl, he, by simpa using hn, by simp [selected]⟩
  | cons line lines ih =>
    intro recs st he hd hn h
    cases h with
    | cons h1 h2 =>
      rename_i r recs
      have hf := readFields_ok (columns r.1 r.2) st.d line (by rw [hd]; rfl) h1.2
      have e := readLine_vals (from_ := from_) (to_ := to_) (st := { st with lineNr := st.lineNr + 1 }) hf
      simp only [List.length_cons] at hn
      obtain ⟨st', g1, g2, g3, g4⟩ := ih recs (readLine from_ to_ line { st with lineNr := st.lineNr + 1 })
        (by rw [e]; exact he) (by rw [e]; rfl) (by rw [e]; simp only; omega) h2
      refine ⟨st', ?_, g2, g3, ?_⟩
      · simp only [readLoop]
        rw [if_neg (by omega), if_neg (by simp [he]), if_pos (by omega), g1]
      · rw [g4, e]
        simp only [List.append_assoc]
        rw [← selected_append]
        rfl

/-- C66: a file whose first line begins with '%' and whose other lines (fewer than 1000, each shorter than
128 characters) hold a record each is read without error, and the result is exactly the records with
`from <= t < to`, in the order of the file. -/
theorem lambert_file (junk : List ℚ) (hj : junk.length = 5) (n : Nat) (h : List Char)
    (hh : (List.replicate n ' ' ++ '%' :: h).length < LINE_LEN) (lines : List (List Char))
    (recs : List (ℚ × Coef ℚ)) (hl : lines.length < 1000)
    (hr : List.Forall₂ (fun l r => l.length < LINE_LEN ∧ LineIs l (columns r.1 r.2)) lines recs)
    (from_ to_ : ℚ) (hft : from_ ≤ to_) (old : List (Coef ℚ)) :
    parseLambert junk (some ((List.replicate n ' ' ++ '%' :: h) :: lines)) from_ to_ old =
      (0, (recs.map Prod.snd).filter (fun c => from_ ≤ c.t ∧ c.t < to_)) := by
  unfold parseLambert
  rw [if_neg (not_lt.mpr hft)]
  simp only
  rw [if_neg (by omega), if_neg (by rw [skipWs_blanks n _ (by simp)]; simp)]
  obtain ⟨st', g1, g2, g3, g4⟩ := loop_complete from_ to_ lines recs ⟨[], junk, 0, 0⟩ rfl hj (by simpa using hl) hr
  rw [g1]
  simp only
  rw [if_neg (by rw [g2]; simp; omega)]
  simp only [Bool.false_eq_true, if_false, g4, List.nil_append, selected]

theorem loop_error_stays (from_ to_ : ℚ) (lines : List (List Char)) : ∀ st : RState, st.error ≠ 0 →
    (readLoop from_ to_ lines st).1.error ≠ 0 := by
  intro st he
  cases lines with
  | nil => exact he
  | cons line lines =>
    simp only [readLoop]
    split
    · exact he
    · exact he

theorem loop_sound (from_ to_ : ℚ) (lines : List (List Char)) : ∀ st st' : RState, st.d.length = 5 → st.error = 0 →
    readLoop from_ to_ lines st = (st', false) → st'.error = 0 → st'.lineNr < 1000 →
    ∃ recs : List (ℚ × Coef ℚ), List.Forall₂ (fun l r => LineHas l (columns r.1 r.2)) lines recs ∧
      st'.vec = st.vec ++ selected from_ to_ recs := by
  induction lines with
  | nil =>
    intro st st' _ _ h _ _
    simp only [readLoop, Prod.mk.injEq, and_true] at h
    subst h
    exact ⟨[], .nil, by simp [selected]⟩
  | cons line lines ih =>
    intro st st' hd he h he' hn'
    simp only [readLoop] at h
    split at h
    · simp at h
    · rw [if_neg (by simp [he])] at h
      split at h
      · have hlen := readFields_length st.d line
        by_cases hz : (readFields st.d line).2 = 0
        · obtain ⟨y, c, hc⟩ := five (hlen.trans hd)
          have hf : readFields st.d line = (columns y c, 0) := Prod.ext hc hz
          have e := readLine_vals (from_ := from_) (to_ := to_) (st := { st with lineNr := st.lineNr + 1 }) hf
          rw [e] at h
          obtain ⟨recs, g1, g2⟩ := ih _ st' (by rfl) (by exact he) h he' hn'
          refine ⟨(y, c) :: recs, .cons (readFields_sound _ _ _ hf).1 g1, ?_⟩
          rw [g2]
          simp only [List.append_assoc]
          rw [← selected_append]
          rfl
        · exfalso
          have := loop_error_stays from_ to_ lines (readLine from_ to_ line { st with lineNr := st.lineNr + 1 })
            (by simp only [readLine]; omega)
          rw [h] at this
          exact this he'
      · simp only [Prod.mk.injEq, and_true] at h
        rw [← h] at hn'
        simp only at hn'
        omega

/-- C66: if the call returns 0, every line after the header holds a record, and the result is exactly the
records with `from <= t < to`, in the order of the file. -/
theorem lambert_file_sound (junk : List ℚ) (hj : junk.length = 5) (file : Option (List (List Char)))
    (from_ to_ : ℚ) (old vec : List (Coef ℚ)) (h : parseLambert junk file from_ to_ old = (0, vec)) :
    from_ ≤ to_ ∧ ∃ header lines recs, file = some (header :: lines) ∧ (skipWs header).head? = some '%' ∧
      List.Forall₂ (fun l r => LineHas l (columns r.1 r.2)) lines recs ∧
      vec = ((recs : List (ℚ × Coef ℚ)).map Prod.snd).filter (fun c => from_ ≤ c.t ∧ c.t < to_) := by
  unfold parseLambert at h
  split at h
  · simp at h
  rename_i hft
  refine ⟨not_lt.mp hft, ?_⟩
  match file, h with
  | none, h => simp at h
  | some [], h => simp at h
  | some (header :: lines), h =>
    simp only at h
    split at h
    · simp at h
    split at h
    · simp at h
    rename_i hh
    rcases hloop : readLoop from_ to_ lines ⟨[], junk, 0, 0⟩ with ⟨st, long⟩
    rw [hloop] at h
    simp only at h
    split at h
    · simp at h
    rename_i hne
    split at h
    · simp at h
    rename_i hlong
    push Not at hne
    simp only [Prod.mk.injEq, true_and] at h
    have hl : long = false := by simpa using hlong
    subst hl
    obtain ⟨recs, g1, g2⟩ := loop_sound from_ to_ lines ⟨[], junk, 0, 0⟩ st hj rfl hloop hne.1 hne.2
    refine ⟨header, lines, recs, rfl, by simpa using hh, g1, ?_⟩
    rw [← h, g2]
    simp [selected]

/-- Hypotheses of `lambert_file`: the line "1984.0  45708.0 -220.93 -147.19 10.22". -/
example : LineIs "1984.0  45708.0 -220.93 -147.19 10.22".toList (columns 1984 ⟨45708, -220.93, -147.19, 10.22⟩) := by
  have dok : ∀ (a : Bool) (b c : List Char), (∀ x ∈ b, isDig x) → (∀ x ∈ c, isDig x) → b ≠ [] →
      Dec.Ok ⟨a, b, some c, none⟩ := fun a b c h1 h2 h3 =>
    ⟨h1, fun f hf => by injection hf with hf; rw [← hf]; exact h2, Or.inl h3, fun _ _ _ h => by cases h⟩
  refine ⟨0, ⟨false, "1984".toList, some "0".toList, none⟩, "  45708.0 -220.93 -147.19 10.22".toList,
    dok _ _ _ (by decide) (by decide) (by decide), by decide +kernel, by decide, by unfold Ends; decide, ?_⟩
  refine ⟨2, ⟨false, "45708".toList, some "0".toList, none⟩, " -220.93 -147.19 10.22".toList,
    dok _ _ _ (by decide) (by decide) (by decide), by decide +kernel, by decide, by unfold Ends; decide, ?_⟩
  refine ⟨1, ⟨true, "220".toList, some "93".toList, none⟩, " -147.19 10.22".toList,
    dok _ _ _ (by decide) (by decide) (by decide), by decide +kernel, by decide, by unfold Ends; decide, ?_⟩
  refine ⟨1, ⟨true, "147".toList, some "19".toList, none⟩, " 10.22".toList,
    dok _ _ _ (by decide) (by decide) (by decide), by decide +kernel, by decide, by unfold Ends; decide, ?_⟩
  refine ⟨1, ⟨false, "10".toList, some "22".toList, none⟩, "".toList,
    dok _ _ _ (by decide) (by decide) (by decide), by decide +kernel, by decide, by unfold Ends; decide, ?_⟩
  unfold LineIs Ends; decide

end Verif.Fcn
