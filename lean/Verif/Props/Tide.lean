import Verif.Spec.Tide
import Verif.Props.Angle
import Verif.Props.Aod1b
import Mathlib.Algebra.BigOperators.Fin
import Mathlib.Tactic.FinCases
/-
C37-C40: tide atlases and tide models.
-/
namespace Verif.Tide
open Verif Verif.Doodson Verif.Aod1b Verif.Angle

/-! ### C37 -/

theorem eq_iff (a b : DC) : a.eq b = true ↔ a = b := by
  obtain ⟨a0, a1, a2, a3, a4, a5, a6⟩ := a
  obtain ⟨b0, b1, b2, b3, b4, b5, b6⟩ := b
  simp [DC.eq, and_assoc]

theorem find_le (a : Atlas) (d : DC) : find a d ≤ a.length := by
  induction a with
  | nil => simp [find]
  | cons w ws ih => unfold find; split <;> simp; omega

theorem find_eq_length (a : Atlas) (d : DC) : find a d = a.length ↔ ∀ w ∈ a, w.d ≠ d := by
  induction a with
  | nil => simp [find]
  | cons w ws ih =>
    unfold find
    by_cases h : w.d.eq d = true
    · rw [if_pos h]; simp [(eq_iff _ _).mp h]
    · rw [if_neg h]
      have := mt (eq_iff w.d d).mpr h
      simp [ih, this]

/-- C37: an append of a constituent that the atlas has throws and leaves the atlas as it was. -/
theorem append_rejected (a : Atlas) (w : Constituent) (h : ∃ w' ∈ a, w'.d = w.d) : append a w = (.throw, a) := by
  obtain ⟨w', h1, h2⟩ := h
  unfold append
  rw [if_pos (by rw [Ne, find_eq_length]; push Not; exact ⟨w', h1, h2⟩)]
  rfl

/-- C37: an append of a constituent that the atlas does not have puts it at the end and returns its position. -/
theorem append_accepted (a : Atlas) (w : Constituent) (h : ∀ w' ∈ a, w'.d ≠ w.d) : append a w = (.ok a.length, a ++ [w]) := by
  unfold append
  rw [if_neg (by rw [not_not, find_eq_length]; exact h)]

/-- C37: the same for the append that makes the constituent. -/
theorem append_new (junk : Nat → Nat → ℝ) (a : Atlas) (d : DC) (n m : Int) (hn : 0 ≤ n) :
    if ∃ w ∈ a, w.d = d then appendNew junk a d n m = (.throw, a)
    else ∃ w, w.d = d ∧ w.cos.deg = n ∧ w.sin.deg = n ∧ appendNew junk a d n m = (.ok a.length, a ++ [w]) := by
  have e : Constituent.make junk d n m = .ok ⟨d, ⟨n, if m > 0 then m else n, (n + 1).toNat, junk, junk, 3.986004418e14, 6378136.6, true⟩,
      ⟨n, if m > 0 then m else n, (n + 1).toNat, junk, junk, 3.986004418e14, 6378136.6, true⟩⟩ := by
    unfold Constituent.make newSet
    rw [if_neg (by omega)]
    rfl
  split
  · rename_i h
    obtain ⟨w', h1, h2⟩ := h
    unfold appendNew
    rw [if_pos (by rw [Ne, find_eq_length]; push Not; exact ⟨w', h1, h2⟩)]
    rfl
  · rename_i h
    push Not at h
    unfold appendNew
    rw [if_neg (by rw [not_not, find_eq_length]; exact h), e]
    exact ⟨_, rfl, rfl, rfl, rfl⟩

theorem append_cases (a : Atlas) (w : Constituent) :
    ((∃ w' ∈ a, w'.d = w.d) ∧ (append a w).2 = a) ∨ ((∀ w' ∈ a, w'.d ≠ w.d) ∧ (append a w).2 = a ++ [w]) := by
  by_cases h : ∃ w' ∈ a, w'.d = w.d
  · left; exact ⟨h, by rw [append_rejected a w h]⟩
  · right; push Not at h; exact ⟨h, by rw [append_accepted a w h]⟩

/-- C37: along any sequence of appends the Doodson numbers stay pairwise different. -/
theorem atlas_distinct (ws : List Constituent) : ∀ (a : Atlas), a.Pairwise (fun w w' => w.d ≠ w'.d) →
    (appends a ws).Pairwise (fun w w' => w.d ≠ w'.d) := by
  induction ws with
  | nil => intro a h; exact h
  | cons w ws ih =>
    intro a h
    refine ih _ ?_
    show ((append a w).2).Pairwise _
    rcases append_cases a w with ⟨_, e⟩ | ⟨h', e⟩ <;> rw [e]
    · exact h
    · rw [List.pairwise_append]
      refine ⟨h, List.pairwise_singleton _ _, ?_⟩
      intro x hx y hy
      rw [List.mem_singleton.mp hy]
      exact h' x hx

theorem find_getElem (a : Atlas) (d : DC) : a[find a d]? = a.find? (fun w => decide (w.d = d)) := by
  induction a with
  | nil => simp [find]
  | cons w ws ih =>
    unfold find
    by_cases h : w.d.eq d = true
    · rw [if_pos h]; simp [(eq_iff _ _).mp h]
    · rw [if_neg h]
      have := mt (eq_iff w.d d).mpr h
      simp [ih, this]

/-- C37: after any sequence of appends to a new atlas, lookup of a Doodson number gives the first constituent with this number
that was appended; the end position if there was none. -/
theorem atlas_find (ws : List Constituent) (d : DC) :
    (appends [] ws)[find (appends [] ws) d]? = ws.find? (fun w => decide (w.d = d)) ∧
    (find (appends [] ws) d = (appends [] ws).length ↔ ∀ w ∈ ws, w.d ≠ d) := by
  have key : ∀ (ws : List Constituent) (a : Atlas), (appends a ws).find? (fun w => decide (w.d = d))
      = (a ++ ws).find? (fun w => decide (w.d = d)) := by
    intro ws
    induction ws with
    | nil => intro a; simp [appends]
    | cons w ws ih =>
      intro a
      have : appends a (w :: ws) = appends (append a w).2 ws := rfl
      rw [this, ih]
      rcases append_cases a w with ⟨⟨w', h1, h2⟩, e⟩ | ⟨_, e⟩ <;> rw [e]
      · rw [List.find?_append, List.find?_append, List.find?_cons]
        by_cases hd : w.d = d
        · have : (a.find? (fun w => decide (w.d = d))).isSome := by
            rw [List.find?_isSome]; exact ⟨w', h1, by simp [h2, hd]⟩
          obtain ⟨v, hv⟩ := Option.isSome_iff_exists.mp this
          rw [hv]; rfl
        · simp [hd]
      · simp
  have h1 := key ws []
  rw [List.nil_append] at h1
  refine ⟨by rw [find_getElem, h1], ?_⟩
  rw [find_eq_length]
  have h2 : (appends [] ws).find? (fun w => decide (w.d = d)) = none ↔ ws.find? (fun w => decide (w.d = d)) = none := by rw [h1]
  simpa [List.find?_eq_none] using h2

/-- Two waves, the first one appended twice. -/
example (c : Coeffs ℝ) : appends [] [⟨⟨2, 0, 0, 0, 0, 0, 0⟩, c, c⟩, ⟨⟨1, 1, 0, 0, 0, 0, 0⟩, c, c⟩, ⟨⟨2, 0, 0, 0, 0, 0, 0⟩, c.clear, c⟩]
    = [⟨⟨2, 0, 0, 0, 0, 0, 0⟩, c, c⟩, ⟨⟨1, 1, 0, 0, 0, 0, 0⟩, c, c⟩] := by
  simp [appends, append, find, DC.eq, str]

/-! ### C38, C40 -/

theorem accum_ok {m cos sin : Coeffs ℝ} (h1 : cos.rows = m.rows) (h2 : sin.rows = m.rows) (c s : ℝ) :
    accum m cos sin c s = .ok { m with C := fun i j => m.C i j + (cos.C i j * c + sin.C i j * s),
                                       S := fun i j => m.S i j + (cos.S i j * c + sin.S i j * s) } := by
  unfold accum
  rw [if_neg (by rw [h1, h2]; simp), if_neg (by rw [h1]; simp)]

theorem accum_abort {m cos sin : Coeffs ℝ} (h : ¬ (cos.rows = m.rows ∧ sin.rows = m.rows)) (c s : ℝ) :
    accum m cos sin c s = .abort := by
  unfold accum
  split
  · rfl
  · rename_i h1
    rw [if_pos]
    intro h2
    exact h ⟨h2.symm, by rw [h2]; exact (not_not.mp h1).symm⟩

/-- Accumulation over an atlas, with the cosine and sine factor of each wave given. -/
theorem accum_all (c s : Constituent → ℝ) : ∀ (a : Atlas) (m : Coeffs ℝ), SameSize a m.rows →
    ∃ m', forEach a (fun w m => accum m w.cos w.sin (c w) (s w)) m = .ok m' ∧ m'.deg = m.deg ∧ m'.ord = m.ord ∧ m'.rows = m.rows ∧
      ∀ i j, m'.C i j = m.C i j + (a.map fun w => w.cos.C i j * c w + w.sin.C i j * s w).sum ∧
        m'.S i j = m.S i j + (a.map fun w => w.cos.S i j * c w + w.sin.S i j * s w).sum := by
  intro a
  induction a with
  | nil => intro m _; exact ⟨m, rfl, rfl, rfl, rfl, by simp⟩
  | cons w ws ih =>
    intro m h
    obtain ⟨h1, h2⟩ := h w (by simp)
    simp only [forEach, accum_ok h1 h2, Res.bind]
    obtain ⟨m', e, d1, d2, d3, hv⟩ := ih
      { m with C := fun i j => m.C i j + (w.cos.C i j * c w + w.sin.C i j * s w),
               S := fun i j => m.S i j + (w.cos.S i j * c w + w.sin.S i j * s w) }
      (fun w' hw' => h w' (by simp [hw']))
    refine ⟨m', e, d1, d2, d3, fun i j => ?_⟩
    obtain ⟨v1, v2⟩ := hv i j
    rw [v1, v2]
    simp [add_assoc]

theorem accum_all_abort (c s : Constituent → ℝ) : ∀ (a : Atlas) (m : Coeffs ℝ), ¬ SameSize a m.rows →
    forEach a (fun w m => accum m w.cos w.sin (c w) (s w)) m = .abort := by
  intro a
  induction a with
  | nil => intro m h; exact absurd (by simp [SameSize]) h
  | cons w ws ih =>
    intro m h
    by_cases hw : w.cos.rows = m.rows ∧ w.sin.rows = m.rows
    · simp only [forEach, accum_ok hw.1 hw.2, Res.bind]
      refine ih _ ?_
      intro h'
      apply h
      intro x hx
      rcases List.mem_cons.mp hx with rfl | hx
      · exact hw
      · exact h' x hx
    · simp only [forEach, accum_abort hw, Res.bind]

theorem cong_cos {x y : ℝ} (h : Cong x y) : Real.cos x = Real.cos y ∧ Real.sin x = Real.sin y := by
  obtain ⟨k, rfl⟩ := h
  have e : y + 2 * Real.pi * k = y + k * (2 * Real.pi) := by ring
  rw [e, Real.cos_add_int_mul_two_pi, Real.sin_add_int_mul_two_pi]
  exact ⟨rfl, rfl⟩

theorem argument_angle (d : DC) (g l l' F D Om : ℝ) : Cong (d.argument (delaunay2doodson ![l, l', F, D, Om] g)) (angle d g l l' F D Om) := by
  refine (argument_either_basis d l l' F D Om g).trans (Cong.of_eq ?_)
  unfold angle
  ring

/-- C38 for an ocean tide model without admittance: for every epoch and all arguments, whatever the coefficients were
before, every coefficient is the sum over the constituents, if all constituents have the size of the model;
otherwise an assertion stops the program. -/
theorem ocean_sum_partial (a : Atlas) (mcs : Coeffs ℝ) (tt ut1 : Iau.Epoch) (l l' F D Om : ℝ) :
    (SameSize a mcs.rows → ∃ m', oceanCoeffs a mcs tt ut1 ![l, l', F, D, Om] = .ok m' ∧
        IsSet mcs m' (potential a (fun d => angle d (Iau.gmst tt ut1) l l' F D Om) Coeffs.C)
          (potential a (fun d => angle d (Iau.gmst tt ut1) l l' F D Om) Coeffs.S)) ∧
    (¬ SameSize a mcs.rows → oceanCoeffs a mcs tt ut1 ![l, l', F, D, Om] = .abort) := by
  set f := delaunay2doodson ![l, l', F, D, Om] (Iau.gmst tt ut1)
  constructor
  · intro h
    obtain ⟨m', e, d1, d2, d3, hv⟩ := accum_all (fun w => Real.cos (w.d.argument f)) (fun w => Real.sin (w.d.argument f)) a mcs.clear h
    refine ⟨m', e, d1, d2, d3, fun i j _ _ => ?_⟩
    obtain ⟨v1, v2⟩ := hv i j
    rw [v1, v2]
    unfold potential
    constructor
    all_goals
      simp only [Coeffs.clear, zero_add]
      congr 1
      refine List.map_congr_left fun w _ => ?_
      obtain ⟨c1, c2⟩ := cong_cos (argument_angle w.d (Iau.gmst tt ut1) l l' F D Om)
      rw [c1, c2]
  · intro h
    exact accum_all_abort (fun w => Real.cos (w.d.argument f)) (fun w => Real.sin (w.d.argument f)) a mcs.clear h

/-- C38 for an atmospheric tide model: the angle of a constituent has its phase `pifac * π / 2` added. -/
theorem atm_sum_partial (a : Atlas) (mcs : Coeffs ℝ) (tt ut1 : Iau.Epoch) (l l' F D Om : ℝ) :
    (SameSize a mcs.rows → ∃ m', atmCoeffs a mcs tt ut1 ![l, l', F, D, Om] = .ok m' ∧
        IsSet mcs m' (potential a (fun d => angle d (Iau.gmst tt ut1) l l' F D Om + d.pifac * (Real.pi / 2)) Coeffs.C)
          (potential a (fun d => angle d (Iau.gmst tt ut1) l l' F D Om + d.pifac * (Real.pi / 2)) Coeffs.S)) ∧
    (¬ SameSize a mcs.rows → atmCoeffs a mcs tt ut1 ![l, l', F, D, Om] = .abort) := by
  set f := delaunay2doodson ![l, l', F, D, Om] (Iau.gmst tt ut1)
  constructor
  · intro h
    obtain ⟨m', e, d1, d2, d3, hv⟩ := accum_all (fun w => Real.cos (w.d.argument f + w.d.pifac * Real.pi / 2))
      (fun w => Real.sin (w.d.argument f + w.d.pifac * Real.pi / 2)) a mcs.clear h
    refine ⟨m', e, d1, d2, d3, fun i j _ _ => ?_⟩
    obtain ⟨v1, v2⟩ := hv i j
    rw [v1, v2]
    unfold potential
    constructor
    all_goals
      simp only [Coeffs.clear, zero_add]
      congr 1
      refine List.map_congr_left fun w _ => ?_
      have h3 : Cong (w.d.argument f + w.d.pifac * Real.pi / 2)
          (angle w.d (Iau.gmst tt ut1) l l' F D Om + w.d.pifac * (Real.pi / 2)) :=
        (argument_angle w.d (Iau.gmst tt ut1) l l' F D Om).add (Cong.of_eq (by ring))
      obtain ⟨c1, c2⟩ := cong_cos h3
      rw [c1, c2]
  · intro h
    exact accum_all_abort (fun w => Real.cos (w.d.argument f + w.d.pifac * Real.pi / 2))
      (fun w => Real.sin (w.d.argument f + w.d.pifac * Real.pi / 2)) a mcs.clear h

theorem foldl_max_eq {α : Type} (f : α → Int) (n : Int) : ∀ (a : List α) (x : Int), (∀ w ∈ a, f w = n) → a ≠ [] → x ≤ n →
    a.foldl (fun x w => max x (f w)) x = n := by
  intro a
  induction a with
  | nil => intro x _ h; exact absurd rfl h
  | cons w ws ih =>
    intro x h _ hx
    have hw := h w (by simp)
    simp only [List.foldl_cons, hw, max_eq_right hx]
    by_cases hws : ws = []
    · simp [hws]
    · exact ih n (fun w hw => h w (by simp [hw])) hws (le_refl _)

theorem foldl_max_le {α : Type} (f : α → Int) : ∀ (a : List α) (x : Int),
    x ≤ a.foldl (fun x w => max x (f w)) x ∧ ∀ w ∈ a, f w ≤ a.foldl (fun x w => max x (f w)) x := by
  intro a
  induction a with
  | nil => intro x; simp
  | cons w ws ih =>
    intro x
    obtain ⟨h1, h2⟩ := ih (max x (f w))
    refine ⟨le_trans (le_max_left _ _) h1, fun v hv => ?_⟩
    rcases List.mem_cons.mp hv with rfl | hv
    · exact le_trans (le_max_right _ _) h1
    · exact h2 v hv

theorem modelSet_ok (junk : Nat → Nat → ℝ) (a : Atlas) : ∃ c, modelSet junk a = .ok c ∧ c.deg = maxDegree a ∧
    c.ord = min (maxOrder a) (maxDegree a) ∧ c.rows = (maxDegree a + 1).toNat := by
  have h0 : 0 ≤ maxDegree a := (foldl_max_le _ a 0).1
  unfold modelSet newSet Coeffs.resize
  rw [if_neg (by omega)]
  simp only [Res.bind]
  by_cases h : maxOrder a < maxDegree a
  · rw [if_pos h, if_neg (by omega)]
    exact ⟨_, rfl, rfl, by simp only []; omega, rfl⟩
  · rw [if_neg h]
    exact ⟨_, rfl, rfl, by simp only [if_neg (show ¬ (-1 : Int) > 0 by decide)]; omega, rfl⟩

/-- C38 over the life of an ocean tide model: made from an atlas whose constituents all have degree `n`, after any number of
evaluations the next one gives the sum over the constituents. -/
theorem ocean_model_partial (junk : Nat → Nat → ℝ) (a : Atlas) (n : Nat) (hne : a ≠ [])
    (hn : ∀ w ∈ a, w.cos.deg = n) (hr : SameSize a (n + 1)) (qs : List (Iau.Epoch × Iau.Epoch × (Fin 5 → ℝ)))
    (tt ut1 : Iau.Epoch) (l l' F D Om : ℝ) :
    ∃ o o' o'', Ocean.make junk a none = .ok o ∧ oceanCalls qs o = .ok o' ∧ o'.coeffs tt ut1 ![l, l', F, D, Om] = .ok o'' ∧
      o''.mcs.deg = n ∧ ∀ i j, j ≤ i → i ≤ n →
        o''.mcs.C i j = potential a (fun d => angle d (Iau.gmst tt ut1) l l' F D Om) Coeffs.C i j ∧
        o''.mcs.S i j = potential a (fun d => angle d (Iau.gmst tt ut1) l l' F D Om) Coeffs.S i j := by
  obtain ⟨c, e, d1, d2, d3⟩ := modelSet_ok junk a
  have hd : maxDegree a = n := foldl_max_eq _ _ a 0 hn hne (by omega)
  rw [hd] at d1 d3
  have hc : c.rows = n + 1 := by omega
  have key : ∀ (qs : List (Iau.Epoch × Iau.Epoch × (Fin 5 → ℝ))) (o : Ocean), o.atlas = a → o.adm = none → o.mcs.rows = n + 1 →
      o.mcs.deg = n → ∃ o', oceanCalls qs o = .ok o' ∧ o'.atlas = a ∧ o'.adm = none ∧ o'.mcs.rows = n + 1 ∧ o'.mcs.deg = n := by
    intro qs
    induction qs with
    | nil => intro o h1 h2 h3 h4; exact ⟨o, rfl, h1, h2, h3, h4⟩
    | cons q qs ih =>
      intro o h1 h2 h3 h4
      obtain ⟨tt, ut1, args⟩ := q
      have ha : args = ![args 0, args 1, args 2, args 3, args 4] := by
        funext i; fin_cases i <;> rfl
      obtain ⟨m', e', hs⟩ := (ocean_sum_partial o.atlas o.mcs tt ut1 (args 0) (args 1) (args 2) (args 3) (args 4)).1 (by rw [h1, h3]; exact hr)
      rw [oceanCalls, Ocean.coeffs, h2, ha]
      simp only [e', Res.bind]
      exact ih _ h1 rfl (hs.2.2.1.trans h3) (hs.1.trans h4)
  obtain ⟨o', e1, h1, h2, h3, h4⟩ := key qs ⟨a, c, none⟩ rfl rfl hc d1
  obtain ⟨m', e', hs⟩ := (ocean_sum_partial o'.atlas o'.mcs tt ut1 l l' F D Om).1 (by rw [h1, h3]; exact hr)
  refine ⟨⟨a, c, none⟩, o', { o' with mcs := m' }, ?_, e1, ?_, hs.1.trans h4, fun i j hij hi => ?_⟩
  · unfold Ocean.make; rw [e]; rfl
  · unfold Ocean.coeffs; rw [h2]; simp only [e', Res.bind]
  · have := hs.2.2.2 i j hij (by omega)
    rw [h1] at this
    exact this

/-- C38 fails: an atlas with constituents of different degrees is accepted by the constructor, but every evaluation
stops in an assertion. -/
theorem ocean_degrees_fails (junk : Nat → Nat → ℝ) (a : Atlas) {w w' : Constituent} (hw : w ∈ a) (hw' : w' ∈ a)
    (h : w.cos.rows ≠ w'.cos.rows) (tt ut1 : Iau.Epoch) (l l' F D Om : ℝ) :
    ∃ o, Ocean.make junk a none = .ok o ∧ o.coeffs tt ut1 ![l, l', F, D, Om] = .abort := by
  obtain ⟨c, e, -⟩ := modelSet_ok junk a
  refine ⟨⟨a, c, none⟩, ?_, ?_⟩
  · unfold Ocean.make; rw [e]; rfl
  · have := (ocean_sum_partial a c tt ut1 l l' F D Om).2 (fun hs => h (((hs w hw).1).trans ((hs w' hw').1).symm))
    unfold Ocean.coeffs
    simp only [this, Res.bind]

/-- A set of degree `n` with given values. -/
def setOf (n : Nat) (v : ℝ) : Coeffs ℝ := ⟨n, n, n + 1, fun _ _ => v, fun _ _ => v, 1, 1, true⟩

/-- M2 and K1 of degree 4. -/
example (junk : Nat → Nat → ℝ) (qs : List (Iau.Epoch × Iau.Epoch × (Fin 5 → ℝ))) (tt ut1 : Iau.Epoch) (l l' F D Om : ℝ) :=
  ocean_model_partial junk [⟨⟨2, 0, 0, 0, 0, 0, 0⟩, setOf 4 1, setOf 4 2⟩, ⟨⟨1, 1, 0, 0, 0, 0, 0⟩, setOf 4 3, setOf 4 4⟩] 4 (by simp) (by simp [setOf]) (by simp [SameSize, setOf]) qs tt ut1 l l' F D Om

/-- M2 of degree 4 and K1 of degree 3. -/
example (junk : Nat → Nat → ℝ) (tt ut1 : Iau.Epoch) (l l' F D Om : ℝ) :
    ∃ o, Ocean.make junk [⟨⟨2, 0, 0, 0, 0, 0, 0⟩, setOf 4 1, setOf 4 2⟩, ⟨⟨1, 1, 0, 0, 0, 0, 0⟩, setOf 3 3, setOf 3 4⟩] none = .ok o ∧
      o.coeffs tt ut1 ![l, l', F, D, Om] = .abort :=
  ocean_degrees_fails junk _ (List.mem_cons_self ..) (List.mem_cons_of_mem _ (List.mem_cons_self ..)) (by simp [setOf]) tt ut1 l l' F D Om

/-! ### C40 -/

theorem sum_range_list (f : Nat → ℝ) (n : Nat) : ((List.range n).map f).sum = ∑ i : Fin n, f i := by
  induction n with
  | zero => simp
  | succ n ih => rw [List.range_succ, List.map_append, List.sum_append, ih, Fin.sum_univ_castSucc]; simp

theorem factor_eq (g : Admittance) (θ : DC → ℝ) (tri : ℝ → ℝ) (k : Nat) :
    g.factor θ tri k = ∑ f : Fin g.dood.length, g.A k f * tri (θ g.dood[f]) := by
  unfold Admittance.factor
  rw [sum_range_list]
  refine Finset.sum_congr rfl fun i _ => ?_
  simp

theorem admLoop_ok (g : Admittance) (θ : DC → ℝ) : ∀ (a : Atlas) (k : Nat) (m : Coeffs ℝ), SameSize a m.rows → k + a.length ≤ g.rows →
    ∃ m', admLoop g θ k a m = .ok m' ∧ m'.deg = m.deg ∧ m'.ord = m.ord ∧ m'.rows = m.rows ∧ ∀ i j,
      m'.C i j = m.C i j + ∑ x : Fin a.length, (a[x].cos.C i j * g.factor θ Real.cos (k + x) + a[x].sin.C i j * g.factor θ Real.sin (k + x)) ∧
      m'.S i j = m.S i j + ∑ x : Fin a.length, (a[x].cos.S i j * g.factor θ Real.cos (k + x) + a[x].sin.S i j * g.factor θ Real.sin (k + x)) := by
  intro a
  induction a with
  | nil => intro k m _ _; exact ⟨m, rfl, rfl, rfl, rfl, by simp⟩
  | cons w ws ih =>
    intro k m h hk
    obtain ⟨h1, h2⟩ := h w (by simp)
    simp only [List.length_cons] at hk
    rw [admLoop, if_pos (by omega), accum_ok h1 h2]
    simp only [Res.bind]
    obtain ⟨m', e, d1, d2, d3, hv⟩ := ih (k + 1)
      { m with C := fun i j => m.C i j + (w.cos.C i j * g.factor θ Real.cos k + w.sin.C i j * g.factor θ Real.sin k),
               S := fun i j => m.S i j + (w.cos.S i j * g.factor θ Real.cos k + w.sin.S i j * g.factor θ Real.sin k) }
      (fun w' hw' => h w' (by simp [hw'])) (by omega)
    refine ⟨m', e, d1, d2, d3, fun i j => ?_⟩
    obtain ⟨v1, v2⟩ := hv i j
    rw [v1, v2]
    have e1 : ∀ x : Nat, k + 1 + x = k + (x + 1) := fun x => by omega
    simp only [List.length_cons, Fin.sum_univ_succ, e1]
    simp [add_assoc]

/-- C40: the contribution of major wave `k` at the angle of wave `f` of the matrix. -/
noncomputable def waveAt (w : Constituent) (θ : ℝ) (v : Coeffs ℝ → Nat → Nat → ℝ) (i j : Nat) : ℝ :=
  v w.cos i j * Real.cos θ + v w.sin i j * Real.sin θ

/-- C40: with a matrix that has a row for each major wave and a column for each wave of the Doodson matrix, every
coefficient is the sum over all pairs of waves of the matrix element times the major wave at the angle of the other wave,
whatever the coefficients were before. -/
theorem admittance_sum_partial (a : Atlas) (g : Admittance) (mcs : Coeffs ℝ) (hs : SameSize a mcs.rows) (hr : a.length ≤ g.rows)
    (hc : g.cols = g.dood.length) (tt ut1 : Iau.Epoch) (l l' F D Om : ℝ) :
    ∃ m', oceanCoeffsAdm a g mcs tt ut1 ![l, l', F, D, Om] = .ok m' ∧
      IsSet mcs m'
        (fun i j => ∑ f : Fin g.dood.length, ∑ k : Fin a.length,
          g.A k f * waveAt a[k] (angle g.dood[f] (Iau.gmst tt ut1) l l' F D Om) Coeffs.C i j)
        (fun i j => ∑ f : Fin g.dood.length, ∑ k : Fin a.length,
          g.A k f * waveAt a[k] (angle g.dood[f] (Iau.gmst tt ut1) l l' F D Om) Coeffs.S i j) := by
  unfold oceanCoeffsAdm
  simp only []
  rw [if_neg (by simp [hc])]
  set fd := delaunay2doodson ![l, l', F, D, Om] (Iau.gmst tt ut1) with hfd
  obtain ⟨m', e, d1, d2, d3, hv⟩ := admLoop_ok g (fun d => d.argument fd) a 0 mcs.clear hs (by omega)
  refine ⟨m', e, d1, d2, d3, fun i j _ _ => ?_⟩
  obtain ⟨v1, v2⟩ := hv i j
  rw [v1, v2]
  have hang : ∀ d : DC, Real.cos (d.argument fd) = Real.cos (angle d (Iau.gmst tt ut1) l l' F D Om) ∧
      Real.sin (d.argument fd) = Real.sin (angle d (Iau.gmst tt ut1) l l' F D Om) :=
    fun d => cong_cos (argument_angle d (Iau.gmst tt ut1) l l' F D Om)
  constructor
  all_goals
    simp only [Coeffs.clear, zero_add, factor_eq, waveAt, hang]
    rw [Finset.sum_comm]
    refine Finset.sum_congr rfl fun k _ => ?_
    rw [Finset.mul_sum, Finset.mul_sum, ← Finset.sum_add_distrib]
    refine Finset.sum_congr rfl fun f _ => ?_
    ring

/-- C40: the result is linear in the matrix. -/
theorem admittance_linear (a : Atlas) (dood : List DC) (rows : Nat) (A B : Nat → Nat → ℝ) (x y : ℝ) (mcs : Coeffs ℝ)
    (hs : SameSize a mcs.rows) (hr : a.length ≤ rows) (tt ut1 : Iau.Epoch) (l l' F D Om : ℝ) :
    ∃ ma mb m, oceanCoeffsAdm a ⟨dood, rows, dood.length, A⟩ mcs tt ut1 ![l, l', F, D, Om] = .ok ma ∧
      oceanCoeffsAdm a ⟨dood, rows, dood.length, B⟩ mcs tt ut1 ![l, l', F, D, Om] = .ok mb ∧
      oceanCoeffsAdm a ⟨dood, rows, dood.length, fun k f => x * A k f + y * B k f⟩ mcs tt ut1 ![l, l', F, D, Om] = .ok m ∧
      ∀ i j, j ≤ i → i < mcs.rows → m.C i j = x * ma.C i j + y * mb.C i j ∧ m.S i j = x * ma.S i j + y * mb.S i j := by
  obtain ⟨ma, ea, -, -, -, ha⟩ := admittance_sum_partial a ⟨dood, rows, dood.length, A⟩ mcs hs hr rfl tt ut1 l l' F D Om
  obtain ⟨mb, eb, -, -, -, hb⟩ := admittance_sum_partial a ⟨dood, rows, dood.length, B⟩ mcs hs hr rfl tt ut1 l l' F D Om
  obtain ⟨m, e, -, -, -, h⟩ := admittance_sum_partial a ⟨dood, rows, dood.length, fun k f => x * A k f + y * B k f⟩ mcs hs hr rfl
    tt ut1 l l' F D Om
  refine ⟨ma, mb, m, ea, eb, e, fun i j hij hi => ?_⟩
  rw [(h i j hij hi).1, (h i j hij hi).2, (ha i j hij hi).1, (ha i j hij hi).2, (hb i j hij hi).1, (hb i j hij hi).2]
  simp only [Finset.mul_sum, ← Finset.sum_add_distrib]
  constructor <;> exact Finset.sum_congr rfl fun f _ => Finset.sum_congr rfl fun k _ => by ring

/-- C40 fails: nothing compares the matrix with the atlas; with fewer rows than major waves the factors are read past
their end. -/
theorem admittance_rows_fails (a : Atlas) (g : Admittance) (mcs : Coeffs ℝ) (hs : SameSize a mcs.rows) (hr : g.rows < a.length)
    (hc : g.cols = g.dood.length) (tt ut1 : Iau.Epoch) (args : Fin 5 → ℝ) :
    oceanCoeffsAdm a g mcs tt ut1 args = .ub := by
  unfold oceanCoeffsAdm
  simp only []
  rw [if_neg (by simp [hc])]
  have key : ∀ (a : Atlas) (k : Nat) (m : Coeffs ℝ) (θ : DC → ℝ), SameSize a m.rows → k ≤ g.rows → g.rows < k + a.length →
      admLoop g θ k a m = .ub := by
    intro a
    induction a with
    | nil => intro k m θ _ _ h; simp at h; omega
    | cons w ws ih =>
      intro k m θ h hk hl
      rw [admLoop]
      split
      · obtain ⟨h1, h2⟩ := h w (by simp)
        rw [accum_ok h1 h2]
        refine ih (k + 1) _ θ (fun w' hw' => h w' (by simp [hw'])) (by omega) ?_
        simp only [List.length_cons] at hl; omega
      · rfl
  exact key a 0 _ _ hs (by omega) (by omega)

/-- One major wave, two waves in the matrix. -/
example (tt ut1 : Iau.Epoch) (l l' F D Om : ℝ) :=
  admittance_sum_partial [⟨⟨2, 0, 0, 0, 0, 0, 0⟩, setOf 2 1, setOf 2 2⟩]
    ⟨[⟨2, 0, 0, 0, 0, 0, 0⟩, ⟨2, 0, 1, 0, 0, 0, 0⟩], 1, 2, fun _ _ => 1⟩ (setOf 2 7) (by simp [SameSize, setOf]) (by simp) rfl tt ut1 l l' F D Om

/-! ### C39 -/

theorem make_ok {junk : Nat → Nat → ℝ} {d : DC} {n m : Int} {w : Constituent} (h : Constituent.make junk d n m = .ok w) :
    w.d = d ∧ w.cos = w.sin ∧ w.cos.deg = n ∧ w.cos.ord = (if m > 0 then m else n) ∧ w.cos.rows = (n + 1).toNat ∧
      -1 ≤ n := by
  unfold Constituent.make newSet at h
  split at h
  · simp [Res.bind] at h
  · simp only [Res.bind, Res.ok.injEq] at h
    subst h
    exact ⟨rfl, rfl, rfl, rfl, rfl, by omega⟩

/-- What an append to an atmospheric model does: with status 0 the constituent read from the file is at the end of the atlas,
its sets have the requested degree, and the container is unchanged or has the size of the new constituent; with another
status nothing changes. -/
theorem atm_append_cases {T : Type} (junk : Nat → Nat → ℝ) (x x' : Atm) (file : Option (Aod T × DC)) (n m : Int) (st : Nat)
    (h : x.append junk file n m = .ok (st, x')) :
    (st = 1 ∧ x' = x) ∨ (st = 0 ∧ ∃ a w c s, file = some (a, w.d) ∧ w.cos.deg = request a n ∧
      w.cos.ord = (if request a m > 0 then request a m else request a n) ∧ w.sin.deg = w.cos.deg ∧ w.sin.ord = w.cos.ord ∧
      w.cos.rows = (request a n + 1).toNat ∧ w.sin.rows = w.cos.rows ∧
      getTidal a c s (request a n) (request a m) = .ok (0, w.cos, w.sin) ∧ x'.atlas = x.atlas ++ [w] ∧
      (Le w.cos x.mcs → x'.mcs = x.mcs) ∧
      (¬ Le w.cos x.mcs → x'.mcs.deg = w.cos.deg ∧ x'.mcs.ord = w.cos.ord ∧ x'.mcs.rows = (w.cos.deg + 1).toNat)) := by
  unfold Atm.append at h
  cases file with
  | none => simp at h; left; exact ⟨h.1.symm, h.2.symm⟩
  | some f =>
    obtain ⟨a, d⟩ := f
    simp only [] at h
    change (Constituent.make junk d (request a n) (request a m)).bind _ = _ at h
    cases hm : Constituent.make junk d (request a n) (request a m) with
    | ok w0 =>
      simp only [hm, Res.bind] at h
      obtain ⟨k1, k2, k3, k4, k5, k6⟩ := make_ok hm
      change (getTidal a w0.cos w0.sin (request a n) (request a m)).bind _ = _ at h
      cases hg : getTidal a w0.cos w0.sin (request a n) (request a m) with
      | ok v =>
        obtain ⟨e, c, s⟩ := v
        simp only [hg, Res.bind] at h
        by_cases he : e = 0
        · subst he
          rw [if_neg (by simp)] at h
          obtain ⟨_, _, _, -, -, -, -, g1, g2, g3, g4, g5, g6, -, -⟩ := tidal_sound_partial a w0.cos w0.sin (request a n) (request a m) hg
          right
          have hd : -1 ≤ c.deg := by rw [g1, k3]; exact k6
          have hle : ∀ y : Coeffs ℝ, Le c y → grow junk y c.deg c.ord = .ok y := by
            intro y hl
            unfold grow
            rw [if_neg (by unfold Le at hl; omega)]
          have hgt : ∀ y : Coeffs ℝ, ¬ Le c y →
              ∃ y', grow junk y c.deg c.ord = .ok y' ∧ y'.deg = c.deg ∧ y'.ord = c.ord ∧ y'.rows = (c.deg + 1).toNat := by
            intro y hl
            unfold grow Coeffs.cresize
            rw [if_pos (by unfold Le at hl; omega), if_neg (by omega)]
            exact ⟨_, rfl, rfl, rfl, rfl⟩
          have hfin : ∃ y, x' = ⟨x.atlas ++ [⟨d, c, s⟩], y⟩ ∧ st = 0 ∧ (Le c x.mcs → y = x.mcs) ∧
              (¬ Le c x.mcs → y.deg = c.deg ∧ y.ord = c.ord ∧ y.rows = (c.deg + 1).toNat) := by
            by_cases hl : Le c x.mcs
            · simp only [hle _ hl, Res.ok.injEq, Prod.mk.injEq] at h
              exact ⟨x.mcs, h.2.symm, h.1.symm, fun _ => rfl, fun hn => absurd hl hn⟩
            · obtain ⟨y, e1, y1, y2, y3⟩ := hgt _ hl
              have hl2 : Le c y := ⟨by omega, by omega⟩
              simp only [e1, hle _ hl2, Res.ok.injEq, Prod.mk.injEq] at h
              exact ⟨y, h.2.symm, h.1.symm, fun hn => absurd hn hl, fun _ => ⟨y1, y2, y3⟩⟩
          obtain ⟨y, rfl, rfl, f1, f2⟩ := hfin
          refine ⟨rfl, a, ⟨d, c, s⟩, w0.cos, w0.sin, rfl, g1.trans k3, g2.trans k4, ?_, ?_, g3.trans k5, ?_, hg, rfl, f1, f2⟩
          · simp only []; rw [g4, g1, k2]
          · simp only []; rw [g5, g2, k2]
          · simp only []; rw [g6, g3, k2]
        · rw [if_pos he] at h
          simp only [Res.ok.injEq, Prod.mk.injEq] at h
          left; exact ⟨h.1.symm, h.2.symm⟩
      | ub => simp only [hg, Res.bind] at h; cases h
      | abort => simp only [hg, Res.bind] at h; cases h
      | throw => simp only [hg, Res.bind] at h; cases h
    | ub => simp only [hm, Res.bind] at h; cases h
    | abort => simp only [hm, Res.bind] at h; cases h
    | throw => simp only [hm, Res.bind] at h; cases h

/-- Of any two sets one is not larger than the other in both dimensions. -/
def Chain (a : Atlas) : Prop := ∀ w ∈ a, ∀ w' ∈ a, Le w.cos w'.cos ∨ Le w'.cos w.cos

/-- The container is large enough for all constituents. -/
def Enough (x : Atm) : Prop := ∀ w ∈ x.atlas, Le w.cos x.mcs ∧ Le w.sin x.mcs

/-- C39: after any sequence of appends to a new model the container has at least the degree and the order of each
constituent, if the sizes of the constituents form a chain (for example if order and degree are equal in each request).
Missing: sizes that do not form a chain, see `atm_container_fails`. -/
theorem atm_container_partial {T : Type} (junk : Nat → Nat → ℝ) (qs : List (Option (Aod T × DC) × Int × Int)) (x : Atm)
    (h : atmAppends junk qs Atm.new = .ok x) (hc : Chain x.atlas) : Enough x := by
  have pre : ∀ (qs : List (Option (Aod T × DC) × Int × Int)) (y : Atm), atmAppends junk qs y = .ok x → ∃ l, x.atlas = y.atlas ++ l := by
    intro qs
    induction qs with
    | nil => intro y h; rw [atmAppends, Res.ok.injEq] at h; exact ⟨[], by simp [h]⟩
    | cons q qs ih =>
      intro y h
      obtain ⟨f, n, m⟩ := q
      rw [atmAppends] at h
      cases ha : y.append junk f n m with
      | ok v =>
        rw [ha] at h
        obtain ⟨l, hl⟩ := ih v.2 h
        rcases atm_append_cases junk y v.2 f n m v.1 ha with ⟨-, e⟩ | ⟨-, a, w, c, s, -, -, -, -, -, -, -, -, e, -⟩
        · exact ⟨l, by rw [hl, e]⟩
        · exact ⟨[w] ++ l, by rw [hl, e]; simp⟩
      | ub => rw [ha] at h; cases h
      | abort => rw [ha] at h; cases h
      | throw => rw [ha] at h; cases h
  -- the container is empty or has the size of a constituent
  have key : ∀ (qs : List (Option (Aod T × DC) × Int × Int)) (y : Atm), atmAppends junk qs y = .ok x →
      (∀ w ∈ y.atlas, Le w.cos y.mcs ∧ w.sin.deg = w.cos.deg ∧ w.sin.ord = w.cos.ord) →
      ((∃ w ∈ y.atlas, y.mcs.deg = w.cos.deg ∧ y.mcs.ord = w.cos.ord) ∨ y.mcs.deg = 0 ∧ y.mcs.ord = 0) → Enough x := by
    intro qs
    induction qs with
    | nil =>
      intro y h h1 _
      rw [atmAppends, Res.ok.injEq] at h
      subst h
      intro w hw
      obtain ⟨e1, e2, e3⟩ := h1 w hw
      refine ⟨e1, ?_⟩
      unfold Le at *
      rw [e2, e3]; exact e1
    | cons q qs ih =>
      intro y h h1 h2
      obtain ⟨f, n, m⟩ := q
      rw [atmAppends] at h
      cases ha : y.append junk f n m with
      | ok v =>
        obtain ⟨st, z⟩ := v
        rw [ha] at h
        have h : atmAppends junk qs z = .ok x := h
        rcases atm_append_cases junk y z f n m st ha with ⟨-, rfl⟩ | ⟨-, a, w, c, s, -, w1, w2, w3, w4, w5, w6, -, w7, f1, f2⟩
        · exact ih z h h1 h2
        · obtain ⟨l, hl⟩ := pre qs z h
          have hmem : ∀ v ∈ y.atlas ++ [w], v ∈ x.atlas := fun v hv => by rw [hl, w7]; exact List.mem_append_left _ hv
          have hchain : ∀ v ∈ y.atlas, Le w.cos v.cos ∨ Le v.cos w.cos :=
            fun v hv => hc w (hmem w (by simp)) v (hmem v (by simp [hv]))
          refine ih z h ?_ ?_
          · rw [w7]
            intro v hv
            by_cases hle : Le w.cos y.mcs
            · rw [f1 hle]
              rcases List.mem_append.mp hv with hv | hv
              · exact h1 v hv
              · rw [List.mem_singleton.mp hv]; exact ⟨hle, w3, w4⟩
            · obtain ⟨z1, z2, -⟩ := f2 hle
              rcases List.mem_append.mp hv with hv | hv
              · obtain ⟨e1, e2, e3⟩ := h1 v hv
                refine ⟨?_, e2, e3⟩
                unfold Le at *
                rw [z1, z2]
                rcases h2 with ⟨w0, hw0, m1, m2⟩ | ⟨m1, m2⟩
                · have := hchain w0 hw0
                  have := hchain v hv
                  omega
                · have := hchain v hv
                  omega
              · rw [List.mem_singleton.mp hv]
                exact ⟨⟨by omega, by omega⟩, w3, w4⟩
          · by_cases hle : Le w.cos y.mcs
            · rw [f1 hle, w7]
              rcases h2 with ⟨w0, hw0, m⟩ | m
              · exact Or.inl ⟨w0, by simp [hw0], m⟩
              · exact Or.inr m
            · obtain ⟨z1, z2, -⟩ := f2 hle
              exact Or.inl ⟨w, by simp [w7], z1, z2⟩
      | ub => rw [ha] at h; cases h
      | abort => rw [ha] at h; cases h
      | throw => rw [ha] at h; cases h
  exact key qs Atm.new h (by simp [Atm.new]) (Or.inr ⟨rfl, rfl⟩)

/-- An AOD1B file with one coefficient of each kind, maximum degree 3. -/
def exFile : Aod Unit := ⟨exTidal [], 3, 2, (), (), []⟩

/-- Appending it with degree `n` and order `m`. -/
theorem exFile_append (junk : Nat → Nat → ℝ) (x : Atm) (d : DC) {n m : Int} (hm : 0 ≤ m) (hmn : m ≤ n) (hn : n ≤ 3) :
    ∃ x', x.append junk (some (exFile, d)) n m = .ok (0, x') := by
  have e1 : request exFile n = n := by unfold request; rw [if_neg (by omega)]
  have e2 : request exFile m = m := by unfold request; rw [if_neg (by omega)]
  have e3 : Constituent.make junk d n m = .ok ⟨d, ⟨n, if m > 0 then m else n, (n + 1).toNat, junk, junk, 3.986004418e14, 6378136.6, true⟩,
      ⟨n, if m > 0 then m else n, (n + 1).toNat, junk, junk, 3.986004418e14, 6378136.6, true⟩⟩ := by
    unfold Constituent.make newSet
    rw [if_neg (by omega)]
    rfl
  have hord : m ≤ (if m > 0 then m else n) := by split <;> omega
  obtain ⟨cc, cs, h, -⟩ := tidal_complete exFile ⟨n, if m > 0 then m else n, (n + 1).toNat, junk, junk, 3.986004418e14, 6378136.6, true⟩
    ⟨n, if m > 0 then m else n, (n + 1).toNat, junk, junk, 3.986004418e14, 6378136.6, true⟩ n m
    (by rw [e1, e2]; exact exTidal_file [] (by unfold ShortLine; decide) n m) (by rw [e1, e2]; exact hmn) (by rw [e1]; exact hn)
    (by rw [e1, e2]; exact ⟨le_refl _, hord, by simp⟩) (by rw [e1, e2]; exact ⟨le_refl _, hord, by simp⟩)
    (by simp [Row.Triangle]) (by simp [Row.Triangle])
  obtain ⟨_, _, _, -, -, -, -, g1, -⟩ := tidal_sound_partial exFile _ _ n m h
  unfold Atm.append
  simp only []
  rw [show (if n < 0 then exFile.maxDegree else n) = n from if_neg (by omega),
    show (if m < 0 then exFile.maxDegree else m) = m from if_neg (by omega), e3]
  simp only [Res.bind, h]
  rw [if_neg (by simp)]
  have hd : ¬ cc.deg < -1 := by rw [g1]; simp; omega
  have hgrow : ∀ y : Coeffs ℝ, ∃ y', grow junk y cc.deg cc.ord = .ok y' := by
    intro y
    unfold grow Coeffs.cresize
    split
    · exact ⟨_, rfl⟩
    · exact ⟨_, rfl⟩
  obtain ⟨y1, h1⟩ := hgrow x.mcs
  obtain ⟨y2, h2⟩ := hgrow y1
  simp only [h1, h2]
  exact ⟨_, rfl⟩

/-- Two appends with order equal to degree meet the hypotheses. -/
example (junk : Nat → Nat → ℝ) : ∃ x, atmAppends junk [(some (exFile, ⟨2, 0, 0, 0, 0, 0, 0⟩), 2, 2), (some (exFile, ⟨1, 1, 0, 0, 0, 0, 0⟩), 3, 3)]
    Atm.new = .ok x ∧ Chain x.atlas ∧ x.atlas.length = 2 ∧ Enough x := by
  obtain ⟨x1, h1⟩ := exFile_append junk Atm.new ⟨2, 0, 0, 0, 0, 0, 0⟩ (n := 2) (m := 2) (by decide) (by decide) (by decide)
  obtain ⟨x2, h2⟩ := exFile_append junk x1 ⟨1, 1, 0, 0, 0, 0, 0⟩ (n := 3) (m := 3) (by decide) (by decide) (by decide)
  have h : atmAppends junk [(some (exFile, ⟨2, 0, 0, 0, 0, 0, 0⟩), 2, 2), (some (exFile, ⟨1, 1, 0, 0, 0, 0, 0⟩), 3, 3)] Atm.new = .ok x2 := by
    simp only [atmAppends, h1, h2, Res.bind]
  rcases atm_append_cases junk _ _ _ _ _ _ h1 with ⟨h, -⟩ | ⟨-, a, w, _, _, ea, w1, w2, -, -, -, -, -, e1, -⟩
  · cases h
  rcases atm_append_cases junk _ _ _ _ _ _ h2 with ⟨h, -⟩ | ⟨-, a', w', _, _, ea', v1, v2, -, -, -, -, -, e2, -⟩
  · cases h
  have hat : x2.atlas = [w, w'] := by rw [e2, e1]; rfl
  have hc : Chain x2.atlas := by
    rw [hat]
    intro x hx y hy
    simp only [List.mem_cons, List.not_mem_nil, or_false] at hx hy
    simp [request] at w1 w2 v1 v2
    unfold Le
    rcases hx with rfl | rfl <;> rcases hy with rfl | rfl <;> omega
  exact ⟨x2, h, hc, by simp [hat], atm_container_partial junk _ _ h hc⟩

/-- C39 fails: after appending a wave of degree 3 and order 1 and then one of degree 2 and order 2, the container has degree 2,
less than the first wave; every evaluation stops in an assertion. -/
theorem atm_container_fails (junk : Nat → Nat → ℝ) (d d' : DC) : ∃ x,
    atmAppends junk [(some (exFile, d), 3, 1), (some (exFile, d'), 2, 2)] Atm.new = .ok x ∧
    (∃ w ∈ x.atlas, x.mcs.deg < w.cos.deg) ∧ ∀ tt ut1 l l' F D Om, x.coeffs tt ut1 ![l, l', F, D, Om] = .abort := by
  obtain ⟨x1, h1⟩ := exFile_append junk Atm.new d (n := 3) (m := 1) (by decide) (by decide) (by decide)
  obtain ⟨x2, h2⟩ := exFile_append junk x1 d' (n := 2) (m := 2) (by decide) (by decide) (by decide)
  have h : atmAppends junk [(some (exFile, d), 3, 1), (some (exFile, d'), 2, 2)] Atm.new = .ok x2 := by
    simp only [atmAppends, h1, h2, Res.bind]
  rcases atm_append_cases junk _ _ _ _ _ _ h1 with ⟨h, -⟩ | ⟨-, a, w, _, _, ea, w1, w2, -, -, w5, -, -, e1, -, f1⟩
  · cases h
  rcases atm_append_cases junk _ _ _ _ _ _ h2 with ⟨h, -⟩ | ⟨-, a', w', _, _, ea', v1, v2, -, -, v5, -, -, e2, -, f2⟩
  · cases h
  simp [request] at w1 w2 v1 v2 w5
  have hn1 : ¬ Le w.cos Atm.new.mcs := by simp [Le, Atm.new, emptySet, w1]
  obtain ⟨m1, m2, m3⟩ := f1 hn1
  have hn2 : ¬ Le w'.cos x1.mcs := by unfold Le; omega
  obtain ⟨m4, m5, m6⟩ := f2 hn2
  have hw : w ∈ x2.atlas := by rw [e2, e1]; simp
  refine ⟨x2, h, ⟨w, hw, by omega⟩, ?_⟩
  intro tt ut1 l l' F D Om
  unfold Atm.coeffs
  rw [(atm_sum_partial x2.atlas x2.mcs tt ut1 l l' F D Om).2 ?_]
  · rfl
  · intro hs
    have := (hs w hw).1
    omega

/-- C38 over the life of an atmospheric model: constituents of the same degree `n ≥ 1` (and order) appended to a new model
are summed at every later evaluation. -/
theorem atm_model_partial {T : Type} (junk : Nat → Nat → ℝ) (qs : List (Option (Aod T × DC) × Int × Int)) (x : Atm)
    (h : atmAppends junk qs Atm.new = .ok x) (n : Nat) (hn : 1 ≤ n) (hne : x.atlas ≠ [])
    (hs : ∀ w ∈ x.atlas, w.cos.deg = n ∧ w.cos.ord = n) (tt ut1 : Iau.Epoch) (l l' F D Om : ℝ) :
    ∃ x', x.coeffs tt ut1 ![l, l', F, D, Om] = .ok x' ∧ x'.mcs.deg = n ∧ ∀ i j, j ≤ i → i ≤ n →
      x'.mcs.C i j = potential x.atlas (fun d => angle d (Iau.gmst tt ut1) l l' F D Om + d.pifac * (Real.pi / 2)) Coeffs.C i j ∧
      x'.mcs.S i j = potential x.atlas (fun d => angle d (Iau.gmst tt ut1) l l' F D Om + d.pifac * (Real.pi / 2)) Coeffs.S i j := by
  have key : ∀ (qs : List (Option (Aod T × DC) × Int × Int)) (y : Atm), atmAppends junk qs y = .ok x →
      SameSize y.atlas (n + 1) → (if y.atlas = [] then y.mcs.deg = 0 ∧ y.mcs.ord = 0
        else y.mcs.deg = n ∧ y.mcs.ord = n ∧ y.mcs.rows = n + 1) →
      SameSize x.atlas (n + 1) ∧ x.mcs.deg = n ∧ x.mcs.rows = n + 1 := by
    intro qs
    induction qs with
    | nil =>
      intro y h h1 h2
      rw [atmAppends, Res.ok.injEq] at h
      subst h
      rw [if_neg hne] at h2
      exact ⟨h1, h2.1, h2.2.2⟩
    | cons q qs ih =>
      intro y h h1 h2
      obtain ⟨f, d, o⟩ := q
      rw [atmAppends] at h
      cases ha : y.append junk f d o with
      | ok v =>
        obtain ⟨st, z⟩ := v
        rw [ha] at h
        have h : atmAppends junk qs z = .ok x := h
        rcases atm_append_cases junk y z f d o st ha with ⟨-, rfl⟩ | ⟨-, a, w, c, s, -, w1, w2, w3, w4, w5, w6, -, w7, f1, f2⟩
        · exact ih z h h1 h2
        · have hw : w ∈ x.atlas := by
            have pre : ∀ (qs : List (Option (Aod T × DC) × Int × Int)) (y : Atm), atmAppends junk qs y = .ok x →
                ∀ v ∈ y.atlas, v ∈ x.atlas := by
              intro qs
              induction qs with
              | nil => intro y h v hv; rw [atmAppends, Res.ok.injEq] at h; rw [← h]; exact hv
              | cons q qs ih =>
                intro y h v hv
                obtain ⟨f, n, m⟩ := q
                rw [atmAppends] at h
                cases ha : y.append junk f n m with
                | ok u =>
                  rw [ha] at h
                  refine ih u.2 h v ?_
                  rcases atm_append_cases junk y u.2 f n m u.1 ha with ⟨-, e⟩ | ⟨-, a, w, c, s, -, -, -, -, -, -, -, -, e, -⟩
                  · rw [e]; exact hv
                  · rw [e]; simp [hv]
                | ub => rw [ha] at h; cases h
                | abort => rw [ha] at h; cases h
                | throw => rw [ha] at h; cases h
            exact pre qs z h w (by rw [w7]; simp)
          obtain ⟨d1, d2⟩ := hs w hw
          refine ih z h ?_ ?_
          · rw [w7]
            intro v hv
            rcases List.mem_append.mp hv with hv | hv
            · exact h1 v hv
            · rw [List.mem_singleton.mp hv]; constructor <;> omega
          · rw [w7, if_neg (by simp)]
            by_cases hle : Le w.cos y.mcs
            · rw [f1 hle]
              unfold Le at hle
              split at h2
              · omega
              · exact h2
            · obtain ⟨z1, z2, z3⟩ := f2 hle
              exact ⟨by omega, by omega, by omega⟩
      | ub => rw [ha] at h; cases h
      | abort => rw [ha] at h; cases h
      | throw => rw [ha] at h; cases h
  obtain ⟨k1, k2, k3⟩ := key qs Atm.new h (by simp [SameSize, Atm.new]) (by simp [Atm.new, emptySet])
  obtain ⟨m', e, hv⟩ := (atm_sum_partial x.atlas x.mcs tt ut1 l l' F D Om).1 (by rw [k3]; exact k1)
  refine ⟨{ x with mcs := m' }, ?_, hv.1.trans k2, fun i j hij hi => hv.2.2.2 i j hij (by omega)⟩
  unfold Atm.coeffs
  rw [e]
  rfl

/-- Two waves of degree 3. -/
example (junk : Nat → Nat → ℝ) : ∃ x, atmAppends junk [(some (exFile, ⟨2, 0, 0, 0, 0, 0, 0⟩), 3, 3), (some (exFile, ⟨1, 1, 0, 0, 0, 0, 0⟩), 3, 3)]
    Atm.new = .ok x ∧ x.atlas ≠ [] ∧ ∀ w ∈ x.atlas, w.cos.deg = (3 : Nat) ∧ w.cos.ord = (3 : Nat) := by
  obtain ⟨x1, h1⟩ := exFile_append junk Atm.new ⟨2, 0, 0, 0, 0, 0, 0⟩ (n := 3) (m := 3) (by decide) (by decide) (by decide)
  obtain ⟨x2, h2⟩ := exFile_append junk x1 ⟨1, 1, 0, 0, 0, 0, 0⟩ (n := 3) (m := 3) (by decide) (by decide) (by decide)
  rcases atm_append_cases junk _ _ _ _ _ _ h1 with ⟨h, -⟩ | ⟨-, a, w, _, _, ea, w1, w2, -, -, -, -, -, e1, -⟩
  · cases h
  rcases atm_append_cases junk _ _ _ _ _ _ h2 with ⟨h, -⟩ | ⟨-, a', w', _, _, ea', v1, v2, -, -, -, -, -, e2, -⟩
  · cases h
  simp [request] at w1 w2 v1 v2
  refine ⟨x2, by simp only [atmAppends, h1, h2, Res.bind], by rw [e2]; simp, ?_⟩
  rw [e2, e1]
  intro v hv
  simp [Atm.new] at hv
  rcases hv with rfl | rfl
  · exact ⟨w1, w2⟩
  · exact ⟨v1, v2⟩

/-- C37 fails for atmospheric models: appending a file twice gives two constituents with the same Doodson number. -/
theorem atm_duplicate_fails (junk : Nat → Nat → ℝ) (d : DC) : ∃ x,
    atmAppends junk [(some (exFile, d), 3, 3), (some (exFile, d), 3, 3)] Atm.new = .ok x ∧ x.atlas.length = 2 ∧ ∀ w ∈ x.atlas, w.d = d := by
  obtain ⟨x1, h1⟩ := exFile_append junk Atm.new d (n := 3) (m := 3) (by decide) (by decide) (by decide)
  obtain ⟨x2, h2⟩ := exFile_append junk x1 d (n := 3) (m := 3) (by decide) (by decide) (by decide)
  rcases atm_append_cases junk _ _ _ _ _ _ h1 with ⟨h, -⟩ | ⟨-, a, w, _, _, ea, -, -, -, -, -, -, -, e1, -⟩
  · cases h
  rcases atm_append_cases junk _ _ _ _ _ _ h2 with ⟨h, -⟩ | ⟨-, a', w', _, _, ea', -, -, -, -, -, -, -, e2, -⟩
  · cases h
  simp at ea ea'
  refine ⟨x2, by simp only [atmAppends, h1, h2, Res.bind], by rw [e2, e1]; rfl, ?_⟩
  rw [e2, e1]
  intro v hv
  simp [Atm.new] at hv
  rcases hv with rfl | rfl
  · exact ea.2.symm
  · exact ea'.2.symm

end Verif.Tide
