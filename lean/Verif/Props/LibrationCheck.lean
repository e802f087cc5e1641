import Verif.Model.LibrationCheck
import Verif.Spec.LibrationCheck
import Verif.Props.Costg
import Verif.Props.Orient
import Verif.Props.EopTides
import Mathlib.Analysis.Real.Pi.Bounds
/-
C128: the check of libration against a file of reference values.
-/
namespace Verif.LibrationCheck
open Verif Verif.Chars Verif.Costg Verif.EopTides Verif.Angle
open Verif.Orient (centuries argL argLp argF argD argOm)

/-! ### What is computed at a date -/

/-- The sidereal time of the program is that of the routines at the UT1 it uses. -/
theorem gmst82_gmst (e : Iau.Epoch) : Cong (Iau.gmst82 e) (gmst ((e.mjd : ℝ) + e.f)) := by
  refine (gmst82_correct e).2.trans ⟨51544 - e.mjd, ?_⟩
  unfold Iau.gmst82Poly gmst Iau.Epoch.jcenturies Iau.Epoch.daysSinceJ2000 centuries
  push_cast
  ring

/-- Sidereal time changes little between UT1 and TT. -/
theorem gmst_shift {t s : ℝ} (h1 : 47892 ≤ t) (h2 : t ≤ 66154) (h3 : 0 ≤ s) (h4 : s ≤ 69.184) :
    |gmst (t + (-s) / 86400) - gmst t| ≤ 0.00505 := by
  have hp0 := Real.pi_pos
  have hp := Real.pi_lt_d4
  obtain ⟨T, hT⟩ : ∃ T, T = centuries t := ⟨_, rfl⟩
  obtain ⟨δ, hδ⟩ : ∃ δ, δ = s / 3155760000 := ⟨_, rfl⟩
  have e1 : centuries (t + (-s) / 86400) = T - δ := by rw [hT, hδ]; unfold centuries; ring
  have a1 : -1 ≤ T := by rw [hT]; unfold centuries; rw [le_div_iff₀ (by norm_num)]; linarith
  have a2 : T ≤ 1 := by rw [hT]; unfold centuries; rw [div_le_iff₀ (by norm_num)]; linarith
  have b1 : 0 ≤ δ := by rw [hδ]; positivity
  have b2 : δ ≤ 2.1924e-8 := by rw [hδ, div_le_iff₀ (by norm_num)]; linarith
  unfold gmst
  rw [e1, ← hT]
  have key : (67310.54841 + (T - δ) * ((8640184.812866 + 3155760000) + (T - δ) * (0.093104 + (T - δ) * (-0.0000062)))) / 86400 *
      (2 * Real.pi) - (67310.54841 + T * ((8640184.812866 + 3155760000) + T * (0.093104 + T * (-0.0000062)))) / 86400 * (2 * Real.pi) =
      -(δ * (3164400184.812866 + 0.093104 * (2 * T - δ) - 0.0000062 * (3 * T ^ 2 - 3 * T * δ + δ ^ 2)) / 86400 * (2 * Real.pi)) := by ring
  rw [key, abs_neg]
  obtain ⟨m, hm⟩ : ∃ m, m = 3164400184.812866 + 0.093104 * (2 * T - δ) - 0.0000062 * (3 * T ^ 2 - 3 * T * δ + δ ^ 2) := ⟨_, rfl⟩
  have q1 : T ^ 2 ≤ 1 := by nlinarith
  have q2 : |T * δ| ≤ 1 := by
    rw [abs_mul, abs_of_nonneg b1]
    have : |T| ≤ 1 := abs_le.mpr ⟨a1, a2⟩
    nlinarith [abs_nonneg T]
  have q3 : δ ^ 2 ≤ 1 := by nlinarith
  have q4 := abs_le.mp q2
  have m1 : 0 ≤ m := by rw [hm]; nlinarith [sq_nonneg T, sq_nonneg δ]
  have m2 : m ≤ 3164400186 := by rw [hm]; nlinarith [sq_nonneg T, sq_nonneg δ]
  rw [← hm, abs_of_nonneg (by positivity)]
  have d1 : δ * m ≤ 2.1924e-8 * 3164400186 := mul_le_mul b2 m2 m1 (by norm_num)
  have d2 : δ * m / 86400 ≤ 2.1924e-8 * 3164400186 / 86400 := by gcongr
  calc δ * m / 86400 * (2 * Real.pi) ≤ (2.1924e-8 * 3164400186 / 86400) * (2 * 3.1416) := by gcongr
    _ ≤ 0.00505 := by norm_num

/-- The size of a sum of a routine as the angle of GMST changes. -/
def weight (a b : Ref.Row → Int) (rows : List Ref.Row) : ℚ := (rows.map fun r => (|(a r : ℚ)| + |(b r : ℚ)|) / 100 * |(r.g : ℚ)|).sum

theorem sum_shift (a b : Ref.Row → Int) (rows : List Ref.Row) (g g' l l' F D Om : ℝ) :
    |(rows.map fun r => (a r : ℝ) / 100 * Real.sin (r.angle g l l' F D Om) + (b r : ℝ) / 100 * Real.cos (r.angle g l l' F D Om)).sum -
      (rows.map fun r => (a r : ℝ) / 100 * Real.sin (r.angle g' l l' F D Om) + (b r : ℝ) / 100 * Real.cos (r.angle g' l l' F D Om)).sum| ≤
      (weight a b rows : ℚ) * |g - g'| := by
  unfold weight
  induction rows with
  | nil => simp
  | cons r rows ih =>
    simp only [List.map_cons, List.sum_cons]
    push_cast
    have hd : r.angle g l l' F D Om - r.angle g' l l' F D Om = r.g * (g - g') := by unfold Ref.Row.angle; ring
    have s1 := Real.abs_sin_sub_sin_le (r.angle g l l' F D Om) (r.angle g' l l' F D Om)
    have s2 := Real.abs_cos_sub_cos_le (r.angle g l l' F D Om) (r.angle g' l l' F D Om)
    rw [hd, abs_mul] at s1 s2
    set S := Real.sin (r.angle g l l' F D Om)
    set S' := Real.sin (r.angle g' l l' F D Om)
    set C := Real.cos (r.angle g l l' F D Om)
    set C' := Real.cos (r.angle g' l l' F D Om)
    have e1 : |(a r : ℝ) / 100 * (S - S')| ≤ |(a r : ℝ)| / 100 * (|(r.g : ℝ)| * |g - g'|) := by
      rw [abs_mul, abs_div, abs_of_pos (by norm_num : (0 : ℝ) < 100)]
      gcongr
    have e2 : |(b r : ℝ) / 100 * (C - C')| ≤ |(b r : ℝ)| / 100 * (|(r.g : ℝ)| * |g - g'|) := by
      rw [abs_mul, abs_div, abs_of_pos (by norm_num : (0 : ℝ) < 100)]
      gcongr
    rw [abs_le] at e1 e2 ih ⊢
    push_cast at ih
    constructor <;> nlinarith [e1.1, e1.2, e2.1, e2.2, ih.1, ih.2]

theorem weights : weight Ref.Row.a Ref.Row.b Ref.utlibr ≤ 11 ∧ weight Ref.Row.c Ref.Row.e Ref.utlibr ≤ 133.6 ∧
    weight Ref.Row.a Ref.Row.b Ref.pmsdnut2 ≤ 62 ∧ weight Ref.Row.c Ref.Row.e Ref.pmsdnut2 ≤ 62 := by
  refine ⟨?_, ?_, ?_, ?_⟩ <;> decide +kernel

/-- Whole turns of the arguments do not matter. -/
theorem sums_turns (rows : List Ref.Row) {g g' l l₁ p p₁ F F₁ D D₁ Om Om₁ : ℝ} (hg : Cong g g') (h0 : Cong l l₁) (h1 : Cong p p₁)
    (h2 : Cong F F₁) (h3 : Cong D D₁) (h4 : Cong Om Om₁) : Ref.first rows g l p F D Om = Ref.first rows g' l₁ p₁ F₁ D₁ Om₁ ∧
      Ref.second rows g l p F D Om = Ref.second rows g' l₁ p₁ F₁ D₁ Om₁ := by
  have h : ∀ r : Ref.Row, Cong (r.angle g l p F D Om) (r.angle g' l₁ p₁ F₁ D₁ Om₁) := fun r =>
    ((((((hg.add (Cong.refl Real.pi)).mul_int r.g).add (h0.mul_int r.l)).add (h1.mul_int r.l')).add (h2.mul_int r.F)).add
      (h3.mul_int r.D)).add (h4.mul_int r.Om)
  constructor
  · refine congrArg List.sum (List.map_congr_left fun r _ => ?_)
    rw [(SolidTide.cong_trig (h r)).1, (SolidTide.cong_trig (h r)).2]
  · refine congrArg List.sum (List.map_congr_left fun r _ => ?_)
    rw [(SolidTide.cong_trig (h r)).1, (SolidTide.cong_trig (h r)).2]

/-- The date of an epoch. -/
theorem epoch_ok {t : ℚ} (h0 : 0 ≤ t) (h1 : t < 2147483648) : ∃ e, epoch t = .ok e ∧ (e.mjd : ℝ) + e.f = t := by
  unfold epoch
  rw [epochOf_ok h0 h1]
  refine ⟨_, rfl, ?_⟩
  show ((⌊_⌋ : ℤ) : ℝ) + Int.fract _ = _
  rw [Int.floor_add_fract]
  have := Int.floor_add_fract t
  unfold epochAt
  push_cast
  rw [mul_div_assoc, div_self (by norm_num), mul_one]
  exact_mod_cast this

/-- C128: what the program computes for a date is what the routines give for it, to 0.066 and 0.88 microseconds and 0.32 microarcseconds. -/
theorem libration_routines (dat : ℝ → ℝ) {e : Iau.Epoch} {t : ℝ} (he : (e.mjd : ℝ) + e.f = t) (h1 : 47892 ≤ t) (h2 : t ≤ 66154)
    (h3 : 10 ≤ dat t) (h4 : dat t ≤ 37) :
    |(libration dat e).dut1 - at' (Ref.first Ref.utlibr) t (gmst t)| ≤ 0.066 ∧
    |(libration dat e).dlod - at' (Ref.second Ref.utlibr) t (gmst t)| ≤ 0.88 ∧
    |(libration dat e).dxp - at' (Ref.first Ref.pmsdnut2) t (gmst t)| ≤ 0.32 ∧
    |(libration dat e).dyp - at' (Ref.second Ref.pmsdnut2) t (gmst t)| ≤ 0.32 := by
  have hT : e.jcenturies = centuries t := by rw [← he]; rfl
  have hg : Cong (Iau.gmst82 (Orient.tt2ut1 dat e 0)) (gmst (t + (-(dat t + 32.184)) / 86400)) := by
    refine (gmst82_gmst _).trans (Cong.of_eq (congrArg gmst ?_))
    show ((⌊_⌋ : ℤ) : ℝ) + Int.fract _ = _
    rw [Int.floor_add_fract, he]
    ring
  have hs := gmst_shift h1 h2 (s := dat t + 32.184) (by linarith) (by linarith)
  have hc := fargsAt_cong (centuries t)
  obtain ⟨d0, d1, d2, d3, d4⟩ := Orient.dargs_eq (centuries t)
  have c0 := hc 0; have c1 := hc 1; have c2 := hc 2; have c3 := hc 3; have c4 := hc 4
  rw [d0] at c0; rw [d1] at c1; rw [d2] at c2; rw [d3] at c3; rw [d4] at c4
  have P := libration_pole (Fundarg.fal03 (centuries t)) (Fundarg.falp03 (centuries t)) (Fundarg.faf03 (centuries t))
    (Fundarg.fad03 (centuries t)) (Fundarg.faom03 (centuries t)) (Iau.gmst82 (Orient.tt2ut1 dat e 0))
  have U := libration_close_partial (Fundarg.fal03 (centuries t)) (Fundarg.falp03 (centuries t)) (Fundarg.faf03 (centuries t))
    (Fundarg.fad03 (centuries t)) (Fundarg.faom03 (centuries t)) (Iau.gmst82 (Orient.tt2ut1 dat e 0))
  have hl : libration dat e = deopLibration ![Fundarg.fal03 (centuries t), Fundarg.falp03 (centuries t), Fundarg.faf03 (centuries t),
      Fundarg.fad03 (centuries t), Fundarg.faom03 (centuries t)] (Iau.gmst82 (Orient.tt2ut1 dat e 0)) := by
    unfold libration; rw [hT]; rfl
  rw [← hl] at P U
  have tu := sums_turns Ref.utlibr hg c0 c1 c2 c3 c4
  have tp := sums_turns Ref.pmsdnut2 hg c0 c1 c2 c3 c4
  have fa : fargsAt (centuries t) 0 = Fundarg.fal03 (centuries t) ∧ fargsAt (centuries t) 1 = Fundarg.falp03 (centuries t) ∧
    fargsAt (centuries t) 2 = Fundarg.faf03 (centuries t) ∧ fargsAt (centuries t) 3 = Fundarg.fad03 (centuries t) ∧
    fargsAt (centuries t) 4 = Fundarg.faom03 (centuries t) := ⟨rfl, rfl, rfl, rfl, rfl⟩
  rw [fa.1, fa.2.1, fa.2.2.1, fa.2.2.2.1, fa.2.2.2.2] at tu tp
  rw [tp.1, tp.2] at P
  rw [tu.1, tu.2] at U
  obtain ⟨w1, w2, w3, w4⟩ := weights
  have k : ∀ (a b : Ref.Row → Int) (rows : List Ref.Row) (w : ℚ), weight a b rows ≤ w → ∀ g g' : ℝ, |g - g'| ≤ 0.00505 →
      ((weight a b rows : ℚ) : ℝ) * |g - g'| ≤ w * 0.00505 := by
    intro a b rows w hw g g' hgg
    have h0 : (0 : ℚ) ≤ weight a b rows := List.sum_nonneg (by
      intro x hx
      obtain ⟨r, _, rfl⟩ := List.mem_map.mp hx
      positivity)
    have h0' : (0 : ℝ) ≤ ((weight a b rows : ℚ) : ℝ) := by exact_mod_cast h0
    have hw' : ((weight a b rows : ℚ) : ℝ) ≤ (w : ℝ) := by exact_mod_cast hw
    exact mul_le_mul hw' hgg (abs_nonneg _) (h0'.trans hw')
  have s1 := (sum_shift Ref.Row.a Ref.Row.b Ref.utlibr _ _ (argL (centuries t)) (argLp (centuries t)) (argF (centuries t))
    (argD (centuries t)) (argOm (centuries t))).trans (k _ _ _ _ w1 _ _ hs)
  have s2 := (sum_shift Ref.Row.c Ref.Row.e Ref.utlibr _ _ (argL (centuries t)) (argLp (centuries t)) (argF (centuries t))
    (argD (centuries t)) (argOm (centuries t))).trans (k _ _ _ _ w2 _ _ hs)
  have s3 := (sum_shift Ref.Row.a Ref.Row.b Ref.pmsdnut2 _ _ (argL (centuries t)) (argLp (centuries t)) (argF (centuries t))
    (argD (centuries t)) (argOm (centuries t))).trans (k _ _ _ _ w3 _ _ hs)
  have s4 := (sum_shift Ref.Row.c Ref.Row.e Ref.pmsdnut2 _ _ (argL (centuries t)) (argLp (centuries t)) (argF (centuries t))
    (argD (centuries t)) (argOm (centuries t))).trans (k _ _ _ _ w4 _ _ hs)
  rw [P.1, P.2]
  refine ⟨?_, ?_, s3.trans (by norm_num), s4.trans (by norm_num)⟩
  · refine (abs_sub_le _ (Ref.first Ref.utlibr (gmst (t + (-(dat t + 32.184)) / 86400)) _ _ _ _ _) _).trans ((add_le_add U.1 s1).trans (by norm_num))
  · refine (abs_sub_le _ (Ref.second Ref.utlibr (gmst (t + (-(dat t + 32.184)) / 86400)) _ _ _ _ _) _).trans ((add_le_add U.2 s2).trans (by norm_num))

/-! ### The lines of the file -/

/-- The stream stands before these lines. -/
def AtLines (ls : List (List Char)) (s : In) : Prop := (∃ t, s = ⟨t, false, false⟩ ∧ IsLines ls t) ∨ (ls = [] ∧ s = ⟨[], true, false⟩)

theorem at_next {l : List Char} {ls : List (List Char)} {s : In} (h : AtLines (l :: ls) s) (hl : l.length < 512) :
    ∃ s', s.getline 512 = (l, true, s') ∧ AtLines ls s' := by
  rcases h with ⟨t, rfl, hn, h⟩ | ⟨h, _⟩
  · have hnl := hn l (List.mem_cons_self ..)
    have hn' : ∀ x ∈ ls, '\n' ∉ x := fun x hx => hn x (List.mem_cons_of_mem _ hx)
    rcases h with h | ⟨init, last, h, hne, ht⟩
    · refine ⟨_, ?_, Or.inl ⟨ls.flatMap (· ++ ['\n']), rfl, hn', Or.inl rfl⟩⟩
      rw [show t = l ++ '\n' :: ls.flatMap (· ++ ['\n']) by rw [h]; simp]
      exact getline_full hnl hl
    · cases init with
      | nil =>
        simp only [List.nil_append, List.cons.injEq] at h
        obtain ⟨h1, h2⟩ := h
        subst h1
        refine ⟨_, ?_, Or.inr ⟨h2, rfl⟩⟩
        rw [show t = l by rw [ht]; simp]
        exact getline_last hnl hne hl
      | cons i init =>
        simp only [List.cons_append, List.cons.injEq] at h
        obtain ⟨h1, h2⟩ := h
        subst h1
        refine ⟨_, ?_, Or.inl ⟨init.flatMap (· ++ ['\n']) ++ last, rfl, hn', Or.inr ⟨init, last, h2, hne, rfl⟩⟩⟩
        rw [show t = l ++ '\n' :: (init.flatMap (· ++ ['\n']) ++ last) by rw [ht]; simp]
        exact getline_full hnl hl
  · exact absurd h (by simp)

theorem at_end {s : In} (h : AtLines [] s) : ∃ x s', s.getline 512 = (x, false, s') := by
  rcases h with ⟨t, rfl, -, h⟩ | ⟨-, rfl⟩
  · have ht : t = [] := by
      rcases h with h | ⟨init, last, h, _⟩
      · exact h
      · exact absurd h (by simp)
    subst ht
    exact ⟨_, _, rfl⟩
  · exact ⟨_, _, rfl⟩

theorem at_long {l : List Char} {ls : List (List Char)} {s : In} (h : AtLines (l :: ls) s) (hl : 512 ≤ l.length) :
    ∃ x s', s.getline 512 = (x, false, s') := by
  rcases h with ⟨t, rfl, hn, h⟩ | ⟨h, _⟩
  · have hnl := hn l (List.mem_cons_self ..)
    have hp : ∀ c ∈ l, (decide (c ≠ '\n')) = true := fun c hc => decide_eq_true (fun he => hnl (he ▸ hc))
    obtain ⟨z, hz⟩ : ∃ z, t = l ++ z := by
      rcases h with h | ⟨init, last, h, _, h2⟩
      · exact ⟨'\n' :: ls.flatMap (· ++ ['\n']), by rw [h]; simp⟩
      · cases init with
        | nil =>
          simp only [List.nil_append, List.cons.injEq] at h
          exact ⟨[], by rw [h2, ← h.1]; simp⟩
        | cons i init =>
          simp only [List.cons_append, List.cons.injEq] at h
          exact ⟨'\n' :: (init.flatMap (· ++ ['\n']) ++ last), by rw [h2, ← h.1]; simp⟩
    have hlen : ¬ (t.takeWhile (fun c => decide (c ≠ '\n'))).length < 512 := by
      rw [hz, List.takeWhile_append_of_pos hp, List.length_append]
      omega
    unfold In.getline
    simp only [Bool.or_self, Bool.false_eq_true, if_false]
    rw [if_neg hlen]
    exact ⟨_, _, rfl⟩
  · exact absurd h (by simp)

theorem loop_stop {dat : ℝ → ℝ} {junk : List ℚ} {s : In} (h : ∃ x s', s.getline 512 = (x, false, s')) : loop dat junk s = .ok 0 := by
  obtain ⟨x, s', hg⟩ := h
  rw [loop]
  split
  · rfl
  · rename_i h; rw [hg] at h; simp at h

/-- The numbers of a row behind its date. -/
def Row.values (r : Row) : List ℚ := [r.ut1, r.lod, r.x, r.y]

open Classical in
theorem loop_row {dat : ℝ → ℝ} {junk : List ℚ} (hj : junk.length = 5) {l : List Char} {ls : List (List Char)} {s : In} {r : Row}
    (h : AtLines (l :: ls) s) (hr : Holds l r) : ∃ s' e, AtLines ls s' ∧ (e.mjd : ℝ) + e.f = r.t ∧
      loop dat junk s = if accepts r.values (libration dat e) then loop dat junk s' else .ok 1 := by
  obtain ⟨hl, hlen, h0, h1⟩ := hr
  obtain ⟨s', hg, ha⟩ := at_next h hlen
  obtain ⟨e, he, hd⟩ := epoch_ok h0 h1
  refine ⟨s', e, ha, hd, ?_⟩
  have hf := readFields_ok [r.t, r.ut1, r.lod, r.x, r.y] junk l (by rw [hj]; rfl) hl
  rw [loop]
  split
  · rename_i h; rw [hg] at h; simp at h
  · rename_i line s'' h
    rw [hg] at h
    simp only [Prod.mk.injEq, true_and] at h
    rw [← h.1, hf, ← h.2]
    simp only [he]
    rfl

/-- A row close to the routines is accepted, and an accepted row is not far from them. -/
theorem accepts_of_near {dat : ℝ → ℝ} {e : Iau.Epoch} {r : Row} (he : (e.mjd : ℝ) + e.f = r.t) (hu : Usual dat r) (hn : Near 0.03 0.1 0.6 r) :
    accepts r.values (libration dat e) := by
  obtain ⟨u1, u2, u3, u4⟩ := hu
  obtain ⟨a, b, c, d⟩ := libration_routines dat he (by exact_mod_cast u1) (by exact_mod_cast u2) u3 u4
  obtain ⟨n1, n2, n3, n4⟩ := hn
  rw [abs_le] at a b c d
  rw [abs_lt] at n1 n2 n3 n4
  refine ⟨?_, ?_, ?_, ?_⟩ <;> rw [abs_lt] <;> simp only [Row.values, List.getD_cons_zero, List.getD_cons_succ] <;>
    constructor <;> norm_num at * <;> linarith [a.1, a.2, b.1, b.2, c.1, c.2, d.1, d.2, n1.1, n1.2, n2.1, n2.2, n3.1, n3.2, n4.1, n4.2]

theorem near_of_accepts {dat : ℝ → ℝ} {e : Iau.Epoch} {r : Row} (he : (e.mjd : ℝ) + e.f = r.t) (hu : Usual dat r)
    (hn : accepts r.values (libration dat e)) : Near 0.17 1.9 1.4 r := by
  obtain ⟨u1, u2, u3, u4⟩ := hu
  obtain ⟨a, b, c, d⟩ := libration_routines dat he (by exact_mod_cast u1) (by exact_mod_cast u2) u3 u4
  obtain ⟨n1, n2, n3, n4⟩ := hn
  simp only [Row.values, List.getD_cons_zero, List.getD_cons_succ] at n1 n2 n3 n4
  rw [abs_le] at a b c d
  rw [abs_lt] at n1 n2 n3 n4
  refine ⟨?_, ?_, ?_, ?_⟩ <;> rw [abs_lt] <;>
    constructor <;> norm_num at * <;> linarith [a.1, a.2, b.1, b.2, c.1, c.2, d.1, d.2, n1.1, n1.2, n2.1, n2.2, n3.1, n3.2, n4.1, n4.2]

/-- Rows close to the routines are passed over. -/
theorem loop_pre {dat : ℝ → ℝ} {junk : List ℚ} (hj : junk.length = 5) {pre : List (List Char)} {rs : List Row} (h : List.Forall₂ Holds pre rs) :
    ∀ (post : List (List Char)) (s : In), AtLines (pre ++ post) s → (∀ r ∈ rs, Usual dat r ∧ Near 0.03 0.1 0.6 r) →
      ∃ s', AtLines post s' ∧ loop dat junk s = loop dat junk s' := by
  induction h with
  | nil => intro post s hs _; exact ⟨s, hs, rfl⟩
  | @cons l r ls rs hr _ ih =>
    intro post s hs hn
    obtain ⟨s1, e, h1, h2, h3⟩ := loop_row (dat := dat) hj hs hr
    obtain ⟨hu, hc⟩ := hn r (List.mem_cons_self ..)
    rw [if_pos (accepts_of_near h2 hu hc)] at h3
    obtain ⟨s2, h4, h5⟩ := ih post s1 h1 fun x hx => hn x (List.mem_cons_of_mem _ hx)
    exact ⟨s2, h4, h3.trans h5⟩

/-- What the loop makes of a file. -/
theorem loop_file {dat : ℝ → ℝ} {junk : List ℚ} (hj : junk.length = 5) {ls : List (List Char)} {rs : List Row} (h : List.Forall₂ Holds ls rs) :
    ∀ s : In, AtLines ls s → (∀ r ∈ rs, Usual dat r) →
      (loop dat junk s = .ok 0 ∧ ∀ r ∈ rs, Near 0.17 1.9 1.4 r) ∨ loop dat junk s = .ok 1 := by
  induction h with
  | nil => intro s hs _; exact Or.inl ⟨loop_stop (at_end hs), by simp⟩
  | @cons l r ls rs hr _ ih =>
    intro s hs hn
    obtain ⟨s1, e, h1, h2, h3⟩ := loop_row (dat := dat) hj hs hr
    by_cases ha : accepts r.values (libration dat e)
    · rw [if_pos ha] at h3
      rw [h3]
      rcases ih s1 h1 fun x hx => hn x (List.mem_cons_of_mem _ hx) with ⟨a, b⟩ | a
      · left
        refine ⟨a, fun x hx => ?_⟩
        rcases List.mem_cons.mp hx with rfl | hx
        · exact near_of_accepts h2 (hn _ (List.mem_cons_self ..)) ha
        · exact b x hx
      · exact Or.inr a
    · rw [if_neg ha] at h3
      exact Or.inr h3

/-! ### The program -/

/-- C128: a file of what the routines give passes, whatever the dates and however many. -/
theorem libration_check {dat : ℝ → ℝ} {rs : List Row} {text : List Char} (hf : IsFile rs text)
    (hr : ∀ r ∈ rs, Usual dat r ∧ Near 0.03 0.1 0.6 r) (junk : Fin 5 → ℚ) : program dat junk 2 (some text) = .ok 0 := by
  obtain ⟨ls, hl, h⟩ := hf
  obtain ⟨s, h1, h2⟩ := loop_pre (dat := dat) (junk := List.ofFn junk) (by simp) h [] ⟨text, false, false⟩
    (Or.inl ⟨text, rfl, by simpa using hl⟩) hr
  unfold program In.start
  rw [if_neg (by simp)]
  exact h2.trans (loop_stop (at_end h1))

/-- C128: a file with a value that is far from the routines, in whatever row, does not pass. -/
theorem libration_check_rejects {dat : ℝ → ℝ} {rs : List Row} {text : List Char} (hf : IsFile rs text) (hu : ∀ r ∈ rs, Usual dat r)
    {r : Row} (hr : r ∈ rs) (hn : ¬ Near 0.17 1.9 1.4 r) (junk : Fin 5 → ℚ) : program dat junk 2 (some text) = .ok 1 := by
  obtain ⟨ls, hl, h⟩ := hf
  unfold program In.start
  rw [if_neg (by simp)]
  rcases loop_file (dat := dat) (junk := List.ofFn junk) (by simp) h ⟨text, false, false⟩ (Or.inl ⟨text, rfl, hl⟩) hu with ⟨_, a⟩ | a
  · exact absurd (a r hr) hn
  · exact a

/-- C128 (partial): if a file of rows passes, no row is far from the routines. Missing: that a file passes only if all of its lines are rows,
which is false, see `libration_check_fails`. -/
theorem libration_check_sound_partial {dat : ℝ → ℝ} {rs : List Row} {text : List Char} (hf : IsFile rs text) (hu : ∀ r ∈ rs, Usual dat r)
    {junk : Fin 5 → ℚ} (h : program dat junk 2 (some text) = .ok 0) : ∀ r ∈ rs, Near 0.17 1.9 1.4 r := by
  intro r hr
  by_contra hn
  rw [libration_check_rejects hf hu hr hn junk] at h
  simp at h

open Classical in
theorem loop_line {dat : ℝ → ℝ} {junk : List ℚ} (hj : junk.length = 5) {l : List Char} {ls : List (List Char)} {s : In}
    (h : AtLines (l :: ls) s) (hlen : l.length < 512) (hz : loop dat junk s = .ok 0) :
    ∃ s' r, AtLines ls s' ∧ loop dat junk s' = .ok 0 ∧ LineHas l [r.t, r.ut1, r.lod, r.x, r.y] ∧ (Usual dat r → Near 0.17 1.9 1.4 r) := by
  obtain ⟨s', hg, ha⟩ := at_next h hlen
  rw [loop] at hz
  split at hz
  · rename_i h; rw [hg] at h; simp at h
  · rename_i line s'' h
    rw [hg] at h
    simp only [Prod.mk.injEq, true_and] at h
    rw [← h.1, ← h.2] at hz
    split at hz
    · rename_i t v hf
      obtain ⟨f1, f2⟩ := readFields_sound _ _ _ hf
      rw [hj] at f2
      obtain ⟨a, b, c, d, rfl⟩ : ∃ a b c d, v = [a, b, c, d] := by
        match v, f2 with
        | [a, b, c, d], _ => exact ⟨a, b, c, d, rfl⟩
      cases he : epoch t with
      | ok e =>
        rw [he] at hz
        simp only [Res.bind] at hz
        split at hz
        · rename_i hacc
          refine ⟨s', ⟨t, a, b, c, d⟩, ha, hz, f1, fun hu => ?_⟩
          obtain ⟨e', h1, h2⟩ := epoch_ok (t := t) (le_trans (by norm_num) hu.1) (lt_of_le_of_lt hu.2.1 (by norm_num))
          rw [he] at h1
          cases h1
          exact near_of_accepts (r := ⟨t, a, b, c, d⟩) h2 hu hacc
        · simp at hz
      | ub => rw [he] at hz; simp [Res.bind] at hz
      | abort => rw [he] at hz; simp [Res.bind] at hz
      | throw => rw [he] at hz; simp [Res.bind] at hz
    · simp at hz

/-- C128 (partial): if any text of lines that fit passes, each of its lines begins with five numbers, and they are not far from the routines.
Missing: lines that do not fit, see `libration_check_fails`. -/
theorem libration_check_lines_partial {dat : ℝ → ℝ} {ls : List (List Char)} {text : List Char} (hl : IsLines ls text)
    (hlen : ∀ l ∈ ls, l.length < 512) {junk : Fin 5 → ℚ} (h : program dat junk 2 (some text) = .ok 0) :
    ∀ l ∈ ls, ∃ r : Row, LineHas l [r.t, r.ut1, r.lod, r.x, r.y] ∧ (Usual dat r → Near 0.17 1.9 1.4 r) := by
  have key : ∀ (ls : List (List Char)) (s : In), AtLines ls s → (∀ l ∈ ls, l.length < 512) → loop dat (List.ofFn junk) s = .ok 0 →
      ∀ l ∈ ls, ∃ r : Row, LineHas l [r.t, r.ut1, r.lod, r.x, r.y] ∧ (Usual dat r → Near 0.17 1.9 1.4 r) := by
    intro ls
    induction ls with
    | nil => intro s _ _ _ l hl; simp at hl
    | cons l ls ih =>
      intro s hs hlen hz x hx
      obtain ⟨s', r, h1, h2, h3, h4⟩ := loop_line (by simp) hs (hlen l (List.mem_cons_self ..)) hz
      rcases List.mem_cons.mp hx with rfl | hx
      · exact ⟨r, h3, h4⟩
      · exact ih s' h1 (fun y hy => hlen y (List.mem_cons_of_mem _ hy)) h2 x hx
  unfold program In.start at h
  rw [if_neg (by simp)] at h
  exact key ls ⟨text, false, false⟩ (Or.inl ⟨text, rfl, hl⟩) hlen h

/-- C128: the program aborts at the first line that does not begin with five numbers. -/
theorem libration_check_unreadable {dat : ℝ → ℝ} {pre post : List (List Char)} {l text : List Char} {rs : List Row}
    (hl : IsLines (pre ++ l :: post) text) (hp : List.Forall₂ Holds pre rs) (hr : ∀ r ∈ rs, Usual dat r ∧ Near 0.03 0.1 0.6 r)
    (hlen : l.length < 512) (hn : ¬ ∃ vals, LineHas l vals ∧ vals.length = 5) (junk : Fin 5 → ℚ) :
    program dat junk 2 (some text) = .abort := by
  obtain ⟨s, h1, h2⟩ := loop_pre (dat := dat) (junk := List.ofFn junk) (by simp) hp (l :: post) ⟨text, false, false⟩
    (Or.inl ⟨text, rfl, hl⟩) hr
  obtain ⟨s', hg, -⟩ := at_next h1 hlen
  unfold program In.start
  rw [if_neg (by simp)]
  refine h2.trans ?_
  rw [loop]
  split
  · rename_i h; rw [hg] at h; simp at h
  · rename_i line s'' h
    rw [hg] at h
    simp only [Prod.mk.injEq, true_and] at h
    rw [← h.1]
    split
    · rename_i t v hf
      exact absurd ⟨_, (readFields_sound _ l _ hf).1, by rw [(readFields_sound _ l _ hf).2]; simp⟩ hn
    · rfl

/-- C128: a line of 512 characters or more ends the check without a complaint: the program succeeds whatever this line and the lines behind
it are (test/iers/eop_libration.cpp:36, 81). -/
theorem libration_check_fails {dat : ℝ → ℝ} {pre post : List (List Char)} {l text : List Char} {rs : List Row}
    (hl : IsLines (pre ++ l :: post) text) (hp : List.Forall₂ Holds pre rs) (hr : ∀ r ∈ rs, Usual dat r ∧ Near 0.03 0.1 0.6 r)
    (hlen : 512 ≤ l.length) (junk : Fin 5 → ℚ) : program dat junk 2 (some text) = .ok 0 := by
  obtain ⟨s, h1, h2⟩ := loop_pre (dat := dat) (junk := List.ofFn junk) (by simp) hp (l :: post) ⟨text, false, false⟩
    (Or.inl ⟨text, rfl, hl⟩) hr
  unfold program In.start
  rw [if_neg (by simp)]
  exact h2.trans (loop_stop (at_long h1 hlen))

/-- C128: without the file, or with another number of arguments, the program fails. -/
theorem libration_check_no_file (dat : ℝ → ℝ) (junk : Fin 5 → ℚ) :
    program dat junk 2 none = .ok 2 ∧ ∀ argc file, argc ≠ 2 → program dat junk argc file = .ok 1 :=
  ⟨rfl, fun _ _ h => if_pos h⟩

/-! ### Files that pass and files that do not -/

/-- A digit. -/
def dig (n : Nat) : Char := Char.ofNat (48 + n % 10)

theorem dig_all : ∀ m ∈ List.range 10, (Char.ofNat (48 + m)).toNat - 48 = m ∧ isDig (Char.ofNat (48 + m)) = true ∧ Char.ofNat (48 + m) ≠ '\n' := by decide

theorem dig_ok (n : Nat) : (dig n).toNat - 48 = n % 10 ∧ isDig (dig n) = true ∧ dig n ≠ '\n' := dig_all _ (List.mem_range.mpr (by omega))

/-- The text of `k / 100`. -/
def hundredths (k : Int) : Dec :=
  ⟨decide (k < 0), [dig (k.natAbs / 1000), dig (k.natAbs / 100)], some [dig (k.natAbs / 10), dig k.natAbs], none⟩

theorem hundredths_ok {k : Int} (h : k.natAbs < 10000) :
    (hundredths k).Ok ∧ (hundredths k).value = (k : ℚ) / 100 ∧ (hundredths k).text.length ≤ 9 ∧ '\n' ∉ (hundredths k).text := by
  obtain ⟨a1, a2, a3⟩ := dig_ok (k.natAbs / 1000)
  obtain ⟨b1, b2, b3⟩ := dig_ok (k.natAbs / 100)
  obtain ⟨c1, c2, c3⟩ := dig_ok (k.natAbs / 10)
  obtain ⟨d1, d2, d3⟩ := dig_ok k.natAbs
  have n1 : natOf [dig (k.natAbs / 1000), dig (k.natAbs / 100)] = k.natAbs / 100 := by
    simp only [natOf, List.length_cons, List.length_nil, a1, b1]; omega
  have n2 : natOf [dig (k.natAbs / 10), dig k.natAbs] = k.natAbs % 100 := by
    simp only [natOf, List.length_cons, List.length_nil, c1, d1]; omega
  have hq : ((k.natAbs / 100 : Nat) : ℚ) + ((k.natAbs % 100 : Nat) : ℚ) / 10 ^ 2 = (k.natAbs : ℚ) / 100 := by
    have : (k.natAbs : ℚ) = 100 * ((k.natAbs / 100 : Nat) : ℚ) + ((k.natAbs % 100 : Nat) : ℚ) := by
      exact_mod_cast (Nat.div_add_mod k.natAbs 100).symm
    rw [this]; ring
  refine ⟨⟨?_, ?_, Or.inl (by simp [hundredths]), ?_⟩, ?_, ?_, ?_⟩
  · intro c hc
    simp only [hundredths, List.mem_cons, List.not_mem_nil, or_false] at hc
    rcases hc with rfl | rfl <;> assumption
  · intro f hf c hc
    simp only [hundredths, Option.some.injEq] at hf
    subst hf
    simp only [List.mem_cons, List.not_mem_nil, or_false] at hc
    rcases hc with rfl | rfl <;> assumption
  · intro l s e he
    simp [hundredths] at he
  · unfold Dec.value hundredths
    simp only [Option.getD_some, n1, n2, List.length_cons, List.length_nil, Nat.zero_add, Nat.reduceAdd, hq, expVal, zpow_zero, mul_one,
      decide_eq_true_eq]
    split
    · rename_i hk
      have : ((k.natAbs : Int) : ℚ) = ((-k : Int) : ℚ) := by congr 1; omega
      rw [Int.cast_natCast] at this
      rw [this]; push_cast; ring
    · rename_i hk
      have : ((k.natAbs : Int) : ℚ) = ((k : Int) : ℚ) := by congr 1; omega
      rw [Int.cast_natCast] at this
      rw [this]
  · unfold Dec.text hundredths
    simp only [fracText, expText, List.append_nil]
    split <;> simp
  · unfold Dec.text hundredths
    simp only [fracText, expText, List.append_nil]
    split <;> simp [a3.symm, b3.symm, c3.symm, d3.symm]

/-- There is a text of a number close to any number of this size. -/
theorem text_near {x : ℝ} (h : |x| ≤ 69) : ∃ d : Dec, d.Ok ∧ |(d.value : ℝ) - x| < 0.02 ∧ d.text.length ≤ 9 ∧ '\n' ∉ d.text := by
  obtain ⟨h1, h2⟩ := abs_le.mp h
  have a := Int.floor_le (x * 100)
  have b := Int.lt_floor_add_one (x * 100)
  have c1 : (-7000 : Int) ≤ ⌊x * 100⌋ := Int.le_floor.mpr (by push_cast; linarith)
  have c2 : ⌊x * 100⌋ < 7000 := Int.floor_lt.mpr (by push_cast; linarith)
  obtain ⟨d1, d2, d3, d4⟩ := hundredths_ok (k := ⌊x * 100⌋) (by omega)
  refine ⟨_, d1, ?_, d3, d4⟩
  rw [d2]
  push_cast
  rw [abs_lt]
  constructor <;> linarith

theorem sum_size (a b : Ref.Row → Int) (rows : List Ref.Row) (θ : Ref.Row → ℝ) :
    |(rows.map fun r => (a r : ℝ) / 100 * Real.sin (θ r) + (b r : ℝ) / 100 * Real.cos (θ r)).sum| ≤
      ((rows.map fun r => (|(a r : ℚ)| + |(b r : ℚ)|) / 100).sum : ℚ) := by
  induction rows with
  | nil => simp
  | cons r rows ih =>
    simp only [List.map_cons, List.sum_cons]
    push_cast at ih ⊢
    have s1 := Real.abs_sin_le_one (θ r)
    have s2 := Real.abs_cos_le_one (θ r)
    have e1 : |(a r : ℝ) / 100 * Real.sin (θ r)| ≤ |(a r : ℝ)| / 100 := by
      rw [abs_mul, abs_div, abs_of_pos (by norm_num : (0 : ℝ) < 100)]
      exact mul_le_of_le_one_right (by positivity) s1
    have e2 : |(b r : ℝ) / 100 * Real.cos (θ r)| ≤ |(b r : ℝ)| / 100 := by
      rw [abs_mul, abs_div, abs_of_pos (by norm_num : (0 : ℝ) < 100)]
      exact mul_le_of_le_one_right (by positivity) s2
    rw [abs_le] at e1 e2 ih ⊢
    constructor <;> linarith [e1.1, e1.2, e2.1, e2.2, ih.1, ih.2]

theorem sizes : (Ref.utlibr.map fun r => (|(r.a : ℚ)| + |(r.b : ℚ)|) / 100).sum ≤ 69 ∧ (Ref.utlibr.map fun r => (|(r.c : ℚ)| + |(r.e : ℚ)|) / 100).sum ≤ 69 ∧
    (Ref.pmsdnut2.map fun r => (|(r.a : ℚ)| + |(r.b : ℚ)|) / 100).sum ≤ 69 ∧ (Ref.pmsdnut2.map fun r => (|(r.c : ℚ)| + |(r.e : ℚ)|) / 100).sum ≤ 69 := by
  refine ⟨?_, ?_, ?_, ?_⟩ <;> decide +kernel

theorem values_size (t g : ℝ) : |at' (Ref.first Ref.utlibr) t g| ≤ 69 ∧ |at' (Ref.second Ref.utlibr) t g| ≤ 69 ∧
    |at' (Ref.first Ref.pmsdnut2) t g| ≤ 69 ∧ |at' (Ref.second Ref.pmsdnut2) t g| ≤ 69 := by
  obtain ⟨z1, z2, z3, z4⟩ := sizes
  have big : ∀ {q : ℚ} {x : ℝ}, |x| ≤ (q : ℝ) → q ≤ 69 → |x| ≤ 69 := fun h h' => h.trans (by exact_mod_cast h')
  unfold at' Ref.first Ref.second
  exact ⟨big (sum_size Ref.Row.a Ref.Row.b Ref.utlibr _) z1, big (sum_size Ref.Row.c Ref.Row.e Ref.utlibr _) z2,
    big (sum_size Ref.Row.a Ref.Row.b Ref.pmsdnut2 _) z3, big (sum_size Ref.Row.c Ref.Row.e Ref.pmsdnut2 _) z4⟩

/-- There is a line for every date. -/
theorem row_exists (dt : Dec) (hd : dt.okb = true) (h0 : 0 ≤ dt.value) (h1 : dt.value < 2147483648) (hlen : dt.text.length ≤ 100) (hnl : '\n' ∉ dt.text) :
    ∃ l r, r.t = dt.value ∧ Holds l r ∧ Near 0.03 0.1 0.6 r ∧ '\n' ∉ l := by
  obtain ⟨z1, z2, z3, z4⟩ := values_size (dt.value : ℝ) (gmst dt.value)
  obtain ⟨d1, o1, n1, l1, k1⟩ := text_near z1
  obtain ⟨d2, o2, n2, l2, k2⟩ := text_near z2
  obtain ⟨d3, o3, n3, l3, k3⟩ := text_near z3
  obtain ⟨d4, o4, n4, l4, k4⟩ := text_near z4
  refine ⟨joined [dt, d1, d2, d3, d4], ⟨dt.value, d1.value, d2.value, d3.value, d4.value⟩, rfl, ⟨joined_is [dt, d1, d2, d3, d4] ?_, ?_, h0, h1⟩,
    ⟨lt_trans n1 (by norm_num), lt_trans n2 (by norm_num), lt_trans n3 (by norm_num), lt_trans n4 (by norm_num)⟩, ?_⟩
  · intro d h
    simp only [List.mem_cons, List.not_mem_nil, or_false] at h
    rcases h with rfl | rfl | rfl | rfl | rfl
    · exact Dec.ok_of hd
    all_goals assumption
  · simp [joined]; omega
  · simp [joined, hnl, k1, k2, k3, k4]

/-- A file of two rows that passes; the same file behind which a line without numbers, or a long line and a wrong row, stand. -/
example (junk : Fin 5 → ℚ) (w : List Char) (hw : w = List.replicate 600 '1') : ∃ l1 l2 : List Char, program (fun _ => 37) junk 2 (some (l1 ++ '\n' :: (l2 ++ ['\n']))) = .ok 0 ∧
    program (fun _ => 37) junk 2 (some (l1 ++ '\n' :: (l2 ++ '\n' :: "# end\n".toList))) = .abort ∧
    program (fun _ => 37) junk 2 (some (l1 ++ '\n' :: (l2 ++ '\n' :: (w ++ "\n60000 1000 0 0 0\n".toList)))) = .ok 0 := by
  obtain ⟨l1, r1, t1, h1, n1, m1⟩ := row_exists (num "60000" "25") (by decide) (by decide +kernel) (by decide +kernel) (by decide) (by decide)
  obtain ⟨l2, r2, t2, h2, n2, m2⟩ := row_exists (num "47892" "") (by decide) (by decide +kernel) (by decide +kernel) (by decide) (by decide)
  have hr : ∀ r ∈ [r1, r2], Usual (fun _ => 37) r ∧ Near 0.03 0.1 0.6 r := by
    intro r hr
    simp only [List.mem_cons, List.not_mem_nil, or_false] at hr
    rcases hr with rfl | rfl
    · exact ⟨⟨by rw [t1]; decide +kernel, by rw [t1]; decide +kernel, by norm_num, by norm_num⟩, n1⟩
    · exact ⟨⟨by rw [t2]; decide +kernel, by rw [t2]; decide +kernel, by norm_num, by norm_num⟩, n2⟩
  refine ⟨l1, l2, libration_check (rs := [r1, r2]) ⟨[l1, l2], ⟨by simp [m1, m2], Or.inl (by simp)⟩, .cons h1 (.cons h2 .nil)⟩ hr junk,
    libration_check_unreadable (pre := [l1, l2]) (post := []) (l := "# end".toList) (rs := [r1, r2]) ⟨?_, Or.inl (by simp)⟩
      (.cons h1 (.cons h2 .nil)) hr (by decide) (comment_skipped (k := 4) (c := '#') (l := " end".toList) (by decide)) junk,
    libration_check_fails (pre := [l1, l2]) (post := ["60000 1000 0 0 0".toList]) (l := w) (rs := [r1, r2])
      ⟨?_, Or.inl (by simp)⟩ (.cons h1 (.cons h2 .nil)) hr (by rw [hw, List.length_replicate]; decide) junk⟩
  · intro l hl
    simp only [List.cons_append, List.nil_append, List.mem_cons, List.not_mem_nil, or_false] at hl
    rcases hl with rfl | rfl | rfl
    · exact m1
    · exact m2
    · decide
  · intro l hl
    simp only [List.cons_append, List.nil_append, List.mem_cons, List.not_mem_nil, or_false] at hl
    rcases hl with rfl | rfl | rfl | rfl
    · exact m1
    · exact m2
    · rw [hw]; decide +kernel
    · decide

/-- A file that passes meets the hypotheses of the converse statements. -/
example (junk : Fin 5 → ℚ) : ∃ l : List Char, program (fun _ => 37) junk 2 (some (l ++ ['\n'])) = .ok 0 ∧
    ∃ r : Row, LineHas l [r.t, r.ut1, r.lod, r.x, r.y] ∧ (Usual (fun _ => 37) r → Near 0.17 1.9 1.4 r) := by
  obtain ⟨l, r, t, h, n, m⟩ := row_exists (num "60000" "25") (by decide) (by decide +kernel) (by decide +kernel) (by decide) (by decide)
  have hl : IsLines [l] (l ++ ['\n']) := ⟨by simp [m], Or.inl (by simp)⟩
  have hu : Usual (fun _ => 37) r := ⟨by rw [t]; decide +kernel, by rw [t]; decide +kernel, by norm_num, by norm_num⟩
  have hp := libration_check (dat := fun _ => 37) (rs := [r]) ⟨[l], hl, .cons h .nil⟩ (by simp [hu, n]) junk
  exact ⟨l, hp, libration_check_lines_partial hl (by simp [h.2.1]) hp l (by simp)⟩

/-- A row of which UT1 is 100 microseconds. -/
def wrong : List Dec := [num "60000" "25", num "100" "", num "0" "", num "0" "", num "0" ""]

theorem wrong_holds : Holds (joined wrong) ⟨60000.25, 100, 0, 0, 0⟩ := by
  refine ⟨?_, by decide +kernel, by norm_num, by norm_num⟩
  have h := joined_is wrong (by
    intro d hd
    simp only [wrong, List.mem_cons, List.not_mem_nil, or_false] at hd
    rcases hd with rfl | rfl | rfl | rfl | rfl <;> exact Dec.ok_of (by decide))
  have e : wrong.map Dec.value = [60000.25, 100, 0, 0, 0] := by decide +kernel
  rw [e] at h
  exact h

/-- It does not pass. -/
example (junk : Fin 5 → ℚ) : program (fun _ => 37) junk 2 (some (joined wrong ++ ['\n'])) = .ok 1 := by
  refine libration_check_rejects (rs := [⟨60000.25, 100, 0, 0, 0⟩]) (r := ⟨60000.25, 100, 0, 0, 0⟩)
    ⟨[joined wrong], ⟨by decide +kernel, Or.inl (by simp)⟩, .cons wrong_holds .nil⟩ ?_ (by simp) ?_ junk
  · intro r hr
    rw [List.mem_singleton] at hr
    subst hr
    exact ⟨by norm_num, by norm_num, by norm_num, by norm_num⟩
  · intro h
    have a := h.ut1
    have b := (values_size ((60000.25 : ℚ) : ℝ) (gmst ((60000.25 : ℚ) : ℝ))).1
    rw [abs_lt] at a
    rw [abs_le] at b
    have c : ((100 : ℚ) : ℝ) = 100 := by norm_num
    simp only [c] at a
    linarith [a.1, a.2, b.1, b.2]

end Verif.LibrationCheck
