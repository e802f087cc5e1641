import Verif.Model.Costg
import Verif.Spec.Costg
import Verif.Proof.Chars
import Verif.Props.PlanetState
import Verif.Props.Relativity
import Verif.Props.PointMass
import Verif.Props.Cunningham
import Verif.Props.PoleTide
import Verif.Props.OceanPole
import Mathlib.Tactic.Ring
import Mathlib.Tactic.NormNum
/-
C90: the benchmark programs compare every epoch of the orbit with the benchmark.
-/
namespace Verif.Costg
open Verif Verif.Chars

/-! ### Reading -/

theorem rb {α β : Type} (a : α) (f : α → Res β) : (Res.ok a).bind f = f a := rfl

theorem bind_assoc' {α β γ : Type} (x : Res α) (f : α → Res β) (g : β → Res γ) : (x.bind f).bind g = x.bind fun a => (f a).bind g := by
  cases x <;> rfl

theorem getline_full {l t : List Char} {max : Nat} (h : '\n' ∉ l) (hl : l.length < max) :
    In.getline max ⟨l ++ '\n' :: t, false, false⟩ = (l, true, ⟨t, false, false⟩) := by
  have hp : ∀ c ∈ l, (decide (c ≠ '\n')) = true := fun c hc => decide_eq_true (fun he => h (he ▸ hc))
  have e1 : (l ++ '\n' :: t).takeWhile (· ≠ '\n') = l := by
    rw [List.takeWhile_append_of_pos hp]; simp
  have e2 : (l ++ '\n' :: t).dropWhile (· ≠ '\n') = '\n' :: t := by
    rw [List.dropWhile_append_of_pos hp]; simp
  unfold In.getline
  simp only [Bool.or_self, Bool.false_eq_true, if_false, e1, e2]
  rw [if_pos hl]

theorem getline_last {l : List Char} {max : Nat} (h : '\n' ∉ l) (hne : l ≠ []) (hl : l.length < max) :
    In.getline max ⟨l, false, false⟩ = (l, true, ⟨[], true, false⟩) := by
  have hp : ∀ c ∈ l, (decide (c ≠ '\n')) = true := fun c hc => decide_eq_true (fun he => h (he ▸ hc))
  have e1 : l.takeWhile (· ≠ '\n') = l := by
    have := List.takeWhile_append_of_pos (l₂ := []) hp
    simpa using this
  have e2 : l.dropWhile (· ≠ '\n') = [] := by
    have := List.dropWhile_append_of_pos (l₂ := []) hp
    simpa using this
  unfold In.getline
  simp only [Bool.or_self, Bool.false_eq_true, if_false, e1, e2]
  rw [if_pos hl, if_neg hne]

theorem epochOf_ok {t : ℚ} (h0 : 0 ≤ t) (h1 : t < 2147483648) : epochOf t = .ok (epochAt t) := by
  unfold epochOf
  simp only [if_neg (not_lt.mpr h0)]
  have a : (0 : Int) ≤ ⌊t⌋ := Int.floor_nonneg.mpr h0
  have b : ⌊t⌋ < 2147483648 := Int.floor_lt.mpr (by push_cast; exact h1)
  rw [if_pos ⟨by omega, by omega⟩]
  rfl

/-- What one line adds. -/
theorem step_row {max : Nat} {junk : List ℚ} {s s' : In} {l : List Char} {t : ℚ} {v : List ℚ} (hg : s.getline max = (l, true, s'))
    (hl : LineIs l (t :: v)) (hk : junk.length = v.length + 1) (h0 : 0 ≤ t) (h1 : t < 2147483648) {rs : List (Epoch × List ℚ)} {f : In}
    (hr : rowsLoop max junk s' = .ok (rs, f)) : rowsLoop max junk s = .ok ((epochAt t, v) :: rs, f) := by
  have hf := readFields_ok (t :: v) junk l (by rw [hk]; rfl) hl
  rw [rowsLoop]
  split
  · rename_i h; rw [hg] at h; exact absurd (congrArg (·.2.1) h) (by simp)
  · rename_i line s'' h
    rw [hg] at h
    simp only [Prod.mk.injEq, true_and] at h
    rw [← h.1, hf]
    simp only [epochOf_ok h0 h1]
    show (rowsLoop max junk s'').bind _ = _
    rw [← h.2, hr]; rfl

theorem step_skip {max k : Nat} {junk : List ℚ} {s s' : In} {l : List Char} (hg : s.getline max = (l, true, s'))
    (hl : ¬ ∃ vals, LineHas l vals ∧ vals.length = k + 1) (hk : junk.length = k + 1) :
    rowsLoop max junk s = rowsLoop max junk s' := by
  rw [rowsLoop]
  split
  · rename_i h; rw [hg] at h; exact absurd (congrArg (·.2.1) h) (by simp)
  · rename_i line s'' h
    rw [hg] at h
    simp only [Prod.mk.injEq, true_and] at h
    rw [← h.1, h.2]
    split
    · rename_i t v hf
      exact absurd ⟨_, (readFields_sound junk l _ hf).1, by rw [(readFields_sound junk l _ hf).2, hk]⟩ hl
    · rfl

theorem rows_end {max : Nat} (junk : List ℚ) (s : In) (h : s = ⟨[], false, false⟩ ∧ 0 < max ∨ s = ⟨[], true, false⟩) :
    ∃ f, rowsLoop max junk s = .ok ([], f) ∧ f.eof = true := by
  rw [rowsLoop]
  split
  · rename_i s' hg
    refine ⟨s', rfl, ?_⟩
    rcases h with ⟨h, hm⟩ | h
    · subst h
      simp only [In.getline, Bool.or_self, Bool.false_eq_true, if_false, List.takeWhile_nil, List.length_nil, if_pos hm,
        List.dropWhile_nil, if_true, Prod.mk.injEq, true_and] at hg
      rw [← hg.2]
    · subst h
      simp only [In.getline, Bool.or_false, if_true, Prod.mk.injEq, true_and] at hg
      rw [← hg.2]
  · rename_i l s' hg
    exfalso
    have := getline_lt hg
    rcases h with ⟨h, _⟩ | h
    · subst h; exact absurd this (by simp)
    · subst h; exact absurd this (by simp)

theorem rows_lines {max k : Nat} {junk : List ℚ} (hk : junk.length = k + 1) (hm : 0 < max) {ls : List (List Char)} {rs : List (ℚ × List ℚ)}
    (h : Rows k ls rs) : ∀ t, IsLines ls t → (∀ l ∈ ls, l.length < max) → (∀ r ∈ rs, 0 ≤ r.1 ∧ r.1 < 2147483648) →
    ∃ f, rowsLoop max junk ⟨t, false, false⟩ = .ok (rs.map fun r => (epochAt r.1, r.2), f) ∧ f.eof = true := by
  induction h with
  | nil =>
    intro t hl _ _
    have : t = [] := by
      rcases hl.2 with h | ⟨init, last, h, _⟩
      · exact h
      · exact absurd h (by simp)
    subst this
    exact rows_end junk _ (Or.inl ⟨rfl, hm⟩)
  | @row l ls e v rs hrow hv hrs ih =>
    intro t hl hlen hd
    have hd0 := hd _ (List.mem_cons_self ..)
    have hnl := hl.1 l (List.mem_cons_self ..)
    have hll := hlen l (List.mem_cons_self ..)
    rcases hl.2 with h | ⟨init, last, h, hne, ht⟩
    · obtain ⟨f, hf, he⟩ := ih (ls.flatMap (· ++ ['\n'])) ⟨fun x hx => hl.1 x (List.mem_cons_of_mem _ hx), Or.inl rfl⟩
        (fun x hx => hlen x (List.mem_cons_of_mem _ hx)) (fun x hx => hd x (List.mem_cons_of_mem _ hx))
      refine ⟨f, ?_, he⟩
      have ht : t = l ++ '\n' :: ls.flatMap (· ++ ['\n']) := by rw [h]; simp
      rw [ht]
      exact step_row (getline_full hnl hll) hrow (by rw [hk, hv]) hd0.1 hd0.2 hf
    · cases init with
      | nil =>
        simp only [List.nil_append, List.cons.injEq] at h
        obtain ⟨h1, h2⟩ := h
        subst h1
        subst h2
        cases hrs
        have ht' : t = l := by rw [ht]; simp
        rw [ht']
        obtain ⟨f, hf, he⟩ := rows_end (max := max) junk ⟨[], true, false⟩ (Or.inr rfl)
        exact ⟨f, step_row (getline_last hnl hne hll) hrow (by rw [hk, hv]) hd0.1 hd0.2 hf, he⟩
      | cons i init =>
        simp only [List.cons_append, List.cons.injEq] at h
        obtain ⟨h1, h2⟩ := h
        subst h1
        obtain ⟨f, hf, he⟩ := ih (init.flatMap (· ++ ['\n']) ++ last) ⟨fun x hx => hl.1 x (List.mem_cons_of_mem _ hx),
          Or.inr ⟨init, last, h2, hne, rfl⟩⟩ (fun x hx => hlen x (List.mem_cons_of_mem _ hx)) (fun x hx => hd x (List.mem_cons_of_mem _ hx))
        refine ⟨f, ?_, he⟩
        have ht' : t = l ++ '\n' :: (init.flatMap (· ++ ['\n']) ++ last) := by rw [ht]; simp
        rw [ht']
        exact step_row (getline_full hnl hll) hrow (by rw [hk, hv]) hd0.1 hd0.2 hf
  | @skip l ls rs hrow hrs ih =>
    intro t hl hlen hd
    have hnl := hl.1 l (List.mem_cons_self ..)
    have hll := hlen l (List.mem_cons_self ..)
    rcases hl.2 with h | ⟨init, last, h, hne, ht⟩
    · obtain ⟨f, hf, he⟩ := ih (ls.flatMap (· ++ ['\n'])) ⟨fun x hx => hl.1 x (List.mem_cons_of_mem _ hx), Or.inl rfl⟩
        (fun x hx => hlen x (List.mem_cons_of_mem _ hx)) hd
      refine ⟨f, ?_, he⟩
      have ht : t = l ++ '\n' :: ls.flatMap (· ++ ['\n']) := by rw [h]; simp
      rw [ht, step_skip (getline_full hnl hll) hrow hk, hf]
    · cases init with
      | nil =>
        simp only [List.nil_append, List.cons.injEq] at h
        obtain ⟨h1, h2⟩ := h
        subst h1
        subst h2
        cases hrs
        have ht' : t = l := by rw [ht]; simp
        rw [ht']
        obtain ⟨f, hf, he⟩ := rows_end (max := max) junk ⟨[], true, false⟩ (Or.inr rfl)
        exact ⟨f, by rw [step_skip (getline_last hnl hne hll) hrow hk, hf]; rfl, he⟩
      | cons i init =>
        simp only [List.cons_append, List.cons.injEq] at h
        obtain ⟨h1, h2⟩ := h
        subst h1
        obtain ⟨f, hf, he⟩ := ih (init.flatMap (· ++ ['\n']) ++ last) ⟨fun x hx => hl.1 x (List.mem_cons_of_mem _ hx),
          Or.inr ⟨init, last, h2, hne, rfl⟩⟩ (fun x hx => hlen x (List.mem_cons_of_mem _ hx)) hd
        refine ⟨f, ?_, he⟩
        have ht' : t = l ++ '\n' :: (init.flatMap (· ++ ['\n']) ++ last) := by rw [ht]; simp
        rw [ht', step_skip (getline_full hnl hll) hrow hk, hf]

/-- C90: a reader returns the rows of the table, in order, with their epochs, and nothing else, whatever stands between the rows and
whatever was in its buffers. -/
theorem bench_rows {max k : Nat} {text : List Char} {rs : List (ℚ × List ℚ)} (h : Table max k text rs) (hm : 0 < max) {junk : List ℚ}
    (hj : junk.length = k + 1) : parse max junk (some text) = .ok (rs.map fun r => (epochAt r.1, r.2)) := by
  obtain ⟨ls, hl, hlen, hr⟩ := h.lines
  obtain ⟨f, hf, he⟩ := rows_lines hj hm hr text hl hlen h.dates
  unfold parse In.start
  simp only [hf]
  show (if f.eof then _ else _) = _
  rw [if_pos he]

/-- C90: a table in which a line does not fit is refused, whichever line it is. -/
theorem bench_long {max : Nat} {pre post : List (List Char)} {l text : List Char} (hl : IsLines (pre ++ l :: post) text)
    (hpre : ∀ x ∈ pre, x.length < max) (hlong : max ≤ l.length) (junk : List ℚ) :
    ∀ rs, parse max junk (some text) ≠ .ok rs := by
  have key : ∀ (pre : List (List Char)) (text : List Char), IsLines (pre ++ l :: post) text → (∀ x ∈ pre, x.length < max) →
      ∀ rs f, rowsLoop max junk ⟨text, false, false⟩ = .ok (rs, f) → f.eof = false := by
    intro pre
    induction pre with
    | nil =>
      intro text hl _ rs f hr
      have hnl := hl.1 l (by simp)
      have hp : ∀ c ∈ l, (decide (c ≠ '\n')) = true := fun c hc => decide_eq_true (fun he => hnl (he ▸ hc))
      obtain ⟨z, hz⟩ : ∃ z, text.takeWhile (· ≠ '\n') = l ++ z := by
        rcases hl.2 with h | ⟨init, last, h, _, h2⟩
        · refine ⟨[], ?_⟩
          rw [h]
          simp only [List.nil_append, List.flatMap_cons, List.append_assoc, List.append_nil]
          rw [List.takeWhile_append_of_pos hp]; simp
        · cases init with
          | nil =>
            simp only [List.nil_append, List.cons.injEq] at h
            refine ⟨[], ?_⟩
            rw [h2, ← h.1]
            have := List.takeWhile_append_of_pos (l₂ := []) hp
            simpa using this
          | cons i init =>
            simp only [List.nil_append, List.cons_append, List.cons.injEq] at h
            refine ⟨[], ?_⟩
            rw [h2, ← h.1]
            simp only [List.flatMap_cons, List.append_assoc, List.append_nil]
            rw [List.takeWhile_append_of_pos hp]; simp
      have hg : ∃ b r, In.getline max ⟨text, false, false⟩ = (b, false, ⟨r, false, true⟩) := by
        unfold In.getline
        simp only [Bool.or_self, Bool.false_eq_true, if_false, hz, List.length_append]
        rw [if_neg (by omega)]
        exact ⟨_, _, rfl⟩
      obtain ⟨b, r, hg⟩ := hg
      rw [rowsLoop] at hr
      split at hr
      · rename_i s' h
        rw [hg] at h
        simp only [Prod.mk.injEq, true_and] at h
        injection hr with hr
        injection hr with _ hr
        rw [← hr, ← h.2]
      · rename_i h
        rw [hg] at h
        simp at h
    | cons x pre ih =>
      intro text hl hpre rs f hr
      have hnl := hl.1 x (by simp)
      have hx := hpre x (by simp)
      obtain ⟨t, ht, hl'⟩ : ∃ t, text = x ++ '\n' :: t ∧ IsLines (pre ++ l :: post) t := by
        rcases hl.2 with h | ⟨init, last, h, hne, h2⟩
        · exact ⟨(pre ++ l :: post).flatMap (· ++ ['\n']), by rw [h]; simp, fun y hy => hl.1 y (by simp at hy ⊢; tauto), Or.inl rfl⟩
        · cases init with
          | nil => simp at h
          | cons i init =>
            simp only [List.cons_append, List.cons.injEq] at h
            exact ⟨init.flatMap (· ++ ['\n']) ++ last, by rw [h2, h.1]; simp, fun y hy => hl.1 y (by simp at hy ⊢; tauto),
              Or.inr ⟨init, last, h.2, hne, rfl⟩⟩
      rw [ht, rowsLoop] at hr
      have hg := getline_full (t := t) hnl hx
      split at hr
      · rename_i h; rw [hg] at h; simp at h
      · rename_i line s' h
        rw [hg] at h
        simp only [Prod.mk.injEq, true_and] at h
        rw [← h.2] at hr
        split at hr
        · cases he : epochOf _ with
          | ok e =>
            rw [he] at hr
            cases hq : rowsLoop max junk ⟨t, false, false⟩ with
            | ok q =>
              rw [hq] at hr
              have := ih t hl' (fun y hy => hpre y (by simp [hy])) q.1 q.2 hq
              injection hr with hr
              injection hr with _ hr
              rw [← hr, this]
            | ub => rw [hq] at hr; cases hr
            | abort => rw [hq] at hr; cases hr
            | throw => rw [hq] at hr; cases hr
          | ub => rw [he] at hr; cases hr
          | abort => rw [he] at hr; cases hr
          | throw => rw [he] at hr; cases hr
        · exact ih t hl' (fun y hy => hpre y (by simp [hy])) rs f hr
  intro rs h
  unfold parse In.start at h
  simp only at h
  cases hq : rowsLoop max junk ⟨text, false, false⟩ with
  | ok q =>
    rw [hq] at h
    have := key pre text hl hpre q.1 q.2 hq
    change (if q.2.eof then _ else _) = _ at h
    rw [this] at h
    cases h
  | ub => rw [hq] at h; cases h
  | abort => rw [hq] at h; cases h
  | throw => rw [hq] at h; cases h

/-! ### The four files -/

theorem vec_three : vec = three := rfl

/-- C90: the accelerations. -/
theorem bench_accelerations {text : List Char} {rs : List (ℚ × List ℚ)} (h : Table 256 3 text rs) (junk : Fin 4 → ℚ) :
    parseAcc junk (some text) = .ok (rs.map fun r => ⟨epochAt r.1, three r.2 0⟩) := by
  unfold parseAcc
  rw [bench_rows h (by decide) (by simp)]
  simp only [rb, List.map_map]
  rfl

/-- C90: the orbit: position, velocity, acceleration. -/
theorem bench_orbit {text : List Char} {rs : List (ℚ × List ℚ)} (h : Table 512 9 text rs) (junk : Fin 10 → ℚ) :
    parseOrbit junk (some text) = .ok (rs.map fun r => ⟨epochAt r.1, three r.2 0, three r.2 3, three r.2 6⟩) := by
  unfold parseOrbit
  rw [bench_rows h (by decide) (by simp)]
  simp only [rb, List.map_map]
  rfl

/-- C90: the rotations, of which the columns of the file are the rows. -/
theorem bench_rotations {text : List Char} {rs : List (ℚ × List ℚ)} (h : Table 1024 9 text rs) (junk : Fin 10 → ℚ) :
    ∃ out, parseRotary junk (some text) = .ok out ∧ out.map (·.1) = rs.map (fun r => epochAt r.1) ∧
      ∀ p ∈ rs.zip out, ∀ u : V3, p.2.2 * u = ⟨(three p.1.2 0).dot u, (three p.1.2 3).dot u, (three p.1.2 6).dot u⟩ := by
  unfold parseRotary
  rw [bench_rows h (by decide) (by simp)]
  refine ⟨_, rfl, by simp [List.map_map, Function.comp_def], ?_⟩
  intro p hp u
  rw [List.map_map, List.zip_map_right, List.mem_map] at hp
  obtain ⟨⟨a, b⟩, hab, rfl⟩ := hp
  have : a = b := by
    have := List.mem_iff_getElem.mp hab
    obtain ⟨i, hi, he⟩ := this
    simp only [List.getElem_zip, Prod.mk.injEq] at he
    rw [← he.1, ← he.2]
  subst this
  rfl

/-- C90: the Earth orientation parameters. -/
theorem bench_eops {text : List Char} {rs : List (ℚ × List ℚ)} (h : Table 1024 8 text rs) (junk : Fin 9 → ℚ) :
    ∃ out, parseEops junk (some text) = .ok out ∧ out.map (·.epoch) = rs.map (fun r => epochAt r.1) ∧
      out.map (fun x => [x.xp, x.yp, x.sp, x.dUT1, x.lod, x.X, x.Y, x.s]) = rs.map (·.2) := by
  unfold parseEops
  rw [bench_rows h (by decide) (by simp)]
  refine ⟨_, rfl, by simp [List.map_map, Function.comp_def], ?_⟩
  simp only [List.map_map]
  apply List.map_congr_left
  intro r hr
  have : r.2.length = 8 := by
    obtain ⟨ls, g1, g2, hrows⟩ := h.lines
    clear h g1 g2
    induction hrows with
    | nil => cases hr
    | row _ hv _ ih => rcases List.mem_cons.mp hr with rfl | hr
                       · exact hv
                       · exact ih hr
    | skip _ _ ih => exact ih hr
  obtain ⟨t, v⟩ := r
  simp only at this
  match v, this with
  | [a, b, c, d, e, f, g, i], _ => rfl

/-! ### Comparing -/

theorem epochAt_inj {a b : ℚ} (h : epochAt a = epochAt b) : a = b := by
  unfold epochAt at h
  simp only [Prod.mk.injEq] at h
  have h2 : Int.fract a = Int.fract b := by linarith [h.2]
  rw [← Int.floor_add_fract a, ← Int.floor_add_fract b, h.1, h2]

/-- C90: when the epochs of the orbit are the first epochs of the benchmark, every epoch is compared and the program succeeds. -/
theorem compare_all {f : Orbit → Res (Int ⊕ V3)} {g : Orbit → V3} : ∀ {os : List Orbit} {accs : List Acc}, (∀ o ∈ os, f o = .ok (.inr (g o))) →
    os.map (·.epoch) <+: accs.map (·.epoch) →
    compare f os accs = .ok (0, List.zipWith (fun o r => ⟨o.epoch, r.axyz, g o⟩) os accs)
  | [], _, _, _ => by simp [compare]
  | o :: os, [], _, h => by simp at h
  | o :: os, r :: rs, hf, h => by
    simp only [List.map_cons, List.cons_prefix_cons] at h
    unfold compare
    rw [hf o (by simp)]
    simp only [rb]
    rw [if_neg (by rw [h.1]; simp), compare_all (fun x hx => hf x (by simp [hx])) h.2]
    rfl

/-- C90: at the first epoch that differs the program stops with status 1, after the comparisons before it. -/
theorem compare_stops {f : Orbit → Res (Int ⊕ V3)} {g : Orbit → V3} {o : Orbit} {r : Acc} {os' : List Orbit} {accs' : List Acc} (hne : r.epoch ≠ o.epoch) :
    ∀ {os : List Orbit} {accs : List Acc}, (∀ x ∈ os ++ [o], f x = .ok (.inr (g x))) → os.map (·.epoch) = accs.map (·.epoch) →
    compare f (os ++ o :: os') (accs ++ r :: accs') = .ok (1, List.zipWith (fun o r => ⟨o.epoch, r.axyz, g o⟩) os accs)
  | [], [], hf, _ => by
    simp only [List.nil_append]
    unfold compare
    rw [hf o (by simp)]
    simp only [rb]
    rw [if_pos hne]
    rfl
  | x :: os, [], _, h => by simp at h
  | [], y :: ys, _, h => by simp at h
  | x :: os, y :: ys, hf, h => by
    simp only [List.map_cons, List.cons.injEq] at h
    simp only [List.cons_append]
    unfold compare
    rw [hf x (by simp)]
    simp only [rb]
    rw [if_neg (by rw [h.1]; simp), compare_stops hne (fun z hz => hf z (by simp at hz ⊢; tauto)) h.2]
    rfl

/-- C90 fails: a benchmark file with fewer epochs than the orbit is not noticed: the program reads behind the end of the benchmark. -/
theorem compare_short_fails {f : Orbit → Res (Int ⊕ V3)} {g : Orbit → V3} {o : Orbit} {os' : List Orbit} :
    ∀ {os : List Orbit} {accs : List Acc}, (∀ x ∈ os ++ [o], f x = .ok (.inr (g x))) → os.map (·.epoch) = accs.map (·.epoch) →
    compare f (os ++ o :: os') accs = .ub
  | [], [], hf, _ => by
    simp only [List.nil_append]
    unfold compare
    rw [hf o (by simp)]
    rfl
  | x :: os, [], _, h => by simp at h
  | [], y :: ys, _, h => by simp at h
  | x :: os, y :: ys, hf, h => by
    simp only [List.map_cons, List.cons.injEq] at h
    simp only [List.cons_append]
    unfold compare
    rw [hf x (by simp)]
    simp only [rb]
    rw [if_neg (by rw [h.1]; simp), compare_short_fails (fun z hz => hf z (by simp at hz ⊢; tauto)) h.2]
    rfl

/-! ### The programs -/

/-- The loop on rows of two tables. -/
theorem compare_rows {f : Orbit → Res (Int ⊕ V3)} {val : ℚ × List ℚ → V3} : ∀ {os as : List (ℚ × List ℚ)}, os.map (·.1) <+: as.map (·.1) →
    (∀ o ∈ os, f ⟨epochAt o.1, three o.2 0, three o.2 3, three o.2 6⟩ = .ok (.inr (val o))) →
    compare f (os.map fun r => ⟨epochAt r.1, three r.2 0, three r.2 3, three r.2 6⟩) (as.map fun r => ⟨epochAt r.1, three r.2 0⟩) =
      .ok (0, List.zipWith (fun o a => ⟨epochAt o.1, three a.2 0, val o⟩) os as)
  | [], _, _, _ => by simp [compare]
  | o :: os, [], h, _ => by simp at h
  | o :: os, a :: as, h, hf => by
    simp only [List.map_cons, List.cons_prefix_cons] at h
    simp only [List.map_cons]
    unfold compare
    rw [hf o (by simp)]
    simp only [rb]
    rw [if_neg (by simp [h.1]), compare_rows h.2 (fun x hx => hf x (by simp [hx]))]
    rfl

theorem jd_ttOf {t : ℚ} : Planets.jd (ttOf (epochAt t)) = jdTT t := by
  have h : ((⌊t⌋ : ℤ) : ℝ) + ((Int.fract t : ℚ) : ℝ) = (t : ℝ) := by exact_mod_cast Int.floor_add_fract t
  have h2 : Planets.jd (ttOf (epochAt t)) = ((⌊t⌋ : ℤ) : ℝ) + (((Int.fract t * 86400 : ℚ) : ℝ) + 51.184) / 86400 + 2400000.5 := by
    unfold Planets.jd ttOf
    simp only
    rw [Int.floor_add_fract]
    rfl
  rw [h2]
  unfold jdTT
  rw [Rat.cast_mul, ← h]
  push_cast [-Rat.cast_fract]
  ring

theorem tide_eq (GM : ℝ) (r s : V3) : (PointMass.accJ r s GM).1 = tide GM r s := by
  have hn : (r - s).norm = (s - r).norm := by
    unfold V3.norm V3.dot; congr 1; simp; ring
  have d : ∀ a : V3, a.dot a * a.norm = a.norm ^ 3 := by
    intro a
    rw [PointMass.dot_norm]; ring
  have d2 : (r - s).dot (r - s) * (s - r).norm = (s - r).norm ^ 3 := by rw [← hn, d]
  have d3 : (PointMass.accJ r s GM).1 = (-GM) * ((((r - s).dot (r - s) * (r - s).norm))⁻¹ * (r - s) + (s.dot s * s.norm)⁻¹ * s) := rfl
  rw [d3, d, d, hn]
  unfold tide
  ext <;> simp <;> ring

/-- C90: the programs for Sun and Moon. From an orbit and a benchmark with the same epochs, an ephemeris, and whatever was in memory, the
program succeeds and gives for every epoch of the orbit, in order, the benchmark's acceleration and the tidal acceleration by the body
where the ephemeris has it at that epoch. -/
theorem check_body_partial (s : Planets.Spice) (e : Planets.Ephemeris) (tdb : ℝ → ℝ) (hs : Planets.Documented s e tdb) (p : Planets.Planet) (GM : ℝ)
    {orbit acc : List Char} {os as : List (ℚ × List ℚ)} (ho : Table 512 9 orbit os) (ha : Table 256 3 acc as)
    (hep : os.map (·.1) <+: as.map (·.1)) (body earth : ℚ → V3 × V3)
    (hb : ∀ o ∈ os, e (Planets.naif p) (tdb (jdTT o.1)) = some (body o.1) ∧ e (Planets.naif .earth) (tdb (jdTT o.1)) = some (earth o.1))
    (junkO : Fin 10 → ℚ) (junkA : Fin 4 → ℚ) (old : V3) :
    checkBody s p GM junkO junkA old (some orbit) (some acc) =
      .ok (0, List.zipWith (fun o a => ⟨epochAt o.1, three a.2 0, tide GM (three o.2 0) (Planets.metres ((body o.1).1 - (earth o.1).1))⟩) os as) := by
  unfold checkBody
  rw [bench_orbit ho, bench_accelerations ha]
  simp only [rb]
  have hstep : ∀ o ∈ os, thirdBody s p GM old ⟨epochAt o.1, three o.2 0, three o.2 3, three o.2 6⟩ =
      .ok (.inr (tide GM (three o.2 0) (Planets.metres ((body o.1).1 - (earth o.1).1)))) := by
    intro o ho
    obtain ⟨h1, h2⟩ := hb o ho
    unfold thirdBody
    rw [Planets.planet_position s e tdb hs p _ old (body o.1).1 (body o.1).2 (earth o.1).1 (earth o.1).2 (by rw [jd_ttOf]; exact h1)
      (by rw [jd_ttOf]; exact h2)]
    simp only [rb, ne_eq, not_true_eq_false, if_false, tide_eq]
  exact compare_rows hep hstep

/-- C90: the Sun. -/
theorem check_sun_partial (s : Planets.Spice) (e : Planets.Ephemeris) (tdb : ℝ → ℝ) (hs : Planets.Documented s e tdb)
    {orbit acc : List Char} {os as : List (ℚ × List ℚ)} (ho : Table 512 9 orbit os) (ha : Table 256 3 acc as)
    (hep : os.map (·.1) <+: as.map (·.1)) (sun earth : ℚ → V3 × V3)
    (hb : ∀ o ∈ os, e 10 (tdb (jdTT o.1)) = some (sun o.1) ∧ e 399 (tdb (jdTT o.1)) = some (earth o.1))
    (junkO : Fin 10 → ℚ) (junkA : Fin 4 → ℚ) (old : V3) :
    checkSun s junkO junkA old (some orbit) (some acc) =
      .ok (0, List.zipWith (fun o a => ⟨epochAt o.1, three a.2 0,
        tide 1.32712442076e20 (three o.2 0) (Planets.metres ((sun o.1).1 - (earth o.1).1))⟩) os as) :=
  check_body_partial s e tdb hs .sun _ ho ha hep sun earth hb junkO junkA old

/-- C90: the Moon. -/
theorem check_moon_partial (s : Planets.Spice) (e : Planets.Ephemeris) (tdb : ℝ → ℝ) (hs : Planets.Documented s e tdb)
    {orbit acc : List Char} {os as : List (ℚ × List ℚ)} (ho : Table 512 9 orbit os) (ha : Table 256 3 acc as)
    (hep : os.map (·.1) <+: as.map (·.1)) (moon earth : ℚ → V3 × V3)
    (hb : ∀ o ∈ os, e 301 (tdb (jdTT o.1)) = some (moon o.1) ∧ e 399 (tdb (jdTT o.1)) = some (earth o.1))
    (junkO : Fin 10 → ℚ) (junkA : Fin 4 → ℚ) (old : V3) :
    checkMoon s junkO junkA old (some orbit) (some acc) =
      .ok (0, List.zipWith (fun o a => ⟨epochAt o.1, three a.2 0,
        tide 0.49028010560e13 (three o.2 0) (Planets.metres ((moon o.1).1 - (earth o.1).1))⟩) os as) :=
  check_body_partial s e tdb hs .moon _ ho ha hep moon earth hb junkO junkA old

/-- C90: the relativistic acceleration: likewise, with position and velocity of the Sun, for satellites and a Sun off the geocentre. -/
theorem check_relativity_partial (s : Planets.Spice) (e : Planets.Ephemeris) (tdb : ℝ → ℝ) (hs : Planets.Documented s e tdb)
    {orbit acc : List Char} {os as : List (ℚ × List ℚ)} (ho : Table 512 9 orbit os) (ha : Table 256 3 acc as)
    (hep : os.map (·.1) <+: as.map (·.1)) (sun earth : ℚ → V3 × V3)
    (hb : ∀ o ∈ os, e 10 (tdb (jdTT o.1)) = some (sun o.1) ∧ e 399 (tdb (jdTT o.1)) = some (earth o.1))
    (hne : ∀ o ∈ os, three o.2 0 ≠ 0 ∧ Planets.metres ((sun o.1).1 - (earth o.1).1) ≠ 0)
    (junk : List Nat) (junkO : Fin 10 → ℚ) (junkA : Fin 4 → ℚ) (old : V3 × V3) :
    checkRelativity s junk junkO junkA old (some orbit) (some acc) =
      .ok (0, List.zipWith (fun o a => ⟨epochAt o.1, three a.2 0, conventional (three o.2 0) (three o.2 3)
        (Planets.metres ((sun o.1).1 - (earth o.1).1)) (Planets.metres ((sun o.1).2 - (earth o.1).2))⟩) os as) := by
  unfold checkRelativity
  rw [bench_orbit ho, bench_accelerations ha]
  simp only [rb]
  have hstep : ∀ o ∈ os, relativistic s junk old ⟨epochAt o.1, three o.2 0, three o.2 3, three o.2 6⟩ =
      .ok (.inr (conventional (three o.2 0) (three o.2 3)
        (Planets.metres ((sun o.1).1 - (earth o.1).1)) (Planets.metres ((sun o.1).2 - (earth o.1).2)))) := by
    intro o ho
    obtain ⟨h1, h2⟩ := hb o ho
    unfold relativistic
    rw [Planets.planet_position_velocity s e tdb hs .sun _ junk old (sun o.1).1 (sun o.1).2 (earth o.1).1 (earth o.1).2
      (by rw [jd_ttOf]; exact h1) (by rw [jd_ttOf]; exact h2)]
    simp only [rb, ne_eq, not_true_eq_false, if_false]
    rw [Relativity.relativity_si _ _ _ _ _ _ _ _ (hne o ho).1 (hne o ho).2 (by norm_num) (by norm_num)]
    rfl
  exact compare_rows hep hstep

/-- C90: a first epoch missing from the benchmark ends the programs with status 1 before anything is printed about it. -/
theorem check_body_mismatch (s : Planets.Spice) (e : Planets.Ephemeris) (tdb : ℝ → ℝ) (hs : Planets.Documented s e tdb) (p : Planets.Planet) (GM : ℝ)
    {orbit acc : List Char} {os as os' as' : List (ℚ × List ℚ)} {o a : ℚ × List ℚ} (ho : Table 512 9 orbit (os ++ o :: os'))
    (ha : Table 256 3 acc (as ++ a :: as')) (hep : os.map (·.1) = as.map (·.1)) (hne : o.1 ≠ a.1) (body earth : ℚ → V3 × V3)
    (hb : ∀ x ∈ os ++ [o], e (Planets.naif p) (tdb (jdTT x.1)) = some (body x.1) ∧ e (Planets.naif .earth) (tdb (jdTT x.1)) = some (earth x.1))
    (junkO : Fin 10 → ℚ) (junkA : Fin 4 → ℚ) (old : V3) :
    ∃ ls, checkBody s p GM junkO junkA old (some orbit) (some acc) = .ok (1, ls) ∧ ls.map (·.epoch) = os.map (fun x => epochAt x.1) := by
  unfold checkBody
  rw [bench_orbit ho, bench_accelerations ha]
  simp only [rb, List.map_append, List.map_cons]
  have hstep : ∀ x ∈ os ++ [o], thirdBody s p GM old ⟨epochAt x.1, three x.2 0, three x.2 3, three x.2 6⟩ =
      .ok (.inr (tide GM (three x.2 0) (Planets.metres ((body x.1).1 - (earth x.1).1)))) := by
    intro o ho
    obtain ⟨h1, h2⟩ := hb o ho
    unfold thirdBody
    rw [Planets.planet_position s e tdb hs p _ old (body o.1).1 (body o.1).2 (earth o.1).1 (earth o.1).2 (by rw [jd_ttOf]; exact h1)
      (by rw [jd_ttOf]; exact h2)]
    simp only [rb, ne_eq, not_true_eq_false, if_false, tide_eq]
  let g : Orbit → V3 := fun x => match thirdBody s p GM old x with
    | .ok (.inr v) => v
    | _ => 0
  refine ⟨_, compare_stops (g := g) (fun h => hne (epochAt_inj h).symm) ?_ ?_, ?_⟩
  · intro x hx
    have : ∃ y ∈ os ++ [o], x = ⟨epochAt y.1, three y.2 0, three y.2 3, three y.2 6⟩ := by
      rw [List.mem_append, List.mem_map] at hx
      rcases hx with ⟨y, hy, rfl⟩ | hx
      · exact ⟨y, by simp [hy], rfl⟩
      · exact ⟨o, by simp, List.mem_singleton.mp hx⟩
    obtain ⟨y, hy, rfl⟩ := this
    have := hstep y hy
    show _ = Res.ok (Sum.inr (g _))
    simp only [g, this]
  · have := congrArg (List.map epochAt) hep
    simpa [List.map_map, Function.comp_def] using this
  · have hl : os.length = as.length := by simpa using congrArg List.length hep
    clear hstep hb ho ha hep
    induction os generalizing as with
    | nil => simp
    | cons x os ih =>
      cases as with
      | nil => simp at hl
      | cons y as =>
        simp only [List.map_cons, List.zipWith_cons_cons]
        rw [ih (as := as) (by simpa using hl)]

/-! ### The pole tide -/

/-- The Earth orientation of a row. -/
def eopsOf (r : ℚ × List ℚ) : Eops :=
  ⟨epochAt r.1, r.2.getD 0 0, r.2.getD 1 0, r.2.getD 2 0, r.2.getD 3 0, r.2.getD 4 0, r.2.getD 5 0, r.2.getD 6 0, r.2.getD 7 0⟩

/-- The rotation of a row. -/
noncomputable def rotOf (r : ℚ × List ℚ) : Epoch × M3 :=
  (epochAt r.1, ⟨(three r.2 0).x, (three r.2 0).y, (three r.2 0).z, (three r.2 3).x, (three r.2 3).y, (three r.2 3).z, (three r.2 6).x, (three r.2 6).y,
    (three r.2 6).z⟩)

/-- The orbit of a row. -/
noncomputable def orbitOf (r : ℚ × List ℚ) : Orbit := ⟨epochAt r.1, three r.2 0, three r.2 3, three r.2 6⟩

theorem parseEops_rows {text : List Char} {rs : List (ℚ × List ℚ)} (h : Table 1024 8 text rs) (junk : Fin 9 → ℚ) :
    parseEops junk (some text) = .ok (rs.map eopsOf) := by
  unfold parseEops
  rw [bench_rows h (by decide) (by simp)]
  simp only [rb, List.map_map]
  rfl

theorem parseRotary_rows {text : List Char} {rs : List (ℚ × List ℚ)} (h : Table 1024 9 text rs) (junk : Fin 10 → ℚ) :
    parseRotary junk (some text) = .ok (rs.map rotOf) := by
  unfold parseRotary
  rw [bench_rows h (by decide) (by simp)]
  simp only [rb, List.map_map]
  rfl

theorem rot_transpose (q : ℚ × List ℚ) (g : V3) : (rotOf q).2.transpose * g = toCelestial q.2 g := by
  unfold toCelestial
  generalize hq : three q.2 0 = a
  generalize hq2 : three q.2 3 = b
  generalize hq3 : three q.2 6 = c
  unfold rotOf
  rw [hq, hq2, hq3, M3.mulVec_def]
  ext <;> simp [M3.transpose] <;> ring

/-- A line of the comparison: `V` is the potential at an epoch. -/
def LineFor (V : ℚ → List ℚ → V3 → ℝ) (o e q a : ℚ × List ℚ) (l : Line) : Prop :=
  l.epoch = epochAt o.1 ∧ l.ref = three a.2 0 ∧ ∃ g, Harmonic.IsGradient (V o.1 e.2) (three o.2 0) g ∧ l.val = toCelestial q.2 g

/-- The loop on rows of four tables; `I` is what the object keeps. -/
theorem compareRot_rows {σ : Type} {I : σ → Prop} {f : σ → Orbit → Eops → Res (σ × Option V3)} {V : ℚ → List ℚ → V3 → ℝ} :
    ∀ {s : σ} {os es qs as : List (ℚ × List ℚ)}, I s →
    os.map (·.1) <+: es.map (·.1) → os.map (·.1) <+: qs.map (·.1) → os.map (·.1) <+: as.map (·.1) →
    (∀ s, I s → ∀ o ∈ os, ∀ e ∈ es, o.1 = e.1 →
      ∃ s' g, f s (orbitOf o) (eopsOf e) = .ok (s', some g) ∧ I s' ∧ Harmonic.IsGradient (V o.1 e.2) (three o.2 0) g) →
    ∃ ls, compareRot f s (os.map orbitOf) (es.map eopsOf) (qs.map rotOf) (as.map fun r => ⟨epochAt r.1, three r.2 0⟩) = .ok (0, ls) ∧
      ls.length = os.length ∧ ∀ (i : Nat) o e q a l, os[i]? = some o → es[i]? = some e → qs[i]? = some q → as[i]? = some a → ls[i]? = some l →
        LineFor V o e q a l
  | _, [], _, _, _, _, _, _, _, _ => ⟨[], by simp [compareRot], rfl, by simp⟩
  | _, o :: os, [], _, _, _, h, _, _, _ => by simp at h
  | _, o :: os, _ :: _, [], _, _, _, h, _, _ => by simp at h
  | _, o :: os, _ :: _, _ :: _, [], _, _, _, h, _ => by simp at h
  | s, o :: os, e :: es, q :: qs, a :: as, hI, h1, h2, h3, hf => by
    simp only [List.map_cons, List.cons_prefix_cons] at h1 h2 h3
    obtain ⟨s', g, hg, hI', hgr⟩ := hf s hI o (by simp) e (by simp) h1.1
    obtain ⟨ls, hl, hlen, hls⟩ := compareRot_rows hI' h1.2 h2.2 h3.2 (fun t ht x hx y hy => hf t ht x (by simp [hx]) y (by simp [hy]))
    have ha : (eopsOf e).epoch = (orbitOf o).epoch := by show epochAt e.1 = epochAt o.1; rw [h1.1]
    have hb : (rotOf q).1 = (orbitOf o).epoch := by show epochAt q.1 = epochAt o.1; rw [h2.1]
    have hc : epochAt a.1 = (orbitOf o).epoch := by show epochAt a.1 = epochAt o.1; rw [h3.1]
    refine ⟨⟨epochAt o.1, three a.2 0, toCelestial q.2 g⟩ :: ls, ?_, by simp [hlen], ?_⟩
    · simp only [List.map_cons]
      unfold compareRot
      simp only
      rw [if_neg (by rw [ha]; simp), hg]
      simp only [rb]
      rw [if_neg (by rw [hb]; simp), if_neg (by rw [hc]; simp), hl]
      simp only [rb, rot_transpose]
      rfl
    · intro i o' e' q' a' l' k1 k2 k3 k4 k5
      cases i with
      | zero =>
        simp only [List.getElem?_cons_zero, Option.some.injEq] at k1 k2 k3 k4 k5
        subst k1 k2 k3 k4 k5
        exact ⟨rfl, rfl, g, hgr, rfl⟩
      | succ i =>
        simp only [List.getElem?_cons_succ] at k1 k2 k3 k4 k5
        exact hls i _ _ _ _ _ k1 k2 k3 k4 k5

/-- The loop when Earth orientation or rotations end first. -/
theorem compareRot_short {σ : Type} {I : σ → Prop} {f : σ → Orbit → Eops → Res (σ × Option V3)} {o : ℚ × List ℚ} {os' : List (ℚ × List ℚ)} :
    ∀ {s : σ} {os es qs as : List (ℚ × List ℚ)}, I s →
    (os.map (·.1) = es.map (·.1) ∨ (os ++ [o]).map (·.1) <+: es.map (·.1) ∧ os.map (·.1) = qs.map (·.1)) →
    os.map (·.1) <+: qs.map (·.1) → os.map (·.1) <+: as.map (·.1) →
    (∀ s, I s → ∀ x ∈ os ++ [o], ∀ e ∈ es, x.1 = e.1 → ∃ s' g, f s (orbitOf x) (eopsOf e) = .ok (s', some g) ∧ I s') →
    compareRot f s ((os ++ o :: os').map orbitOf) (es.map eopsOf) (qs.map rotOf) (as.map fun r => ⟨epochAt r.1, three r.2 0⟩) = .ub := by
  intro s os
  induction os generalizing s with
  | nil =>
    intro es qs as hI h1 h2 h3 hf
    rcases h1 with h1 | ⟨h1, h1'⟩
    · have : es = [] := by simpa using h1.symm
      subst this
      rfl
    · have : qs = [] := by simpa using h1'.symm
      subst this
      cases es with
      | nil => rfl
      | cons e es =>
        simp only [List.nil_append, List.map_cons, List.map_nil, List.cons_prefix_cons] at h1
        obtain ⟨s', g, hg, -⟩ := hf s hI o (by simp) e (by simp) h1.1
        simp only [List.nil_append, List.map_cons, List.map_nil]
        unfold compareRot
        simp only
        rw [if_neg (by show ¬ epochAt e.1 ≠ epochAt o.1; rw [h1.1]; simp), hg]
        rfl
  | cons x os ih =>
    intro es qs as hI h1 h2 h3 hf
    have hE : ∃ e es', es = e :: es' ∧ x.1 = e.1 := by
      cases es with
      | nil => rcases h1 with h1 | ⟨h1, -⟩ <;> simp at h1
      | cons e es' =>
        refine ⟨e, es', rfl, ?_⟩
        rcases h1 with h1 | ⟨h1, -⟩
        · simp only [List.map_cons, List.cons.injEq] at h1; exact h1.1
        · simp only [List.cons_append, List.map_cons, List.cons_prefix_cons] at h1; exact h1.1
    obtain ⟨e, es', rfl, he⟩ := hE
    cases qs with
    | nil => simp at h2
    | cons q qs =>
      cases as with
      | nil => simp at h3
      | cons a as =>
        simp only [List.map_cons, List.cons_prefix_cons] at h2 h3
        obtain ⟨s', g, hg, hI'⟩ := hf s hI x (by simp) e (by simp) he
        have := ih (s := s') (es := es') (qs := qs) (as := as) hI' (by
          rcases h1 with h1 | ⟨h1, h1'⟩
          · left; simpa using (by simp only [List.map_cons, List.cons.injEq] at h1; exact h1.2)
          · right
            simp only [List.cons_append, List.map_cons, List.cons_prefix_cons, List.cons.injEq] at h1 h1'
            exact ⟨h1.2, h1'.2⟩) h2.2 h3.2 (fun t ht y hy z hz => hf t ht y (by simp at hy ⊢; tauto) z (by simp [hz]))
        simp only [List.cons_append, List.map_cons]
        unfold compareRot
        simp only
        rw [if_neg (by show ¬ epochAt e.1 ≠ epochAt x.1; rw [he]; simp), hg]
        simp only [rb]
        rw [if_neg (by show ¬ epochAt q.1 ≠ epochAt x.1; rw [h2.1]; simp), if_neg (by show ¬ epochAt a.1 ≠ epochAt x.1; rw [h3.1]; simp), this]
        rfl

theorem yearsTT_eq {t : ℚ} : yearsSince (ttOf (epochAt t)) = yearsTT t := by
  unfold yearsTT
  rw [← jd_ttOf]
  unfold yearsSince Planets.jd
  ring

theorem rad2sec_eq (v : List ℚ) (i : Nat) : rad2sec ((v.getD i 0 : ℚ) : ℝ) = arcsec v i := by
  unfold rad2sec arcsec; ring

theorem harmonic_zero (GM Re : ℝ) (n m : ℕ) (v : V3) : Harmonic.harmonic GM Re n m 0 0 v = 0 := by
  unfold Harmonic.harmonic; ring

/-- A potential with one term. -/
theorem potential_single (GM Re c s : ℝ) (v : V3) :
    Harmonic.potential GM Re (fun n m => if n = 2 ∧ m = 1 then c else 0) (fun n m => if n = 2 ∧ m = 1 then s else 0) 2 2 v =
      Harmonic.harmonic GM Re 2 1 c s v := by
  unfold Harmonic.potential
  simp [Finset.sum_range_succ, harmonic_zero]

theorem pole_step (W M : Epoch → Int → ℝ) (o e : ℚ × List ℚ) (h0 : three o.2 0 ≠ 0) :
    ∃ g, poleTide W M () (orbitOf o) (eopsOf e) = .ok ((), some g) ∧ Harmonic.IsGradient (polePotential o.1 e.2) (three o.2 0) g := by
  unfold poleTide
  have hy : yearsSince (ttOf (orbitOf o).epoch) = yearsTT o.1 := yearsTT_eq
  have hx : rad2sec ((eopsOf e).xp : ℚ) = arcsec e.2 0 := rad2sec_eq e.2 0
  have hx2 : rad2sec ((eopsOf e).yp : ℚ) = arcsec e.2 1 := rad2sec_eq e.2 1
  have hxyz : (orbitOf o).xyz = three o.2 0 := rfl
  simp only [hy, hx, hx2, hxyz]
  have hc : PoleTide.solid21 (yearsTT o.1) (arcsec e.2 0) (arcsec e.2 1) =
      (poleC (arcsec e.2 0 - PoleTide.poleX (yearsTT o.1)) (-(arcsec e.2 1 - PoleTide.poleY (yearsTT o.1))),
       poleS (arcsec e.2 0 - PoleTide.poleX (yearsTT o.1)) (-(arcsec e.2 1 - PoleTide.poleY (yearsTT o.1)))) := by
    unfold PoleTide.solid21
    rw [PoleTide.mcoeffs_eq]
    unfold poleC poleS
    simp only [neg_sub]
  rw [hc]
  unfold polePotential
  simp only
  generalize poleC _ _ = c
  generalize poleS _ _ = s
  obtain ⟨out, ho, hgr⟩ := Cunningham.acceleration_is_gradient_partial
    ⟨2, 2, fun n m => if n = 2 ∧ m = 1 then c else 0, fun n m => if n = 2 ∧ m = 1 then s else 0, 3.986004418e14, 6378136.6⟩
    (three o.2 0) 2 2 6378136.6 3.986004418e14 ⟨5, W (orbitOf o).epoch⟩ ⟨5, M (orbitOf o).epoch⟩ (fun _ => 0) (by norm_num) (by norm_num) (by norm_num)
    (by norm_num) (by norm_num) (by norm_num) (by norm_num) h0 (Or.inl (by norm_num)) (Or.inl (by norm_num))
  refine ⟨out.a, ?_, ?_⟩
  · have hd : Cunningham.gradient ⟨2, 2, fun n m => if n = 2 ∧ m = 1 then c else 0, fun n m => if n = 2 ∧ m = 1 then s else 0, 3.986004418e14, 6378136.6⟩
        (three o.2 0) 2 2 (-1) (-1) (some ⟨5, W (orbitOf o).epoch⟩) (some ⟨5, M (orbitOf o).epoch⟩) (fun _ => 0) = .ok (some out) := by
      rw [← ho]
      unfold Cunningham.gradient
      norm_num
    rw [hd]; rfl
  · have : Harmonic.potential 3.986004418e14 6378136.6 (Cunningham.Coeffs.c ⟨2, 2, fun n m => if n = 2 ∧ m = 1 then c else 0,
        fun n m => if n = 2 ∧ m = 1 then s else 0, 3.986004418e14, 6378136.6⟩) (Cunningham.Coeffs.s ⟨2, 2, fun n m => if n = 2 ∧ m = 1 then c else 0,
        fun n m => if n = 2 ∧ m = 1 then s else 0, 3.986004418e14, 6378136.6⟩) 2 2 = fun r => Harmonic.harmonic 3.986004418e14 6378136.6 2 1 c s r := by
      funext r
      rw [← potential_single]
      unfold Cunningham.Coeffs.c Cunningham.Coeffs.s
      congr 1 <;> funext n m <;> exact if_congr (by constructor <;> (rintro ⟨h, h'⟩; constructor <;> omega)) rfl rfl
    rw [this] at hgr
    exact hgr

/-- C90: the pole tide. From an orbit, rotations, Earth orientation and a benchmark with the same epochs, with satellites off the geocentre, the
program succeeds and gives for every epoch, in order, the benchmark's acceleration and the gradient of the potential of the pole tide,
turned to the celestial frame. -/
theorem check_pole_partial {orbit rot eop acc : List Char} {os qs es as : List (ℚ × List ℚ)} (ho : Table 512 9 orbit os)
    (hq : Table 1024 9 rot qs) (he : Table 1024 8 eop es) (ha : Table 256 3 acc as) (h1 : os.map (·.1) <+: es.map (·.1))
    (h2 : os.map (·.1) <+: qs.map (·.1)) (h3 : os.map (·.1) <+: as.map (·.1)) (hne : ∀ o ∈ os, three o.2 0 ≠ 0)
    (W M : Epoch → Int → ℝ) (junkO junkR : Fin 10 → ℚ) (junkA : Fin 4 → ℚ) (junkE : Fin 9 → ℚ) :
    ∃ ls, checkPole W M junkO junkR junkA junkE (some orbit) (some rot) (some eop) (some acc) = .ok (0, ls) ∧ ls.length = os.length ∧
      ∀ (i : Nat) o e q a l, os[i]? = some o → es[i]? = some e → qs[i]? = some q → as[i]? = some a → ls[i]? = some l →
        LineFor polePotential o e q a l := by
  unfold checkPole
  rw [bench_orbit ho, bench_accelerations ha, parseRotary_rows hq, parseEops_rows he]
  simp only [rb]
  refine compareRot_rows (I := fun _ => True) trivial h1 h2 h3 (fun _ _ o ho e _ _ => ?_)
  obtain ⟨g, hg, hgr⟩ := pole_step W M o e (hne o ho)
  exact ⟨(), g, hg, trivial, hgr⟩

/-- C90 fails: Earth orientation or rotations for fewer epochs than the orbit has make the program read behind their end. -/
theorem check_pole_short_fails {orbit rot eop acc : List Char} {o : ℚ × List ℚ} {os os' qs es as : List (ℚ × List ℚ)}
    (ho : Table 512 9 orbit (os ++ o :: os')) (hq : Table 1024 9 rot qs) (he : Table 1024 8 eop es) (ha : Table 256 3 acc as)
    (h1 : os.map (·.1) = es.map (·.1) ∨ (os ++ [o]).map (·.1) <+: es.map (·.1) ∧ os.map (·.1) = qs.map (·.1))
    (h2 : os.map (·.1) <+: qs.map (·.1)) (h3 : os.map (·.1) <+: as.map (·.1)) (hne : ∀ x ∈ os ++ [o], three x.2 0 ≠ 0)
    (W M : Epoch → Int → ℝ) (junkO junkR : Fin 10 → ℚ) (junkA : Fin 4 → ℚ) (junkE : Fin 9 → ℚ) :
    checkPole W M junkO junkR junkA junkE (some orbit) (some rot) (some eop) (some acc) = .ub := by
  unfold checkPole
  rw [bench_orbit ho, bench_accelerations ha, parseRotary_rows hq, parseEops_rows he]
  simp only [rb]
  refine compareRot_short (I := fun _ => True) trivial h1 h2 h3 (fun _ _ x hx e _ _ => ?_)
  obtain ⟨g, hg, -⟩ := pole_step W M x e (hne x hx)
  exact ⟨(), g, hg, trivial⟩

/-! ### The ocean pole tide -/

theorem yearsRaw_eq (t : ℚ) : yearsRaw (epochAt t) = ((t : ℝ) - 51544.5) / 365.25 := by
  have h : ((⌊t⌋ : ℤ) : ℝ) + ((Int.fract t : ℚ) : ℝ) = (t : ℝ) := by exact_mod_cast Int.floor_add_fract t
  unfold yearsRaw epochAt
  rw [Rat.cast_mul, ← h]
  push_cast [-Rat.cast_fract]
  ring

/-- What the object keeps over the epochs. -/
def Keeps (es : List PoleTide.Entry) (s : PoleTide.Ocean) : Prop :=
  s.WF ∧ s.deg = 360 ∧ s.ord = 360 ∧ s.cs.ord = 360 ∧ s.cs.re = 6378136.6 ∧ s.cs.gm = 3.986004418e14 ∧ s.desai.Holds es 360 360

theorem cs_set {α : Type} {c : Coeffs α} (hr : 2 ≤ c.rows) (z : α) :
    ∃ c', ((c.setC 1 1 z).bind fun c => (c.setC 1 0 z).bind fun c => (c.setC 0 0 z).bind fun c =>
      (c.setS 1 1 z).bind fun c => (c.setS 1 0 z).bind fun c => c.setS 0 0 z) = .ok c' ∧ c'.rows = c.rows ∧ c'.deg = c.deg ∧ c'.ord = c.ord ∧
      c'.re = c.re ∧ c'.gm = c.gm ∧ ∀ l k : Nat, k ≤ l → c'.C l k = (if l < 2 then z else c.C l k) ∧ c'.S l k = (if l < 2 then z else c.S l k) := by
  have eC : ∀ (d : Coeffs α) (i j : Int), d.Has i j → d.setC i j z = .ok { d with C := Coeffs.put d.C i.toNat j.toNat z } :=
    fun d i j h => if_pos h
  have eS : ∀ (d : Coeffs α) (i j : Int), d.Has i j → d.setS i j z = .ok { d with S := Coeffs.put d.S i.toNat j.toNat z } :=
    fun d i j h => if_pos h
  refine ⟨{ c with C := Coeffs.put (Coeffs.put (Coeffs.put c.C 1 1 z) 1 0 z) 0 0 z, S := Coeffs.put (Coeffs.put (Coeffs.put c.S 1 1 z) 1 0 z) 0 0 z },
    ?_, rfl, rfl, rfl, rfl, rfl, ?_⟩
  · rw [eC _ 1 1 (by unfold Coeffs.Has; (try dsimp only); omega), rb, eC _ 1 0 (by unfold Coeffs.Has; dsimp only; omega), rb,
      eC _ 0 0 (by unfold Coeffs.Has; (try dsimp only); omega), rb, eS _ 1 1 (by unfold Coeffs.Has; dsimp only; omega), rb,
      eS _ 1 0 (by unfold Coeffs.Has; (try dsimp only); omega), rb, eS _ 0 0 (by unfold Coeffs.Has; dsimp only; omega)]
    rfl
  · intro l k hk
    simp only [Coeffs.put]
    rcases Nat.lt_or_ge l 2 with hl | hl
    · have : (l = 0 ∧ k = 0) ∨ (l = 1 ∧ k = 0) ∨ (l = 1 ∧ k = 1) := by omega
      rcases this with ⟨rfl, rfl⟩ | ⟨rfl, rfl⟩ | ⟨rfl, rfl⟩ <;> simp
    · rw [if_neg (by omega), if_neg (by omega), if_neg (by omega), if_neg (by omega), if_neg (by omega), if_neg (by omega), if_neg (by omega), if_neg (by omega)]
      exact ⟨rfl, rfl⟩

theorem potential_congr {GM Re : ℝ} {C S C' S' : ℕ → ℕ → ℝ} {n : ℕ} (h : ∀ l k, k ≤ l → l ≤ n → C l k = C' l k ∧ S l k = S' l k) :
    Harmonic.potential GM Re C S n n = Harmonic.potential GM Re C' S' n n := by
  funext v
  unfold Harmonic.potential
  refine Finset.sum_congr rfl fun l hl => Finset.sum_congr rfl fun k hk => ?_
  simp only [Finset.mem_range] at hl hk
  obtain ⟨h1, h2⟩ := h l k (by omega) (by omega)
  rw [h1, h2]

theorem ocean_step (es : List PoleTide.Entry) (W M : Epoch → Int → ℝ) {s : PoleTide.Ocean} (hs : Keeps es s) (o e : ℚ × List ℚ) (h0 : three o.2 0 ≠ 0) :
    ∃ s' g, oceanPole W M s (orbitOf o) (eopsOf e) = .ok (s', some g) ∧ Keeps es s' ∧
      Harmonic.IsGradient (oceanPotential es (((o.1 : ℝ) - 51544.5) / 365.25) e.2) (three o.2 0) g := by
  obtain ⟨hw, hd, hod, hco, hre, hgm, hh⟩ := hs
  have hy : yearsRaw (orbitOf o).epoch = ((o.1 : ℝ) - 51544.5) / 365.25 := yearsRaw_eq o.1
  have hx : rad2sec ((eopsOf e).xp : ℚ) = arcsec e.2 0 := rad2sec_eq e.2 0
  have hx2 : rad2sec ((eopsOf e).yp : ℚ) = arcsec e.2 1 := rad2sec_eq e.2 1
  have hxyz : (orbitOf o).xyz = three o.2 0 := rfl
  obtain ⟨cs, g1, g2, g3, g4, g5, g6, g7, -⟩ := PoleTide.stokes_ok hw (((o.1 : ℝ) - 51544.5) / 365.25) (arcsec e.2 0) (arcsec e.2 1) 180 180
    7.2921151467064e-5 6.67428e-11 9.7803278 (by norm_num) (by norm_num) (by norm_num) (by omega) (by omega) (by norm_num)
  have hrows : cs.rows = 361 := by rw [g2, hw.rows, hd]; rfl
  obtain ⟨c, k1, k2, k3, k4, k5, k6, k7⟩ := cs_set (c := cs) (by omega) (0 : ℝ)
  obtain ⟨out, ho, hgr⟩ := Cunningham.acceleration_is_gradient_partial
    ⟨c.deg, c.ord, fun n m => c.C n.toNat m.toNat, fun n m => c.S n.toNat m.toNat, c.gm, c.re⟩
    (three o.2 0) 180 180 6378136.6 3.986004418e14 ⟨183, W (orbitOf o).epoch⟩ ⟨183, M (orbitOf o).epoch⟩ (fun _ => 0) (by norm_num) (by norm_num) (by norm_num)
    (by show ((180 : ℕ) : Int) ≤ c.deg; rw [k3, g3, hw.csdeg, hd]; norm_num) (by show ((180 : ℕ) : Int) ≤ c.ord; rw [k4, g4, hco]; norm_num) (by norm_num) (by norm_num) h0 (Or.inl (by norm_num)) (Or.inl (by norm_num))
  have hre' : c.re = 6378136.6 := by rw [k5, g5, hre]
  have hgm' : c.gm = 3.986004418e14 := by rw [k6, g6, hgm]
  refine ⟨{ s with cs := c }, out.a, ?_, ⟨⟨hw.deg, hw.ord, k2.trans (g2.trans hw.rows), k3.trans (g3.trans hw.csdeg), hw.desai⟩, hd, hod, ?_, hre', hgm', hh⟩, ?_⟩
  · unfold oceanPole
    simp only [hy, hx, hx2, hxyz]
    rw [g1]
    simp only [rb, ne_eq, not_true_eq_false, if_false]
    have hgrad : Cunningham.gradient ⟨c.deg, c.ord, fun n m => c.C n.toNat m.toNat, fun n m => c.S n.toNat m.toNat, c.gm, c.re⟩
        (three o.2 0) 180 180 (-1) (-1) (some ⟨183, W (orbitOf o).epoch⟩) (some ⟨183, M (orbitOf o).epoch⟩) (fun _ => 0) = .ok (some out) := by
      rw [← ho]
      have e1 : (if (-1 : ℝ) < 0 then c.re else -1) = 6378136.6 := by rw [if_pos (by norm_num), hre']
      have e2 : (if (-1 : ℝ) < 0 then c.gm else -1) = 3.986004418e14 := by rw [if_pos (by norm_num), hgm']
      have e3 : (if (6378136.6 : ℝ) < 0 then c.re else 6378136.6) = 6378136.6 := if_neg (by norm_num)
      have e4 : (if (3.986004418e14 : ℝ) < 0 then c.gm else 3.986004418e14) = 3.986004418e14 := if_neg (by norm_num)
      unfold Cunningham.gradient
      simp only [e1, e2, e3, e4]
      rfl
    have hsets : ∀ {β : Type} (k : Coeffs ℝ → Res β), ((cs.setC 1 1 0).bind fun c => (c.setC 1 0 0).bind fun c => (c.setC 0 0 0).bind fun c =>
        (c.setS 1 1 0).bind fun c => (c.setS 1 0 0).bind fun c => (c.setS 0 0 0).bind k) = k c := by
      intro β k
      have : ∀ (x : Res (Coeffs ℝ)), x = .ok c → x.bind k = k c := by intro x hx; rw [hx]; rfl
      rw [← this _ k1]
      simp only [bind_assoc']
    rw [hsets, hgrad]
    rfl
  · show c.ord = 360
    rw [k4, g4, hco]
  · have : Harmonic.potential 3.986004418e14 6378136.6 (Cunningham.Coeffs.c ⟨c.deg, c.ord, fun n m => c.C n.toNat m.toNat, fun n m => c.S n.toNat m.toNat, c.gm, c.re⟩)
        (Cunningham.Coeffs.s ⟨c.deg, c.ord, fun n m => c.C n.toNat m.toNat, fun n m => c.S n.toNat m.toNat, c.gm, c.re⟩) 180 180 =
        oceanPotential es (((o.1 : ℝ) - 51544.5) / 365.25) e.2 := by
      unfold oceanPotential
      simp only
      apply potential_congr
      intro l k hk hl
      unfold Cunningham.Coeffs.c Cunningham.Coeffs.s
      simp only [Int.toNat_natCast]
      obtain ⟨q1, q2⟩ := k7 l k hk
      obtain ⟨q3, q4⟩ := g7 l k hk (by omega) (by omega)
      obtain ⟨q5, q6, q7, q8⟩ := hh.2 l k (by omega) hk
      rw [if_pos (by omega : (k : Int) ≤ 360)] at q5 q6 q7 q8
      rw [q1, q2, q3, q4, q5, q6, q7, q8, hre, hgm]
      exact ⟨rfl, rfl⟩
    rw [this] at hgr
    exact hgr

theorem ocean_make (junk : Nat → Nat → ℝ) (jr : List ℚ) (hj : jr.length = 4) (head : List Char) (lines : List (List Char)) (es : List PoleTide.Entry)
    (hh : head.filter (· ≠ ' ') = "nmAnm(Real)Bnm(Real)Anm(Imaginary)Bnm(Imaginary)".toList) (hl : head.length < 256)
    (h : List.Forall₂ (fun l e => l.length < 256 ∧ PoleTide.Entry.Line e l ∧ 0 ≤ e.m ∧ e.m ≤ e.l) lines es) :
    ∃ s, PoleTide.Ocean.make junk jr (some (head :: lines)) 360 360 = .ok s ∧ Keeps es s := by
  obtain ⟨d, h1, h2⟩ := PoleTide.desai_complete_partial jr hj head lines es 360 360 ⟨(360 + 1 : Int).toNat, fun _ _ => 0, fun _ _ => 0, fun _ _ => 0, fun _ _ => 0⟩
    hh hl le_rfl (by norm_num) le_rfl h
  have hm : PoleTide.Ocean.make junk jr (some (head :: lines)) 360 360 = .ok ⟨360, 360, PoleTide.newSet junk 360 360, d⟩ := by
    unfold PoleTide.Ocean.make
    rw [if_neg (by norm_num), h1]
    rfl
  refine ⟨_, hm, ?_⟩
  obtain ⟨w1, w2, w3, w4, w5⟩ := PoleTide.make_wf hj hm (by norm_num) (by norm_num)
  exact ⟨w1, w2, w3, rfl, w4, w5, h2⟩

/-- C90: the ocean pole tide, from the file of the Conventions with the entries `ds`: as for the pole tide, with the gradient of the potential of
degrees 2 to 180. The secular pole is that of the date in GPS time, not TT (`check_ocean_pole_time_fails`). -/
theorem check_ocean_pole_partial {orbit rot eop acc : List Char} {os qs es as : List (ℚ × List ℚ)} (ho : Table 512 9 orbit os)
    (hq : Table 1024 9 rot qs) (he : Table 1024 8 eop es) (ha : Table 256 3 acc as) (h1 : os.map (·.1) <+: es.map (·.1))
    (h2 : os.map (·.1) <+: qs.map (·.1)) (h3 : os.map (·.1) <+: as.map (·.1)) (hne : ∀ o ∈ os, three o.2 0 ≠ 0)
    (head : List Char) (lines : List (List Char)) (ds : List PoleTide.Entry)
    (hh : head.filter (· ≠ ' ') = "nmAnm(Real)Bnm(Real)Anm(Imaginary)Bnm(Imaginary)".toList) (hl : head.length < 256)
    (h : List.Forall₂ (fun l e => l.length < 256 ∧ PoleTide.Entry.Line e l ∧ 0 ≤ e.m ∧ e.m ≤ e.l) lines ds)
    (W M : Epoch → Int → ℝ) (junkO junkR : Fin 10 → ℚ) (junkA : Fin 4 → ℚ) (junkE : Fin 9 → ℚ) (junkC : Nat → Nat → ℝ) (junkD : List ℚ)
    (hj : junkD.length = 4) :
    ∃ ls, checkOceanPole W M junkO junkR junkA junkE junkC junkD (some orbit) (some rot) (some eop) (some acc) (some (head :: lines)) = .ok (0, ls) ∧
      ls.length = os.length ∧
      ∀ (i : Nat) o e q a l, os[i]? = some o → es[i]? = some e → qs[i]? = some q → as[i]? = some a → ls[i]? = some l →
        LineFor (fun t => oceanPotential ds (((t : ℝ) - 51544.5) / 365.25)) o e q a l := by
  obtain ⟨s, hs, hk⟩ := ocean_make junkC junkD hj head lines ds hh hl h
  unfold checkOceanPole
  rw [bench_orbit ho, bench_accelerations ha, parseRotary_rows hq, parseEops_rows he, hs]
  simp only [rb]
  exact compareRot_rows (I := Keeps ds) hk h1 h2 h3 (fun t ht o ho e _ _ => ocean_step ds W M ht o e (hne o ho))

/-- C90 fails: the secular pole in the program for the ocean pole tide is that of 51.184 s before the epoch. -/
theorem check_ocean_pole_time_fails (t : ℚ) :
    yearsTT t - yearsRaw (epochAt t) = 51.184 / 86400 / 365.25 ∧
    PoleTide.poleX (yearsRaw (epochAt t)) < PoleTide.poleX (yearsTT t) ∧ PoleTide.poleY (yearsRaw (epochAt t)) < PoleTide.poleY (yearsTT t) := by
  rw [yearsRaw_eq]
  unfold yearsTT jdTT PoleTide.poleX PoleTide.poleY
  refine ⟨?_, ?_, ?_⟩
  · ring
  · have : ((t : ℝ) - 51544.5) / 365.25 < ((t : ℝ) + (19 + 32.184) / 86400 + 2400000.5 - 2451545) / 365.25 := by
      apply div_lt_div_of_pos_right _ (by norm_num); norm_num; linarith
    linarith
  · have : ((t : ℝ) - 51544.5) / 365.25 < ((t : ℝ) + (19 + 32.184) / 86400 + 2400000.5 - 2451545) / 365.25 := by
      apply div_lt_div_of_pos_right _ (by norm_num); norm_num; linarith
    linarith

/-! ### File names -/

theorem lastSplit_none : ∀ (s : List Char) (i p : Nat), '/' ∉ s → lastSplit s i p = p
  | [], _, _, _ => rfl
  | c :: s, i, p, h => by
    simp only [List.mem_cons, not_or] at h
    rw [lastSplit, if_neg (fun e => h.1 e.symm), lastSplit_none s _ _ h.2]

theorem lastSplit_slash : ∀ (d : List Char) (name : List Char) (i p : Nat), '/' ∉ name → lastSplit (d ++ '/' :: name) i p = i + d.length
  | [], name, i, p, h => by simp [lastSplit, lastSplit_none name _ _ h]
  | c :: d, name, i, p, h => by
    rw [List.cons_append, lastSplit, lastSplit_slash d name _ _ h]; simp; omega

/-- C90: of a path with a directory the name of the file is shown. -/
theorem basename_partial (dir name : List Char) (h : '/' ∉ name) : basename (dir ++ '/' :: name) = .ok name := by
  cases dir with
  | nil => simp [basename, lastSplit_none name _ _ h]
  | cons c d =>
    simp only [List.cons_append, basename, lastSplit_slash d name _ _ h]
    congr 1
    rw [show c :: (d ++ '/' :: name) = (c :: d ++ ['/']) ++ name by simp]
    exact List.drop_left' (by simp; omega)

/-- C90 fails: of a file in the current directory the name without its first letter is shown. -/
theorem basename_fails (c : Char) (name : List Char) (h : '/' ∉ name) : basename (c :: name) = .ok name := by
  simp [basename, lastSplit_none name _ _ h]

/-! ### Examples -/

/-- Numbers, each behind a blank. -/
def joined : List Dec → List Char
  | [] => []
  | d :: ds => ' ' :: (d.text ++ joined ds)

theorem joined_ends (ds : List Dec) : Ends (joined ds) := by
  cases ds with
  | nil => intro c h; simp [joined] at h
  | cons d ds =>
    intro c h
    simp only [joined, List.head?_cons, Option.mem_def, Option.some.injEq] at h
    subst h
    decide

theorem joined_is : ∀ (ds : List Dec), (∀ d ∈ ds, d.Ok) → LineIs (joined ds) (ds.map Dec.value)
  | [], _ => joined_ends []
  | d :: ds, h => ⟨1, d, joined ds, h d (by simp), rfl, rfl, joined_ends ds, joined_is ds (fun x hx => h x (by simp [hx]))⟩

theorem comment_skipped {c : Char} {l : List Char} {k : Nat} (h : c ≠ ' ' ∧ c ≠ '-' ∧ c ≠ '.' ∧ isDig c = false) :
    ¬ ∃ vals, LineHas (c :: l) vals ∧ vals.length = k + 1 := by
  rintro ⟨vals, hl, hk⟩
  cases vals with
  | nil => simp at hk
  | cons v vs =>
    obtain ⟨n, d, rest, hok, _, he, _⟩ := hl
    cases n with
    | succ n => simp only [List.replicate_succ, List.cons_append, List.cons.injEq] at he; exact h.1 he.1
    | zero =>
      obtain ⟨neg, int, frac, exp⟩ := d
      simp only [List.replicate_zero, List.nil_append, Dec.text] at he
      cases neg with
      | true => simp only [if_true, List.cons_append, List.nil_append, List.cons.injEq] at he; exact h.2.1 he.1
      | false =>
        cases int with
        | cons x int =>
          simp only [Bool.false_eq_true, if_false, List.cons_append, List.nil_append, List.cons.injEq] at he
          have := hok.int x (by simp)
          rw [← he.1, h.2.2.2] at this; cases this
        | nil =>
          rcases hok.nonempty with hn | ⟨f, hf, _⟩
          · exact hn rfl
          · simp only at hf
            subst hf
            simp only [Bool.false_eq_true, if_false, List.nil_append, fracText, List.cons_append, List.cons.injEq] at he
            exact h.2.2.1 he.1

/-- A number without exponent. -/
def num (a f : String) : Dec := ⟨false, a.toList, some f.toList, none⟩

def dOrbit1 : List Dec := [num "58119" "25", num "7000" "0", num "0" "", num "0" "5", num "0" "", num "7" "5", num "0" "", num "8" "", num "0" "0", num "0" "1"]
def dOrbit2 : List Dec := [num "58119" "75", num "0" "0", num "7000" "", num "0" "5", num "1" "", num "7" "5", num "0" "", num "8" "", num "0" "0", num "0" "1"]
def dAcc1 : List Dec := [num "58119" "25", num "0" "01", num "0" "02", num "0" "03"]
def dAcc2 : List Dec := [num "58119" "75", num "0" "04", num "0" "05", num "0" "06"]

/-- An orbit of two epochs behind a comment, without newline at the end, and its benchmark. -/
def exOrbit : List Char := "# mjd x y z\n".toList ++ (joined dOrbit1 ++ '\n' :: joined dOrbit2)
def exAcc : List Char := "# mjd ax ay az\n".toList ++ (joined dAcc1 ++ '\n' :: (joined dAcc2 ++ ['\n']))

def rowOf (ds : List Dec) : ℚ × List ℚ := match ds.map Dec.value with
  | t :: v => (t, v)
  | [] => (0, [])

theorem exOrbit_table : Table 512 9 exOrbit [rowOf dOrbit1, rowOf dOrbit2] where
  lines := ⟨["# mjd x y z".toList, joined dOrbit1, joined dOrbit2],
    ⟨by decide +kernel, Or.inr ⟨["# mjd x y z".toList, joined dOrbit1], joined dOrbit2, rfl, by decide +kernel, by decide +kernel⟩⟩,
    by decide +kernel,
    .skip (comment_skipped (c := '#') (l := " mjd x y z".toList) (by decide)) (.row (t := (rowOf dOrbit1).1) (v := (rowOf dOrbit1).2) (joined_is dOrbit1 (by
      intro d hd; simp only [dOrbit1, List.mem_cons, List.not_mem_nil, or_false] at hd
      rcases hd with rfl | rfl | rfl | rfl | rfl | rfl | rfl | rfl | rfl | rfl <;> exact Dec.ok_of (by decide))) rfl
      (.row (t := (rowOf dOrbit2).1) (v := (rowOf dOrbit2).2) (joined_is dOrbit2 (by
      intro d hd; simp only [dOrbit2, List.mem_cons, List.not_mem_nil, or_false] at hd
      rcases hd with rfl | rfl | rfl | rfl | rfl | rfl | rfl | rfl | rfl | rfl <;> exact Dec.ok_of (by decide))) rfl .nil))⟩
  dates := by
    intro r hr
    simp only [List.mem_cons, List.not_mem_nil, or_false] at hr
    rcases hr with rfl | rfl <;> exact ⟨by decide +kernel, by decide +kernel⟩

theorem exAcc_table : Table 256 3 exAcc [rowOf dAcc1, rowOf dAcc2] where
  lines := ⟨["# mjd ax ay az".toList, joined dAcc1, joined dAcc2],
    ⟨by decide +kernel, Or.inl (by decide +kernel)⟩,
    by decide +kernel,
    .skip (comment_skipped (c := '#') (l := " mjd ax ay az".toList) (by decide)) (.row (t := (rowOf dAcc1).1) (v := (rowOf dAcc1).2) (joined_is dAcc1 (by
      intro d hd; simp only [dAcc1, List.mem_cons, List.not_mem_nil, or_false] at hd
      rcases hd with rfl | rfl | rfl | rfl <;> exact Dec.ok_of (by decide))) rfl
      (.row (t := (rowOf dAcc2).1) (v := (rowOf dAcc2).2) (joined_is dAcc2 (by
      intro d hd; simp only [dAcc2, List.mem_cons, List.not_mem_nil, or_false] at hd
      rcases hd with rfl | rfl | rfl | rfl <;> exact Dec.ok_of (by decide))) rfl .nil))⟩
  dates := by
    intro r hr
    simp only [List.mem_cons, List.not_mem_nil, or_false] at hr
    rcases hr with rfl | rfl <;> exact ⟨by decide +kernel, by decide +kernel⟩

/-- The first epoch of the example is 6 h into day 58119. -/
example : (epochAt (rowOf dOrbit1).1) = (58119, 21600) := by decide +kernel

example : [rowOf dOrbit1, rowOf dOrbit2].map (·.1) <+: [rowOf dAcc1, rowOf dAcc2].map (·.1) := by decide +kernel

/-- The program for the Sun on the example. -/
example : ∃ ls, checkSun (Planets.spiceOf Planets.line id .abort) (fun _ => 3) (fun _ => 4) ⟨1, 2, 3⟩ (some exOrbit) (some exAcc) = .ok (0, ls) ∧
    ls.length = 2 := by
  refine ⟨_, check_sun_partial _ Planets.line id (Planets.documented_spiceOf _ _ _) exOrbit_table exAcc_table (by decide +kernel)
    (fun t => (⟨10 * jdTT t, 10, 2 * jdTT t⟩, ⟨10, 0, 2⟩)) (fun t => (⟨399 * jdTT t, 399, 2 * jdTT t⟩, ⟨399, 0, 2⟩)) ?_ _ _ _, rfl⟩
  intro o _
  constructor <;> norm_num [Planets.line]

def dRot1 : List Dec := [num "58119" "25", num "1" "", num "0" "", num "0" "", num "0" "", num "1" "0", num "0" "", num "0" "", num "0" "0", num "1" "0"]
def dRot2 : List Dec := [num "58119" "75", num "0" "", num "1" "", num "0" "", ⟨true, ['1'], none, none⟩, num "0" "0", num "0" "", num "0" "", num "0" "0", num "1" "0"]
def dEop1 : List Dec := [num "58119" "25", num "0" "1", num "0" "2", num "0" "", num "0" "", num "0" "", num "0" "", num "0" "0", num "0" "1"]
def dEop2 : List Dec := [num "58119" "75", num "0" "3", num "0" "4", num "0" "", num "0" "", num "0" "", num "0" "", num "0" "0", num "0" "1"]
def exRot : List Char := joined dRot1 ++ '\n' :: (joined dRot2 ++ ['\n'])
def exEop : List Char := joined dEop1 ++ '\n' :: (joined dEop2 ++ ['\n'])

theorem exRot_table : Table 1024 9 exRot [rowOf dRot1, rowOf dRot2] where
  lines := ⟨[joined dRot1, joined dRot2], ⟨by decide +kernel, Or.inl (by decide +kernel)⟩, by decide +kernel,
    .row (t := (rowOf dRot1).1) (v := (rowOf dRot1).2) (joined_is dRot1 (by
      intro d hd; simp only [dRot1, List.mem_cons, List.not_mem_nil, or_false] at hd
      rcases hd with rfl | rfl | rfl | rfl | rfl | rfl | rfl | rfl | rfl | rfl <;> exact Dec.ok_of (by decide))) rfl
      (.row (t := (rowOf dRot2).1) (v := (rowOf dRot2).2) (joined_is dRot2 (by
      intro d hd; simp only [dRot2, List.mem_cons, List.not_mem_nil, or_false] at hd
      rcases hd with rfl | rfl | rfl | rfl | rfl | rfl | rfl | rfl | rfl | rfl <;> exact Dec.ok_of (by decide))) rfl .nil)⟩
  dates := by
    intro r hr
    simp only [List.mem_cons, List.not_mem_nil, or_false] at hr
    rcases hr with rfl | rfl <;> exact ⟨by decide +kernel, by decide +kernel⟩

theorem exEop_table : Table 1024 8 exEop [rowOf dEop1, rowOf dEop2] where
  lines := ⟨[joined dEop1, joined dEop2], ⟨by decide +kernel, Or.inl (by decide +kernel)⟩, by decide +kernel,
    .row (t := (rowOf dEop1).1) (v := (rowOf dEop1).2) (joined_is dEop1 (by
      intro d hd; simp only [dEop1, List.mem_cons, List.not_mem_nil, or_false] at hd
      rcases hd with rfl | rfl | rfl | rfl | rfl | rfl | rfl | rfl | rfl <;> exact Dec.ok_of (by decide))) rfl
      (.row (t := (rowOf dEop2).1) (v := (rowOf dEop2).2) (joined_is dEop2 (by
      intro d hd; simp only [dEop2, List.mem_cons, List.not_mem_nil, or_false] at hd
      rcases hd with rfl | rfl | rfl | rfl | rfl | rfl | rfl | rfl | rfl <;> exact Dec.ok_of (by decide))) rfl .nil)⟩
  dates := by
    intro r hr
    simp only [List.mem_cons, List.not_mem_nil, or_false] at hr
    rcases hr with rfl | rfl <;> exact ⟨by decide +kernel, by decide +kernel⟩

theorem three_ne {v : List ℚ} (h : v.getD 2 0 ≠ 0) : three v 0 ≠ 0 := by
  intro e
  have := congrArg V3.z e
  simp only [three, V3.zero_z] at this
  exact h (by exact_mod_cast this)

/-- The program for the pole tide on the example: two lines. -/
example : ∃ ls, checkPole (fun _ _ => 7) (fun _ _ => 8) (fun _ => 3) (fun _ => 5) (fun _ => 4) (fun _ => 6) (some exOrbit) (some exRot) (some exEop)
    (some exAcc) = .ok (0, ls) ∧ ls.length = 2 := by
  obtain ⟨ls, h, hl, -⟩ := check_pole_partial exOrbit_table exRot_table exEop_table exAcc_table (by decide +kernel) (by decide +kernel) (by decide +kernel)
    (by
      intro o ho
      simp only [List.mem_cons, List.not_mem_nil, or_false] at ho
      rcases ho with rfl | rfl <;> exact three_ne (by decide +kernel)) (fun _ _ => 7) (fun _ _ => 8) (fun _ => 3) (fun _ => 5) (fun _ => 4) (fun _ => 6)
  exact ⟨ls, h, hl⟩

/-- The program for the ocean pole tide on the example, with one entry. -/
example : ∃ ls, checkOceanPole (fun _ _ => 7) (fun _ _ => 8) (fun _ => 3) (fun _ => 5) (fun _ => 4) (fun _ => 6) (fun _ _ => 9) [1, 2, 3, 4]
    (some exOrbit) (some exRot) (some exEop) (some exAcc)
    (some ["   n    m   Anm(Real)          Bnm(Real)          Anm(Imaginary)     Bnm(Imaginary)".toList, "   2    1  0.5 -3  2.5E+01 0".toList]) =
      .ok (0, ls) ∧ ls.length = 2 := by
  obtain ⟨ls, h, hl, -⟩ := check_ocean_pole_partial exOrbit_table exRot_table exEop_table exAcc_table (by decide +kernel) (by decide +kernel) (by decide +kernel)
    (by
      intro o ho
      simp only [List.mem_cons, List.not_mem_nil, or_false] at ho
      rcases ho with rfl | rfl <;> exact three_ne (by decide +kernel)) _ _ [⟨2, 1, 1 / 2, -3, 25, 0⟩] PoleTide.ex_header.1 (by decide +kernel)
      (.cons ⟨by decide +kernel, PoleTide.ex_header.2, by decide, by decide⟩ .nil)
      (fun _ _ => 7) (fun _ _ => 8) (fun _ => 3) (fun _ => 5) (fun _ => 4) (fun _ => 6) (fun _ _ => 9) [1, 2, 3, 4] rfl
  exact ⟨ls, h, hl⟩

example : basename "kernels/de421.bsp".toList = .ok "de421.bsp".toList := basename_partial "kernels".toList _ (by decide)
example : basename "de421.bsp".toList = .ok "e421.bsp".toList := basename_fails 'd' _ (by decide)

/-! The reading theorems on these files. -/

example : parse 512 (List.replicate 10 7) (some exOrbit) = .ok ([rowOf dOrbit1, rowOf dOrbit2].map fun r => (epochAt r.1, r.2)) :=
  bench_rows exOrbit_table (by decide) rfl

/-- A second line of 300 characters. -/
example (rs) : parse 256 [7, 7] (some ('#' :: '\n' :: (List.replicate 300 '1' ++ ['\n']))) ≠ .ok rs :=
  bench_long (pre := [['#']]) (post := []) (l := List.replicate 300 '1')
    ⟨by decide +kernel, Or.inl (by decide +kernel)⟩ (by decide) (by rw [List.length_replicate]; decide) [7, 7] rs

example : parseAcc (fun _ => 4) (some exAcc) = .ok ([rowOf dAcc1, rowOf dAcc2].map fun r => ⟨epochAt r.1, three r.2 0⟩) := bench_accelerations exAcc_table _

example : parseOrbit (fun _ => 3) (some exOrbit) = .ok ([rowOf dOrbit1, rowOf dOrbit2].map fun r => ⟨epochAt r.1, three r.2 0, three r.2 3, three r.2 6⟩) :=
  bench_orbit exOrbit_table _

example : ∃ out, parseRotary (fun _ => 5) (some exRot) = .ok out ∧ out.map (·.1) = [(58119, 21600), (58119, 64800)] := by
  obtain ⟨out, h1, h2, _⟩ := bench_rotations exRot_table (fun _ => 5)
  exact ⟨out, h1, h2.trans (by decide +kernel)⟩

example : ∃ out, parseEops (fun _ => 6) (some exEop) = .ok out ∧ out.map (·.epoch) = [(58119, 21600), (58119, 64800)] := by
  obtain ⟨out, h1, h2, _⟩ := bench_eops exEop_table (fun _ => 6)
  exact ⟨out, h1, h2.trans (by decide +kernel)⟩

/-- Two orbit lines, three accelerations. -/
example (p : V3) : compare (fun o => .ok (.inr o.xyz)) [⟨(1, 2), p, 0, 0⟩, ⟨(1, 3), 0, 0, 0⟩] [⟨(1, 2), 0⟩, ⟨(1, 3), p⟩, ⟨(1, 4), 0⟩] =
    .ok (0, [⟨(1, 2), 0, p⟩, ⟨(1, 3), p, 0⟩]) := compare_all (g := fun o => o.xyz) (fun _ _ => rfl) (by simp)

/-- The second epoch differs. -/
example (p : V3) : compare (fun o => .ok (.inr o.xyz)) ([⟨(1, 2), p, 0, 0⟩] ++ ⟨(1, 3), 0, 0, 0⟩ :: []) ([⟨(1, 2), 0⟩] ++ ⟨(1, 4), p⟩ :: []) =
    .ok (1, [⟨(1, 2), 0, p⟩]) := compare_stops (g := fun o => o.xyz) (by simp) (fun _ _ => rfl) rfl

example : ∃ ls, checkMoon (Planets.spiceOf Planets.line id .abort) (fun _ => 3) (fun _ => 4) ⟨1, 2, 3⟩ (some exOrbit) (some exAcc) = .ok (0, ls) ∧
    ls.length = 2 := by
  refine ⟨_, check_moon_partial _ Planets.line id (Planets.documented_spiceOf _ _ _) exOrbit_table exAcc_table (by decide +kernel)
    (fun t => (⟨301 * jdTT t, 301, 2 * jdTT t⟩, ⟨301, 0, 2⟩)) (fun t => (⟨399 * jdTT t, 399, 2 * jdTT t⟩, ⟨399, 0, 2⟩)) ?_ _ _ _, rfl⟩
  intro o _
  constructor <;> norm_num [Planets.line]

example : ∃ ls, checkRelativity (Planets.spiceOf Planets.line id .abort) [] (fun _ => 3) (fun _ => 4) (0, 0) (some exOrbit) (some exAcc) = .ok (0, ls) ∧
    ls.length = 2 := by
  refine ⟨_, check_relativity_partial _ Planets.line id (Planets.documented_spiceOf _ _ _) exOrbit_table exAcc_table (by decide +kernel)
    (fun t => (⟨10 * jdTT t, 10, 2 * jdTT t⟩, ⟨10, 0, 2⟩)) (fun t => (⟨399 * jdTT t, 399, 2 * jdTT t⟩, ⟨399, 0, 2⟩)) ?_ ?_ _ _ _ _, rfl⟩
  · intro o _
    constructor <;> norm_num [Planets.line]
  · intro o ho
    refine ⟨?_, ?_⟩
    · simp only [List.mem_cons, List.not_mem_nil, or_false] at ho
      rcases ho with rfl | rfl <;> exact three_ne (by decide +kernel)
    · intro h
      have := congrArg V3.y h
      norm_num [Planets.metres] at this

/-- Accelerations whose first epoch is not the orbit's. -/
example : ∃ ls, checkBody (Planets.spiceOf Planets.line id .abort) .moon 1 (fun _ => 3) (fun _ => 4) ⟨1, 2, 3⟩ (some exOrbit)
    (some (joined dAcc2 ++ ['\n'])) = .ok (1, ls) ∧ ls = [] := by
  have ht : Table 256 3 (joined dAcc2 ++ ['\n']) [rowOf dAcc2] := ⟨⟨[joined dAcc2], ⟨by decide +kernel, Or.inl (by decide +kernel)⟩, by decide +kernel,
    .row (t := (rowOf dAcc2).1) (v := (rowOf dAcc2).2) (joined_is dAcc2 (by
      intro d hd; simp only [dAcc2, List.mem_cons, List.not_mem_nil, or_false] at hd
      rcases hd with rfl | rfl | rfl | rfl <;> exact Dec.ok_of (by decide))) rfl .nil⟩, by
    intro r hr
    rw [List.mem_singleton.mp hr]; exact ⟨by decide +kernel, by decide +kernel⟩⟩
  obtain ⟨ls, h1, h2⟩ := check_body_mismatch (Planets.spiceOf Planets.line id .abort) Planets.line id (Planets.documented_spiceOf _ _ _) .moon 1
    (os := []) (as := []) (os' := [rowOf dOrbit2]) (as' := []) (o := rowOf dOrbit1) (a := rowOf dAcc2) exOrbit_table ht rfl (by decide +kernel)
    (fun t => (⟨301 * jdTT t, 301, 2 * jdTT t⟩, ⟨301, 0, 2⟩)) (fun t => (⟨399 * jdTT t, 399, 2 * jdTT t⟩, ⟨399, 0, 2⟩))
    (by intro o _; constructor <;> norm_num [Planets.line, Planets.naif]) (fun _ => 3) (fun _ => 4) ⟨1, 2, 3⟩
  exact ⟨ls, h1, by simpa using h2⟩

end Verif.Costg
