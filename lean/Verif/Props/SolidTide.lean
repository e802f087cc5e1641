import Verif.Spec.SolidTide
import Verif.Proof.LegendreLow
import Verif.Proof.Angle
import Verif.Props.Angle
import Mathlib.Tactic.LinearCombination
import Mathlib.Tactic.FieldSimp
import Mathlib.Tactic.IntervalCases
/-
Properties C51, C52, C53: solid Earth tide corrections of the gravity field.
-/
namespace Verif.SolidTide
open Verif Verif.Legendre Verif.Doodson Verif.Iau Verif.Angle

theorem exp_neg (m : ℕ) (x : ℝ) : Complex.exp (-Complex.I * m * (x : ℂ)) = (Real.cos (m * x) : ℂ) - Complex.I * (Real.sin (m * x) : ℂ) := by
  have : -Complex.I * m * (x : ℂ) = (-(m * x : ℝ) : ℂ) * Complex.I := by push_cast; ring
  rw [this, Complex.exp_mul_I, Complex.ofReal_cos, Complex.ofReal_sin, Complex.cos_neg, Complex.sin_neg]
  ring

theorem sin_lat (v : V3) : Real.sin (cart2sph v).lat = v.z / v.norm := by
  have h : v.z ^ 2 ≤ v.norm ^ 2 := by
    unfold V3.norm
    rw [Real.sq_sqrt (by unfold V3.dot; nlinarith [sq_nonneg v.x, sq_nonneg v.y, sq_nonneg v.z])]
    unfold V3.dot
    nlinarith [sq_nonneg v.x, sq_nonneg v.y]
  have hn : 0 ≤ v.norm := Real.sqrt_nonneg _
  have ha : |v.z| ≤ v.norm := abs_le_of_sq_le_sq h hn
  have : |v.z / v.norm| ≤ 1 := by
    rw [abs_div, abs_of_nonneg hn]
    exact div_le_one_of_le₀ ha hn
  exact Real.sin_arcsin (abs_le.mp this).1 (abs_le.mp this).2

theorem cos_lat (v : V3) : Real.cos (cart2sph v).lat = Real.sqrt (1 - (v.z / v.norm) ^ 2) := Real.cos_arcsin _

/-- Position of `(n, m)` in the arrays. -/
def slot : ℕ → ℕ → Option (Fin 12)
  | 2, 0 => some 0
  | 2, 1 => some 1
  | 2, 2 => some 2
  | 3, 0 => some 3
  | 3, 1 => some 4
  | 3, 2 => some 5
  | 3, 3 => some 6
  | 4, 0 => some 7
  | 4, 1 => some 8
  | 4, 2 => some 9
  | 4, 3 => some 10
  | 4, 4 => some 11
  | _, _ => none

theorem anelastic_formula (Re : ℝ) (b : Body) {n m : ℕ} {i : Fin 12} (h : slot n m = some i) :
    ((anelastic Re b.ratio b.pos).1 i : ℂ) - Complex.I * ((anelastic Re b.ratio b.pos).2 i : ℂ) = first Re [b] n m := by
  have hs := sin_lat b.pos
  have hc := cos_lat b.pos
  have hl : Complex.arg ⟨b.pos.x, b.pos.y⟩ = (cart2sph b.pos).lon := rfl
  have er : (cart2sph b.pos).r = b.pos.norm := rfl
  unfold first Body.term anelastic
  simp only [List.map_cons, List.map_nil, List.sum_cons, List.sum_nil, add_zero, exp_neg, er]
  rw [hs, hc, hl]
  generalize b.pos.norm = r
  generalize b.pos.z / r = t
  generalize (cart2sph b.pos).lon = L
  have i2 : Complex.I ^ 2 = -1 := Complex.I_sq
  have a0 : Real.cos (((0 : ℕ) : ℝ) * L) = 1 := by simp
  have b0 : Real.sin (((0 : ℕ) : ℝ) * L) = 0 := by simp
  have a1 : Real.cos (((1 : ℕ) : ℝ) * L) = Real.cos L := by simp
  have b1 : Real.sin (((1 : ℕ) : ℝ) * L) = Real.sin L := by simp
  have a2 : Real.cos (((2 : ℕ) : ℝ) * L) = Real.cos L * Real.cos L - Real.sin L * Real.sin L := by
    rw [show ((2 : ℕ) : ℝ) = 2 from rfl, Real.cos_two_mul']; ring
  have b2 : Real.sin (((2 : ℕ) : ℝ) * L) = 2 * Real.cos L * Real.sin L := by
    rw [show ((2 : ℕ) : ℝ) = 2 from rfl, Real.sin_two_mul]; ring
  have a3 : Real.cos (((3 : ℕ) : ℝ) * L) = 4 * Real.cos L * Real.cos L * Real.cos L - 3 * Real.cos L := by
    rw [show ((3 : ℕ) : ℝ) = 3 from rfl, Real.cos_three_mul]; ring
  have b3 : Real.sin (((3 : ℕ) : ℝ) * L) = -4 * Real.sin L * Real.sin L * Real.sin L + 3 * Real.sin L := by
    rw [show ((3 : ℕ) : ℝ) = 3 from rfl, Real.sin_three_mul]; ring
  have F2 : (1 : ℂ) / 5 = 1 / 5 := rfl
  generalize Real.cos L = cl at *
  generalize Real.sin L = sl at *
  generalize hu : Real.sqrt (1 - t ^ 2) = u at *
  unfold slot at h
  split at h <;> cases h
  · simp only [Pbar, N20, assoc20, k, a0, b0, Matrix.cons_val_zero]; push_cast; norm_num; ring
  · simp only [Pbar, N21, assoc21, k, hu, a1, b1]; generalize Real.sqrt (5 / 3) = q; push_cast; norm_num; ring_nf; simp only [i2]; ring
  · simp only [Pbar, N22, assoc22, k, hu, a2, b2]; generalize Real.sqrt (5 / 12) = q; push_cast; norm_num; ring_nf; simp only [i2]; ring
  · simp only [Pbar, N30, assoc30, k, a0, b0]; push_cast; norm_num; ring
  · simp only [Pbar, N31, assoc31, k, hu, a1, b1]; generalize Real.sqrt (7 / 6) = q; push_cast; norm_num; ring
  · simp only [Pbar, N32, assoc32, k, hu, a2, b2]; generalize Real.sqrt (7 / 60) = q; push_cast; norm_num; ring
  · simp only [Pbar, N33, assoc33, k, hu, a3, b3]; generalize Real.sqrt (14 / 720) = q; push_cast; norm_num; ring
  · simp only [Pbar, N20, assoc20, kplus, a0, b0, if_true]; push_cast; norm_num; ring
  · simp only [Pbar, N21, assoc21, kplus, hu, a1, b1, if_true]; generalize Real.sqrt (5 / 3) = q; push_cast; norm_num; ring
  · simp only [Pbar, N22, assoc22, kplus, hu, a2, b2, if_true]; generalize Real.sqrt (5 / 12) = q; push_cast; norm_num; ring
  · simp [kplus]
  · simp [kplus]

theorem first_cons (Re : ℝ) (a : Body) (bs : List Body) (n m : ℕ) : first Re (a :: bs) n m = first Re [a] n m + first Re bs n m := by
  unfold first
  split_ifs <;> simp <;> ring

/-- C51: the first step gives, for degrees 2 and 3, k_nm/(2n+1) Σ_j (GM_j/GM)(Re/r_j)^(n+1) Pbar_nm(sin Φ_j) e^(-imλ_j), with the Love numbers of an
anelastic Earth, for degree 4 the k⁺ variant, and zero for (4,3) and (4,4); Sun and Moon add. -/
theorem step1_formula (Re rs rm : ℝ) (rMoon rSun : V3) {n m : ℕ} {i : Fin 12} (h : slot n m = some i) :
    ((step1 Re rs rm rMoon rSun).1 i : ℂ) - Complex.I * ((step1 Re rs rm rMoon rSun).2 i : ℂ) = first Re [⟨rs, rSun⟩, ⟨rm, rMoon⟩] n m := by
  rw [first_cons, ← anelastic_formula Re ⟨rs, rSun⟩ h, ← anelastic_formula Re ⟨rm, rMoon⟩ h]
  simp only [step1]
  push_cast
  ring

/-- The zero sine coefficients. -/
theorem step1_zonal (Re rs rm : ℝ) (rMoon rSun : V3) :
    (step1 Re rs rm rMoon rSun).2 0 = 0 ∧ (step1 Re rs rm rMoon rSun).2 3 = 0 ∧ (step1 Re rs rm rMoon rSun).2 7 = 0 := by
  refine ⟨?_, ?_, ?_⟩ <;> simp [step1, anelastic]

example : slot 2 1 = some 1 ∧ slot 4 4 = some 11 := ⟨rfl, rfl⟩

/-! ### C52 -/

theorem cong_trig {x y : ℝ} (h : Cong x y) : Real.cos x = Real.cos y ∧ Real.sin x = Real.sin y := by
  obtain ⟨n, rfl⟩ := h
  rw [show 2 * Real.pi * (n : ℝ) = n * (2 * Real.pi) from by ring]
  exact ⟨Real.cos_add_int_mul_two_pi y n, Real.sin_add_int_mul_two_pi y n⟩

theorem argument_theta (d : DC) (g : ℝ) (a : Fin 5 → ℝ) : Cong (d.argument (delaunay2doodson a g)) (theta d g a) := by
  have h := argument_either_basis d (a 0) (a 1) (a 2) (a 3) (a 4) g
  have ha : ![a 0, a 1, a 2, a 3, a 4] = a := by ext i; fin_cases i <;> rfl
  rw [ha] at h
  refine h.trans (Cong.of_eq ?_)
  unfold theta
  simp only
  ring

theorem exp_pos (x : ℝ) : Complex.exp (Complex.I * (x : ℂ)) = (Real.cos x : ℂ) + Complex.I * (Real.sin x : ℂ) := by
  rw [mul_comm, Complex.exp_mul_I, Complex.ofReal_cos, Complex.ofReal_sin]
  ring

/-- Sum over the constituents of a band. -/
noncomputable def band (rows : List Row2) (g : ℝ) (a : Fin 5 → ℝ) (m : ℤ) : ℂ :=
  ((rows.filter fun r => r.d.i0 = m).map fun r => ((r.ip : ℂ) + r.op * Complex.I) * Complex.exp (Complex.I * theta r.d g a)).sum

theorem band_cons (r : Row2) (rows : List Row2) (g : ℝ) (a : Fin 5 → ℝ) (m : ℤ) : band (r :: rows) g a m =
    (if r.d.i0 = m then ((r.ip : ℂ) + r.op * Complex.I) * Complex.exp (Complex.I * theta r.d g a) else 0) + band rows g a m := by
  unfold band
  by_cases h : r.d.i0 = m <;> simp [h]

theorem fold_rows (rows : List Row2) (g : ℝ) (a : Fin 5 → ℝ) : ∀ s : Step2,
    let r := rows.foldl (addRow (delaunay2doodson a g)) s
    r.C20 = s.C20 + (band rows g a 0).re ∧ r.C21 = s.C21 + (band rows g a 1).im ∧ r.S21 = s.S21 + (band rows g a 1).re ∧
      r.C22 = s.C22 + (band rows g a 2).re ∧ r.S22 = s.S22 - (band rows g a 2).im := by
  induction rows with
  | nil => intro s; simp [band]
  | cons c rows ih =>
    intro s
    obtain ⟨h1, h2, h3, h4, h5⟩ := ih (addRow (delaunay2doodson a g) s c)
    obtain ⟨hc, hs⟩ := cong_trig (argument_theta c.d g a)
    simp only [List.foldl_cons, band_cons, exp_pos]
    rw [h1, h2, h3, h4, h5]
    unfold addRow
    simp only [hc, hs]
    generalize Real.cos (theta c.d g a) = co
    generalize Real.sin (theta c.d g a) = si
    by_cases k1 : c.d.i0 = 1
    · simp [k1]; refine ⟨by ring, by ring⟩
    · by_cases k0 : c.d.i0 = 0
      · simp [k0]; ring
      · by_cases k2 : c.d.i0 = 2
        · simp [k2]; refine ⟨by ring, by ring⟩
        · simp [k0, k1, k2]

/-- C52: the constituents are those of Tables 6.5a, 6.5b and 6.5c. -/
theorem table_published : table65.map row65 = table2 := by decide +kernel

/-- C52: for every band the second step gives η_m Σ (A_ip + i A_op) e^(iθ), in units of 1e-12. -/
theorem step2_formula (tt ut1 : Epoch) (a : Fin 5 → ℝ) :
    (step2 tt ut1 a).C20 = (second (table65.map row65) (gmst tt ut1) a 0).re ∧
    ((step2 tt ut1 a).C21 : ℂ) - Complex.I * ((step2 tt ut1 a).S21 : ℂ) = second (table65.map row65) (gmst tt ut1) a 1 ∧
    ((step2 tt ut1 a).C22 : ℂ) - Complex.I * ((step2 tt ut1 a).S22 : ℂ) = second (table65.map row65) (gmst tt ut1) a 2 := by
  rw [table_published]
  obtain ⟨h1, h2, h3, h4, h5⟩ := fold_rows table2 (gmst tt ut1) a ⟨0, 0, 0, 0, 0⟩
  have e : ∀ m : ℕ, second table2 (gmst tt ut1) a m = (if m = 1 then -Complex.I else 1) * band table2 (gmst tt ut1) a m * 1e-12 := fun m => rfl
  rw [e, e, e]
  unfold step2
  simp only [h1, h2, h3, h4, h5]
  generalize table2 = T
  refine ⟨?_, ?_, ?_⟩
  · have : ((1e-12 : ℂ)) = ((1e-12 : ℝ) : ℂ) := by push_cast; norm_num
    rw [this]
    simp
  · have : ((1e-12 : ℂ)) = ((1e-12 : ℝ) : ℂ) := by push_cast; norm_num
    rw [this]
    apply Complex.ext <;> simp
  · have : ((1e-12 : ℂ)) = ((1e-12 : ℝ) : ℂ) := by push_cast; norm_num
    rw [this]
    apply Complex.ext <;> simp

/-- C52: every constituent of the table belongs to one of the three bands, and none occurs twice. -/
theorem step2_bands : (∀ r ∈ table2, r.d.i0 = 0 ∨ r.d.i0 = 1 ∨ r.d.i0 = 2) ∧ (table2.map (·.d)).Nodup := by
  constructor
  · decide +kernel
  · decide +kernel

/-! ### C53 -/

/-- The values after a sequence of assignments. -/
noncomputable def lastOf (isS : Bool) (n m : ℕ) : List (Bool × Int × Int × ℝ) → ℝ → ℝ
  | [], x => x
  | (b, i, j, v) :: l, x => lastOf isS n m l (if b = isS ∧ i.toNat = n ∧ j.toNat = m then v else x)

theorem assign_ok : ∀ (l : List (Bool × Int × Int × ℝ)) (c : Coeffs ℝ), (∀ e ∈ l, c.Has e.2.1 e.2.2.1) →
    ∃ c', assign l c = .ok c' ∧ c'.deg = c.deg ∧ c'.ord = c.ord ∧ c'.rows = c.rows ∧ c'.gm = c.gm ∧ c'.re = c.re ∧ c'.normalized = c.normalized ∧
      (∀ n m, c'.C n m = lastOf false n m l (c.C n m)) ∧ ∀ n m, c'.S n m = lastOf true n m l (c.S n m)
  | [], c, _ => ⟨c, rfl, rfl, rfl, rfl, rfl, rfl, rfl, fun _ _ => rfl, fun _ _ => rfl⟩
  | (b, i, j, v) :: l, c, h => by
    have h0 : c.Has i j := h _ (List.mem_cons_self ..)
    cases b with
    | false =>
      obtain ⟨c', k0, k1, k2, k3, k4, k5, k6, k7, k8⟩ := assign_ok l { c with C := Coeffs.put c.C i.toNat j.toNat v }
        (fun e he => h e (List.mem_cons_of_mem _ he))
      refine ⟨c', ?_, k1, k2, k3, k4, k5, k6, ?_, ?_⟩
      · simp only [assign, Coeffs.setC, if_pos h0]; exact k0
      · intro n m
        rw [k7]
        simp only [lastOf, Coeffs.put, true_and, eq_comm]
      · intro n m
        rw [k8]
        simp only [lastOf, Bool.false_eq_true, false_and, if_false]
    | true =>
      obtain ⟨c', k0, k1, k2, k3, k4, k5, k6, k7, k8⟩ := assign_ok l { c with S := Coeffs.put c.S i.toNat j.toNat v }
        (fun e he => h e (List.mem_cons_of_mem _ he))
      refine ⟨c', ?_, k1, k2, k3, k4, k5, k6, ?_, ?_⟩
      · simp only [assign, Coeffs.setS, if_pos h0]; exact k0
      · intro n m
        rw [k7]
        simp only [lastOf, Bool.true_eq_false, false_and, if_false]
      · intro n m
        rw [k8]
        simp only [lastOf, Coeffs.put, true_and, eq_comm]

theorem band_high (g : ℝ) (a : Fin 5 → ℝ) {m : ℕ} (h : 3 ≤ m) : band table2 g a m = 0 := by
  unfold band
  have : (table2.filter fun r => r.d.i0 = (m : ℤ)) = [] := by
    rw [List.filter_eq_nil_iff]
    intro r hr
    have := step2_bands.1 r hr
    simp only [decide_eq_true_eq]
    omega
  rw [this]
  rfl

theorem total_outside (Re : ℝ) (bs : List Body) (g : ℝ) (a : Fin 5 → ℝ) {n m : ℕ} (h : ¬(2 ≤ n ∧ n ≤ 4 ∧ m ≤ n)) : total Re bs g a n m = 0 := by
  have h1 : first Re bs n m = 0 := by
    unfold first
    by_cases h4 : n = 4
    · have : kplus m = 0 := by
        rcases m with _ | _ | _ | m
        · omega
        · omega
        · omega
        · rfl
      rw [if_pos h4, this]; simp
    · have : k n m = 0 := by
        rcases n with _ | _ | _ | _ | n
        · rfl
        · rfl
        · rcases m with _ | _ | _ | m
          · omega
          · omega
          · omega
          · rfl
        · rcases m with _ | _ | _ | _ | m
          · omega
          · omega
          · omega
          · omega
          · rfl
        · rfl
      rw [if_neg h4, this]; simp
  unfold total
  rw [h1]
  by_cases h2 : n = 2
  · have hm : 3 ≤ m := by omega
    rw [if_pos h2, if_neg (by omega), table_published]
    have e : second table2 g a m = (if m = 1 then -Complex.I else 1) * band table2 g a m * 1e-12 := rfl
    rw [e, band_high g a hm]; simp
  · rw [if_neg h2]; simp

/-- C53: on every object a call succeeds and leaves, at every degree and order, exactly the sum of both steps for the arguments of this call. -/
theorem stokes_formula (o : Tide) (h : o.mcs.rows = 5) (tt ut1 : Epoch) (rMoon rSun : V3) (a : Fin 5 → ℝ) :
    ∃ o', o.stokes tt ut1 rMoon rSun a = .ok o' ∧
      (∀ n m : ℕ, (o'.mcs.C n m : ℂ) - Complex.I * (o'.mcs.S n m : ℂ) =
        total o.mcs.re [⟨o.sunRatio, rSun⟩, ⟨o.moonRatio, rMoon⟩] (gmst tt ut1) a n m) ∧
      (∀ n : ℕ, o'.mcs.S n 0 = 0) ∧
      o'.sunRatio = o.sunRatio ∧ o'.moonRatio = o.moonRatio ∧ o'.mcs.re = o.mcs.re ∧ o'.mcs.gm = o.mcs.gm ∧
      o'.mcs.deg = o.mcs.deg ∧ o'.mcs.ord = o.mcs.ord ∧ o'.mcs.rows = o.mcs.rows ∧ o'.mcs.normalized = o.mcs.normalized := by
  unfold Tide.stokes
  obtain ⟨l, hl⟩ : ∃ l, l = writes (step1 o.mcs.re o.sunRatio o.moonRatio rMoon rSun).1 (step1 o.mcs.re o.sunRatio o.moonRatio rMoon rSun).2 (step2 tt ut1 a) :=
    ⟨_, rfl⟩
  simp only [← hl]
  obtain ⟨c', k0, k1, k2, k3, k4, k5, k6, k7, k8⟩ := assign_ok l o.mcs.clear (by
    intro e he
    have hc : o.mcs.clear.rows = 5 := h
    simp only [hl, writes, List.mem_cons, List.not_mem_nil, or_false] at he
    unfold Coeffs.Has
    rw [hc]
    rcases he with h | h | h | h | h | h | h | h | h | h | h | h | h | h | h | h | h | h | h | h | h <;> subst h <;> norm_num)
  obtain ⟨z1, z2, z3⟩ := step1_zonal o.mcs.re o.sunRatio o.moonRatio rMoon rSun
  refine ⟨{ o with mcs := c' }, ?_, ?_, ?_, rfl, rfl, k5, k4, k1, k2, k3, k6⟩
  · rw [k0]; rfl
  · intro n m
    show (c'.C n m : ℂ) - Complex.I * (c'.S n m : ℂ) = _
    rw [k7, k8]
    obtain ⟨g20, g21, g22⟩ := step2_formula tt ut1 a
    have f := fun n m i (h : slot n m = some i) => step1_formula o.mcs.re o.sunRatio o.moonRatio rMoon rSun h
    by_cases hin : 2 ≤ n ∧ n ≤ 4 ∧ m ≤ n
    · obtain ⟨a1, a2, a3⟩ := hin
      unfold total
      interval_cases n <;> interval_cases m <;> rw [← f _ _ _ rfl] <;> simp [hl, writes, lastOf, Coeffs.clear, ← g20, ← g21, ← g22, z1, z2, z3] <;> ring
    · rw [total_outside _ _ _ _ hin]
      have e : ∀ b, lastOf b n m l 0 = 0 := by
        intro b
        have key : ∀ e ∈ l, ¬(e.2.1.toNat = n ∧ e.2.2.1.toNat = m) := by
          intro e he
          simp only [hl, writes, List.mem_cons, List.not_mem_nil, or_false] at he
          rcases he with h | h | h | h | h | h | h | h | h | h | h | h | h | h | h | h | h | h | h | h | h <;> subst h <;> simp only [Int.reduceToNat] <;> omega
        clear hl k0 k7 k8
        induction l with
        | nil => rfl
        | cons e l ih =>
          obtain ⟨b', i, j, v⟩ := e
          have := key _ (List.mem_cons_self ..)
          simp only [lastOf]
          rw [if_neg (fun hh => this hh.2)]
          exact ih (fun e he => key e (List.mem_cons_of_mem _ he))
      simp only [Coeffs.clear, e]
      simp
  · intro n
    show c'.S n 0 = 0
    rw [k8]
    simp [hl, writes, lastOf, Coeffs.clear]

/-- C53: the result depends on the arguments of the last call only, whatever the object held before, in particular after any number of other calls. -/
theorem stokes_history (o o₁ : Tide) (h : o.mcs.rows = 5) (h1 : o₁.mcs.rows = 5) (hs : o.sunRatio = o₁.sunRatio) (hm : o.moonRatio = o₁.moonRatio)
    (hr : o.mcs.re = o₁.mcs.re) (tt ut1 : Epoch) (rMoon rSun : V3) (a : Fin 5 → ℝ) :
    ∃ p p₁, o.stokes tt ut1 rMoon rSun a = .ok p ∧ o₁.stokes tt ut1 rMoon rSun a = .ok p₁ ∧ p.mcs.C = p₁.mcs.C ∧ p.mcs.S = p₁.mcs.S := by
  obtain ⟨p, e, f, _⟩ := stokes_formula o h tt ut1 rMoon rSun a
  obtain ⟨p₁, e₁, f₁, _⟩ := stokes_formula o₁ h1 tt ut1 rMoon rSun a
  have key : ∀ n m, p.mcs.C n m = p₁.mcs.C n m ∧ p.mcs.S n m = p₁.mcs.S n m := by
    intro n m
    have := (f n m).trans ((by rw [hs, hm, hr] : _ = _).trans (f₁ n m).symm)
    have r := congrArg Complex.re this
    have i := congrArg Complex.im this
    simp at r i
    exact ⟨r, i⟩
  exact ⟨p, p₁, e, e₁, funext fun n => funext fun m => (key n m).1, funext fun n => funext fun m => (key n m).2⟩

/-- One call. -/
structure Call where
  tt : Epoch
  ut1 : Epoch
  rMoon : V3
  rSun : V3
  args : Fin 5 → ℝ

/-- A sequence of calls on an object. -/
noncomputable def calls : List Call → Tide → Res Tide
  | [], o => .ok o
  | c :: l, o => (o.stokes c.tt c.ut1 c.rMoon c.rSun c.args).bind (calls l)

/-- C53: after any history of calls on a constructed object, whatever its memory held, the coefficients are those of the last call. -/
theorem stokes_last (jC jS : ℕ → ℕ → ℝ) (GMe Re GMs GMm : ℝ) (l : List Call) (c : Call) :
    ∃ o, calls (l ++ [c]) (Tide.make jC jS GMe Re GMs GMm) = .ok o ∧ o.mcs.deg = 4 ∧ o.mcs.ord = 4 ∧ o.mcs.gm = GMe ∧ o.mcs.re = Re ∧
      ∀ n m : ℕ, (o.mcs.C n m : ℂ) - Complex.I * (o.mcs.S n m : ℂ) = total Re [⟨GMs / GMe, c.rSun⟩, ⟨GMm / GMe, c.rMoon⟩] (gmst c.tt c.ut1) c.args n m := by
  have gen : ∀ (l : List Call) (o : Tide), o.mcs.rows = 5 → o.mcs.deg = 4 → o.mcs.ord = 4 → o.mcs.gm = GMe → o.mcs.re = Re →
      o.sunRatio = GMs / GMe → o.moonRatio = GMm / GMe → ∃ o', calls (l ++ [c]) o = .ok o' ∧ o'.mcs.deg = 4 ∧ o'.mcs.ord = 4 ∧ o'.mcs.gm = GMe ∧ o'.mcs.re = Re ∧
      ∀ n m : ℕ, (o'.mcs.C n m : ℂ) - Complex.I * (o'.mcs.S n m : ℂ) = total Re [⟨GMs / GMe, c.rSun⟩, ⟨GMm / GMe, c.rMoon⟩] (gmst c.tt c.ut1) c.args n m := by
    intro l
    induction l with
    | nil =>
      intro o h1 h2 h3 h4 h5 h6 h7
      obtain ⟨o', e, f, _, _, _, g5, g4, g2, g3, _⟩ := stokes_formula o h1 c.tt c.ut1 c.rMoon c.rSun c.args
      refine ⟨o', ?_, g2.trans h2, g3.trans h3, g4.trans h4, g5.trans h5, ?_⟩
      · simp only [List.nil_append, calls, e]; rfl
      · rw [h5, h6, h7] at f; exact f
    | cons d l ih =>
      intro o h1 h2 h3 h4 h5 h6 h7
      obtain ⟨o', e, _, _, g6, g7, g5, g4, g2, g3, g1, _⟩ := stokes_formula o h1 d.tt d.ut1 d.rMoon d.rSun d.args
      obtain ⟨p, e', rest⟩ := ih o' (g1.trans h1) (g2.trans h2) (g3.trans h3) (g4.trans h4) (g5.trans h5) (g6.trans h6) (g7.trans h7)
      refine ⟨p, ?_, rest⟩
      simp only [List.cons_append, calls, e]; exact e'
  exact gen l _ rfl rfl rfl rfl rfl rfl rfl

example : (Tide.make (fun _ _ => 7) (fun _ _ => 7) 1 1 2 3).mcs.rows = 5 := rfl

end Verif.SolidTide
