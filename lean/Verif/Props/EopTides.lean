import Verif.Proof.EopTides
/-
C76, C77, C78: tidal variations of UT1, length of day, rotation rate and polar motion.
-/
namespace Verif.EopTides
open Verif Doodson Angle Fundarg

/-- The array `fundarg` fills: (l, l', F, D, Ω) at `t` Julian centuries since J2000. -/
noncomputable def fargsAt (t : ℝ) : Fin 5 → ℝ := ![fal03 t, falp03 t, faf03 t, fad03 t, faom03 t]

theorem fargsAt_cong (t : ℝ) (i : Fin 5) : Cong (fargsAt t i) (dargs t i) := by
  obtain ⟨h0, h1, h2, h3, h4⟩ := delaunay_correct_partial t
  fin_cases i
  · exact h0.1
  · exact h1.1
  · exact h2.1
  · exact h3.1
  · exact h4.1

theorem cast_sum {R : Type} (rows : List R) (g : R → ℚ) :
    (((rows.map g).sum : ℚ) : ℝ) = (rows.map fun r => ((g r : ℚ) : ℝ)).sum := by
  induction rows with
  | nil => simp
  | cons a l ih => simp only [List.map_cons, List.sum_cons, Rat.cast_add, ih]

/-! ### C76: zonal tides -/

/-- C76: the zonal tide corrections do not change when arguments are shifted by whole turns. -/
theorem zonal_turns {f f' : Fin 5 → ℝ} (h : ∀ i, Cong (f i) (f' i)) : deopZonalTide f = deopZonalTide f' := by
  have hs : zonalStep f = zonalStep f' := by
    funext a e
    obtain ⟨hc, hs⟩ := ksi_trig e f
    obtain ⟨hc', hs'⟩ := ksi_trig e f'
    have hp : Cong (e.phase f) (e.phase f') := by
      have := (((((h 0).mul_int e.lm).add ((h 1).mul_int e.lpm)).add ((h 2).mul_int e.fm)).add
        ((h 3).mul_int e.dm)).add ((h 4).mul_int e.om)
      refine (Cong.of_eq ?_).trans (this.trans (Cong.of_eq ?_)) <;> unfold ZEntry.phase <;> ring
    obtain ⟨k1, k2⟩ := SolidTide.cong_trig hp
    simp only [zonalStep, hc, hs, hc', hs', k1, k2]
  simp only [deopZonalTide, hs]

/-- The three corrections as sums over the table. -/
theorem zonal_sums (f : Fin 5 → ℝ) :
    (deopZonalTide f).dut1 = (table81.map fun e => (e.dut1B / 100 : ℝ) * Real.sin (e.phase f) +
      (e.dut1C / 100 : ℝ) * Real.cos (e.phase f)).sum ∧
    (deopZonalTide f).dlod = (table81.map fun e => (e.dlodB / 1000 : ℝ) * Real.cos (e.phase f) +
      (e.dlodC / 1000 : ℝ) * Real.sin (e.phase f)).sum ∧
    (deopZonalTide f).domega = (table81.map fun e => (e.domegaB / 10000 : ℝ) * Real.cos (e.phase f) +
      (e.domegaC / 10000 : ℝ) * Real.sin (e.phase f)).sum := by
  obtain ⟨h1, h2, h3⟩ := zonal_fold f table81 ⟨0, 0, 0⟩
  simp only [deopZonalTide, h1, h2, h3, zero_add, ← List.sum_map_mul_right]
  refine ⟨?_, ?_, trivial⟩ <;> congr 1 <;> apply List.map_congr_left <;> intro e _ <;> ring

/-- Rate of a term's phase in arcseconds per century, and its uncertainty within a century of J2000. -/
def ZEntry.rate (e : ZEntry) : ℚ :=
  1717915923.2178 * e.lm + 129596581.0481 * e.lpm + 1739527262.8478 * e.fm + 1602961601.2090 * e.dm +
    (-6962890.5431) * e.om
def ZEntry.slack (e : ZEntry) : ℚ := 100 * (|e.lm| + |e.lpm| + |e.fm| + |e.dm| + |e.om| : Int)

/-- Bound of a row's mismatch between LOD and minus the rate of UT1. -/
def ZEntry.err (e : ZEntry) : ℚ :=
  rowErr (e.dlodB / 1000) (e.dut1B / 100) e.rate e.slack + rowErr (e.dlodC / 1000) (-e.dut1C / 100) e.rate e.slack

theorem zonal_err_total : (table81.map ZEntry.err).sum ≤ 7 / 100 := by decide +kernel

theorem phase_rate (e : ZEntry) {t : ℝ} (ht : |t| ≤ 1) : ∃ δ : ℝ, |δ| ≤ ((e.slack : ℚ) : ℝ) ∧
    HasDerivAt (fun x => e.phase (dargs x)) (sec2rad (((e.rate : ℚ) : ℝ) + δ)) t := by
  obtain ⟨δ, hδ, h0, h1, h2, h3, h4⟩ := dargs_rates ht
  refine ⟨δ 0 * e.lm + δ 1 * e.lpm + δ 2 * e.fm + δ 3 * e.dm + δ 4 * e.om, ?_, ?_⟩
  · have b : ∀ (i : Fin 5) (n : Int), |δ i * n| ≤ 100 * |(n : ℝ)| := fun i n => by
      rw [abs_mul]; exact mul_le_mul_of_nonneg_right (hδ i) (abs_nonneg _)
    refine (abs_add_le _ _).trans (le_trans (add_le_add ((abs_add_le _ _).trans (add_le_add ((abs_add_le _ _).trans
      (add_le_add ((abs_add_le _ _).trans (add_le_add (b 0 _) (b 1 _))) (b 2 _))) (b 3 _))) (b 4 _)) (le_of_eq ?_))
    unfold ZEntry.slack
    push_cast
    ring
  · have h := ((((h0.mul_const (e.lm : ℝ)).fun_add (h1.mul_const (e.lpm : ℝ))).fun_add
      (h2.mul_const (e.fm : ℝ))).fun_add (h3.mul_const (e.dm : ℝ))).fun_add (h4.mul_const (e.om : ℝ))
    refine h.congr_deriv ?_
    unfold sec2rad ZEntry.rate
    push_cast
    ring

/-- C76: along the fundamental arguments of the Conventions, within a century of J2000, the length-of-day
correction is minus the daily rate of the UT1 correction, to 0.07 microseconds. -/
theorem zonal_lod {t : ℝ} (ht : |t| ≤ 1) :
    ∃ U', HasDerivAt (fun x => (deopZonalTide (fargsAt x)).dut1) U' t ∧
      |(deopZonalTide (fargsAt t)).dlod + U' / 36525| ≤ 0.07 := by
  have hz : ∀ x, deopZonalTide (fargsAt x) = deopZonalTide (dargs x) := fun x => zonal_turns (fargsAt_cong x)
  choose δ hδ hω using fun e : ZEntry => phase_rate e ht
  obtain ⟨U', hU, hb⟩ := lod_bound table81 (fun e => (e.dut1B / 100 : ℝ)) (fun e => (e.dut1C / 100 : ℝ))
    (fun e => (e.dlodC / 1000 : ℝ)) (fun e => (e.dlodB / 1000 : ℝ)) (fun e => ((e.err : ℚ) : ℝ))
    (fun e x => e.phase (dargs x)) (fun e => sec2rad (((e.rate : ℚ) : ℝ) + δ e)) t (fun e _ => hω e) (by
      intro e _
      have k : sec2rad (((e.rate : ℚ) : ℝ) + δ e) / 36525 = K * (((e.rate : ℚ) : ℝ) + δ e) := by
        unfold sec2rad K; ring
      rw [k]
      have b1 := row_bound (l := e.dlodB / 1000) (u := e.dut1B / 100) (N := e.rate) (hδ e)
      have b2 := row_bound (l := e.dlodC / 1000) (u := -e.dut1C / 100) (N := e.rate) (hδ e)
      unfold ZEntry.err
      push_cast at b1 b2 ⊢
      refine add_le_add b1 (le_trans (le_of_eq (congrArg _ ?_)) b2)
      ring)
  refine ⟨U', ?_, ?_⟩
  · have e : ∀ x, (deopZonalTide (fargsAt x)).dut1 = _ := fun x =>
      (congrArg Zonal.dut1 (hz x)).trans (zonal_sums (dargs x)).1
    rw [funext e]
    exact hU
  · rw [hz t, (zonal_sums (dargs t)).2.1]
    refine hb.trans ?_
    have h := zonal_err_total
    have h' : (((table81.map ZEntry.err).sum : ℚ) : ℝ) ≤ ((7 / 100 : ℚ) : ℝ) := by exact_mod_cast h
    rw [← cast_sum table81 ZEntry.err]
    refine h'.trans ?_
    norm_num

/-- Sums of sinusoids with small amplitudes are small. -/
theorem small_sum {R : Type} (rows : List R) (a b : R → ℝ) (θ : R → ℝ) (err : R → ℚ)
    (h : ∀ r ∈ rows, |a r| + |b r| ≤ ((err r : ℚ) : ℝ)) :
    |(rows.map fun r => a r * Real.cos (θ r) + b r * Real.sin (θ r)).sum| ≤ (((rows.map err).sum : ℚ) : ℝ) := by
  induction rows with
  | nil => simp
  | cons r rows ih =>
    have h1 := ih fun r hr => h r (List.mem_cons_of_mem _ hr)
    have h2 := h r List.mem_cons_self
    simp only [List.map_cons, List.sum_cons, Rat.cast_add]
    refine (abs_add_le _ _).trans (add_le_add ?_ h1)
    refine (abs_add_le _ _).trans (le_trans ?_ h2)
    rw [abs_mul, abs_mul]
    have p1 : |a r| * |Real.cos (θ r)| ≤ |a r| * 1 :=
      mul_le_mul_of_nonneg_left (Real.abs_cos_le_one _) (abs_nonneg _)
    have p2 : |b r| * |Real.sin (θ r)| ≤ |b r| * 1 :=
      mul_le_mul_of_nonneg_left (Real.abs_sin_le_one _) (abs_nonneg _)
    linarith

/-- Bound of a row's mismatch between rotation rate and length of day. -/
def ZEntry.omegaErr (e : ZEntry) : ℚ :=
  |(e.domegaB / 10000 + 0.0843994809 * (e.dlodB / 1000) : ℚ)| +
    |(e.domegaC / 10000 + 0.0843994809 * (e.dlodC / 1000) : ℚ)|

theorem zonal_omega_total : (table81.map ZEntry.omegaErr).sum ≤ 2 / 1000 := by decide +kernel

/-- C76: for all arguments the rotation-rate correction (1e-14 rad/s) is that of the length-of-day correction
(microseconds), `δω = -843.994809 pico-rad/s per second of LOD`, to 2e-17 rad/s. -/
theorem zonal_omega (f : Fin 5 → ℝ) :
    |(deopZonalTide f).domega + 0.0843994809 * (deopZonalTide f).dlod| ≤ 0.002 := by
  obtain ⟨-, h2, h3⟩ := zonal_sums f
  rw [h2, h3, ← List.sum_map_mul_left, ← List.sum_map_add]
  have h := small_sum table81 (fun e => (e.domegaB / 10000 : ℝ) + 0.0843994809 * (e.dlodB / 1000 : ℝ))
    (fun e => (e.domegaC / 10000 : ℝ) + 0.0843994809 * (e.dlodC / 1000 : ℝ)) (fun e => e.phase f) ZEntry.omegaErr (by
      intro e _
      refine le_of_eq ?_
      unfold ZEntry.omegaErr
      push_cast
      rfl)
  have h' : (((table81.map ZEntry.omegaErr).sum : ℚ) : ℝ) ≤ ((2 / 1000 : ℚ) : ℝ) := by
    exact_mod_cast zonal_omega_total
  refine le_trans (le_of_eq (congrArg _ ?_)) (h.trans (h'.trans (by norm_num)))
  congr 1
  apply List.map_congr_left
  intro e _
  ring

/-- The rows of the two tables differ only in the UT1 amplitude of the 18.6-year term. -/
theorem tables_differ : ∃ l : List ZEntry,
    table81 = l ++ [z 0 0 0 0 1 (-16172681) 0 (-149471) 0 126153 0] ∧
    table8Iers = l ++ [z 0 0 0 0 1 (-16172680) 0 (-149471) 0 126153 0] :=
  ⟨table81.dropLast, by decide +kernel, by decide +kernel⟩

/-- C76: the two source files that define `deop_zonal_tide` give the same length of day and rotation rate;
their UT1 differs by `0.01 sin Ω` microseconds. -/
theorem zonal_sources (f : Fin 5 → ℝ) :
    (deopZonalTideIers f).dlod = (deopZonalTide f).dlod ∧ (deopZonalTideIers f).domega = (deopZonalTide f).domega ∧
    (deopZonalTideIers f).dut1 = (deopZonalTide f).dut1 + 0.01 * Real.sin (f 4) := by
  obtain ⟨l, h1, h2⟩ := tables_differ
  obtain ⟨a1, a2, a3⟩ := zonal_fold f table81 ⟨0, 0, 0⟩
  obtain ⟨b1, b2, b3⟩ := zonal_fold f table8Iers ⟨0, 0, 0⟩
  simp only [deopZonalTide, deopZonalTideIers, iers_step, a1, a2, a3, b1, b2, b3]
  rw [h1, h2]
  simp only [List.map_append, List.sum_append, List.map_cons, List.map_nil, List.sum_cons, List.sum_nil]
  have hp : ∀ b : Int, (z 0 0 0 0 1 b 0 (-149471) 0 126153 0).phase f = f 4 := by
    intro b; simp [z, ZEntry.phase]
  simp only [hp]
  simp only [z]
  refine ⟨by ring, trivial, ?_⟩
  push_cast
  ring

/-- A concrete case of C76: with all arguments zero only the cosine terms are left, and the UT1 correction is
156.9 microseconds (the sum of the out-of-phase amplitudes). -/
example : (deopZonalTide fun _ => 0).dut1 = 156.9 := by
  rw [(zonal_sums _).1]
  have : ∀ e : ZEntry, e.phase (fun _ => 0) = 0 := fun e => by simp [ZEntry.phase]
  simp only [this, Real.sin_zero, Real.cos_zero, mul_zero, zero_add, mul_one]
  have h : (table81.map fun e => e.dut1C).sum = 15690 := by decide +kernel
  have h2 : (table81.map fun e => (e.dut1C / 100 : ℝ)).sum = ((table81.map fun e => e.dut1C).sum : ℤ) / 100 := by
    induction table81 with
    | nil => simp
    | cons a l ih => simp only [List.map_cons, List.sum_cons, ih]; push_cast; ring
  rw [h2, h]
  norm_num

/-! ### C77: libration -/

/-- The multipliers of the reference routines, for a row of the table. -/
def DEntry.toRef (e : DEntry) (a b c d : Int) : Ref.Row :=
  ⟨e.dn.i0, -e.dn.i3, -e.dn.i5, -e.dn.i0 + e.dn.i1 + e.dn.i2 + e.dn.i3 + e.dn.i5, -(e.dn.i2 + e.dn.i5),
    -e.dn.i0 + e.dn.i1 + e.dn.i2 + e.dn.i3 + e.dn.i5 - e.dn.i4, a, b, c, d⟩

theorem toRef_angle (e : DEntry) (a b c d : Int) (f : Fin 5 → ℝ) (g : ℝ) :
    (e.toRef a b c d).angle g (f 0) (f 1) (f 2) (f 3) (f 4) = e.phase f g := by
  unfold DEntry.toRef Ref.Row.angle DEntry.phase
  push_cast
  ring

/-- The first ten rows carry polar motion only and are those of PMSDNUT2; the other eleven carry UT1 and LOD
only. -/
theorem libration_rows :
    (table5NoLongTides.take 10).map (fun e => e.toRef e.xps e.xpc e.yps e.ypc) = Ref.pmsdnut2 ∧
    (∀ e ∈ table5NoLongTides.drop 10, e.xps = 0 ∧ e.xpc = 0 ∧ e.yps = 0 ∧ e.ypc = 0) ∧
    (∀ e ∈ table5NoLongTides.take 10, e.ut1s = 0 ∧ e.ut1c = 0 ∧ e.lods = 0 ∧ e.lodc = 0) := by
  refine ⟨by decide +kernel, by decide +kernel, by decide +kernel⟩

theorem sum_zero {R : Type} (l : List R) (g : R → ℝ) (h : ∀ r ∈ l, g r = 0) : (l.map g).sum = 0 := by
  induction l with
  | nil => rfl
  | cons a l ih =>
    simp only [List.map_cons, List.sum_cons, h a List.mem_cons_self,
      ih fun r hr => h r (List.mem_cons_of_mem _ hr), add_zero]

/-- C77: for all arguments the polar motion part of the libration correction is that of PMSDNUT2. -/
theorem libration_pole (l l' F D Om g : ℝ) :
    (deopLibration ![l, l', F, D, Om] g).dxp = Ref.first Ref.pmsdnut2 g l l' F D Om ∧
    (deopLibration ![l, l', F, D, Om] g).dyp = Ref.second Ref.pmsdnut2 g l l' F D Om := by
  set f : Fin 5 → ℝ := ![l, l', F, D, Om] with hf
  obtain ⟨h1, h2, -, -⟩ := diurnal_fold f g table5NoLongTides ⟨0, 0, 0, 0⟩
  obtain ⟨r1, r2, -⟩ := libration_rows
  have ha : ∀ e : DEntry, ∀ a b c d, (e.toRef a b c d).angle g l l' F D Om = e.phase f g := fun e a b c d =>
    toRef_angle e a b c d f g
  simp only [deopLibration, h1, h2, zero_add, Ref.first, Ref.second, ← r1, List.map_map]
  constructor
  · conv_lhs => rw [← List.take_append_drop 10 table5NoLongTides]
    rw [List.map_append, List.sum_append, sum_zero (table5NoLongTides.drop 10), add_zero]
    · congr 1
      apply List.map_congr_left
      intro e _
      simp only [Function.comp_def, ha]
      rfl
    · intro e he
      obtain ⟨z1, z2, -, -⟩ := r2 e he
      simp [z1, z2]
  · conv_lhs => rw [← List.take_append_drop 10 table5NoLongTides]
    rw [List.map_append, List.sum_append, sum_zero (table5NoLongTides.drop 10), add_zero]
    · congr 1
      apply List.map_congr_left
      intro e _
      simp only [Function.comp_def, ha]
      rfl
    · intro e he
      obtain ⟨-, -, z1, z2⟩ := r2 e he
      simp [z1, z2]

/-- The rows of UTLIBR with the amplitudes of the table. -/
theorem libration_rows_ut1 :
    (table5NoLongTides.drop 10).map (fun e => e.toRef e.ut1s e.ut1c e.lods e.lodc) =
      [⟨2, -2,  0, -2,  0, -2,   5,   -3,   -30,   -60⟩,
       ⟨2,  0,  0, -2, -2, -2,   6,   -3,   -40,   -70⟩,
       ⟨2, -1,  0, -2,  0, -2,  35,  -20,  -240,  -420⟩,
       ⟨2,  1,  0, -2, -2, -2,   7,   -4,   -50,   -80⟩,
       ⟨2,  0,  0, -2,  0, -1,  -7,    4,    50,    80⟩,
       ⟨2,  0,  0, -2,  0, -2, 175, -101, -1220, -2130⟩,
       ⟨2,  1,  0, -2,  0, -2,  -5,    3,    30,    60⟩,
       ⟨2,  0, -1, -2,  2, -2,   5,   -3,   -30,   -60⟩,
       ⟨2,  0,  0, -2,  2, -2,  76,  -44,  -550,  -950⟩,
       ⟨2,  0,  0,  0,  0,  0,  21,  -12,  -150,  -260⟩,
       ⟨2,  0,  0,  0,  0, -1,   6,   -4,   -40,   -80⟩] := by decide +kernel

/-- C77 (partial): the UT1 and LOD parts of the libration correction are those of UTLIBR but for three
amplitudes: T2 in UT1 (0.05 for 0.04), N2 and S2 in LOD (-4.2 for -4.1, -9.5 for -9.6). -/
theorem libration_ut1_partial (l l' F D Om g : ℝ) :
    (deopLibration ![l, l', F, D, Om] g).dut1 = Ref.first Ref.utlibr g l l' F D Om +
      0.01 * Real.sin (2 * (g + Real.pi) - l' - 2 * F + 2 * D - 2 * Om) ∧
    (deopLibration ![l, l', F, D, Om] g).dlod = Ref.second Ref.utlibr g l l' F D Om -
      0.1 * Real.cos (2 * (g + Real.pi) - l - 2 * F - 2 * Om) +
      0.1 * Real.cos (2 * (g + Real.pi) - 2 * F + 2 * D - 2 * Om) := by
  set f : Fin 5 → ℝ := ![l, l', F, D, Om] with hf
  obtain ⟨-, -, h1, h2⟩ := diurnal_fold f g table5NoLongTides ⟨0, 0, 0, 0⟩
  obtain ⟨-, -, r2⟩ := libration_rows
  have r1 := libration_rows_ut1
  have ha : ∀ e : DEntry, ∀ a b c d, (e.toRef a b c d).angle g l l' F D Om = e.phase f g := fun e a b c d =>
    toRef_angle e a b c d f g
  have s1 : (table5NoLongTides.map fun e => (e.ut1s / 100 : ℝ) * Real.sin (e.phase f g) +
      (e.ut1c / 100 : ℝ) * Real.cos (e.phase f g)).sum =
      Ref.first ((table5NoLongTides.drop 10).map fun e => e.toRef e.ut1s e.ut1c e.lods e.lodc) g l l' F D Om := by
    conv_lhs => rw [← List.take_append_drop 10 table5NoLongTides]
    rw [List.map_append, List.sum_append, sum_zero (table5NoLongTides.take 10), zero_add]
    · simp only [Ref.first, List.map_map]
      congr 1
      apply List.map_congr_left
      intro e _
      simp only [Function.comp_def, ha]
      rfl
    · intro e he
      obtain ⟨z1, z2, -, -⟩ := r2 e he
      simp [z1, z2]
  have s2 : (table5NoLongTides.map fun e => (e.lodc / 100 : ℝ) * Real.cos (e.phase f g) +
      (e.lods / 100 : ℝ) * Real.sin (e.phase f g)).sum =
      Ref.second ((table5NoLongTides.drop 10).map fun e => e.toRef e.ut1s e.ut1c e.lods e.lodc) g l l' F D Om := by
    conv_lhs => rw [← List.take_append_drop 10 table5NoLongTides]
    rw [List.map_append, List.sum_append, sum_zero (table5NoLongTides.take 10), zero_add]
    · simp only [Ref.second, List.map_map]
      congr 1
      apply List.map_congr_left
      intro e _
      simp only [Function.comp_def, ha]
      exact add_comm _ _
    · intro e he
      obtain ⟨-, -, z1, z2⟩ := r2 e he
      simp [z1, z2]
  simp only [deopLibration, h1, h2, zero_add, s1, s2, r1]
  have e1 : (2 * (g + Real.pi) - l' - 2 * F + 2 * D - 2 * Om) =
      (⟨2, 0, -1, -2, 2, -2, 4, -3, -30, -60⟩ : Ref.Row).angle g l l' F D Om := by
    simp only [Ref.Row.angle]; push_cast; ring
  have e2 : (2 * (g + Real.pi) - l - 2 * F - 2 * Om) =
      (⟨2, -1, 0, -2, 0, -2, 35, -20, -240, -410⟩ : Ref.Row).angle g l l' F D Om := by
    simp only [Ref.Row.angle]; push_cast; ring
  have e3 : (2 * (g + Real.pi) - 2 * F + 2 * D - 2 * Om) =
      (⟨2, 0, 0, -2, 2, -2, 76, -44, -550, -960⟩ : Ref.Row).angle g l l' F D Om := by
    simp only [Ref.Row.angle]; push_cast; ring
  rw [e1, e2, e3]
  simp only [Ref.first, Ref.second, Ref.utlibr, List.map_cons, List.map_nil, List.sum_cons, List.sum_nil,
    Ref.Row.angle]
  constructor
  · push_cast; ring
  · push_cast; ring

/-- C77 (partial): the differences from UTLIBR are at most 0.01 microseconds in UT1 and 0.2 microseconds in
length of day. -/
theorem libration_close_partial (l l' F D Om g : ℝ) :
    |(deopLibration ![l, l', F, D, Om] g).dut1 - Ref.first Ref.utlibr g l l' F D Om| ≤ 0.01 ∧
    |(deopLibration ![l, l', F, D, Om] g).dlod - Ref.second Ref.utlibr g l l' F D Om| ≤ 0.2 := by
  obtain ⟨h1, h2⟩ := libration_ut1_partial l l' F D Om g
  rw [h1, h2]
  have s1 := Real.abs_sin_le_one (2 * (g + Real.pi) - l' - 2 * F + 2 * D - 2 * Om)
  have s2 := Real.abs_cos_le_one (2 * (g + Real.pi) - l - 2 * F - 2 * Om)
  have s3 := Real.abs_cos_le_one (2 * (g + Real.pi) - 2 * F + 2 * D - 2 * Om)
  rw [abs_le] at s1 s2 s3
  constructor <;> rw [abs_le] <;> constructor <;> linarith [s1.1, s1.2, s2.1, s2.2, s3.1, s3.2]

/-- C77: the UT1 and LOD libration corrections differ from UTLIBR, which the documentation says they
implement: at l' = -π/2 (others 0) UT1 is 0.01 microseconds more; at l = π (others 0) LOD is 0.2 microseconds
more. Three amplitudes of the table differ from the routine's. -/
theorem libration_ut1_fails :
    (deopLibration ![0, -(Real.pi / 2), 0, 0, 0] 0).dut1 = Ref.first Ref.utlibr 0 0 (-(Real.pi / 2)) 0 0 0 + 0.01 ∧
    (deopLibration ![Real.pi, 0, 0, 0, 0] 0).dlod = Ref.second Ref.utlibr 0 Real.pi 0 0 0 0 + 0.2 := by
  constructor
  · rw [(libration_ut1_partial _ _ _ _ _ _).1]
    have : Real.sin (2 * (0 + Real.pi) - -(Real.pi / 2) - 2 * 0 + 2 * 0 - 2 * 0) = 1 := by
      rw [show 2 * (0 + Real.pi) - -(Real.pi / 2) - 2 * 0 + 2 * 0 - 2 * 0 = Real.pi / 2 + 2 * Real.pi by ring,
        Real.sin_add_two_pi, Real.sin_pi_div_two]
    rw [this, mul_one]
  · rw [(libration_ut1_partial _ _ _ _ _ _).2]
    have h1 : Real.cos (2 * (0 + Real.pi) - Real.pi - 2 * 0 - 2 * 0) = -1 := by
      rw [show 2 * (0 + Real.pi) - Real.pi - 2 * 0 - 2 * 0 = Real.pi by ring, Real.cos_pi]
    have h2 : Real.cos (2 * (0 + Real.pi) - 2 * 0 + 2 * 0 - 2 * 0) = 1 := by
      rw [show 2 * (0 + Real.pi) - 2 * 0 + 2 * 0 - 2 * 0 = 2 * Real.pi by ring, Real.cos_two_pi]
    rw [h1, h2]
    ring

/-- C77: the table without long-period terms is the full table without the terms of zero daily frequency. -/
theorem libration_no_long : table5NoLongTides = table5.filter fun e => e.dn.i0 ≠ 0 := by decide +kernel

/-! ### C78: diurnal and semidiurnal UT1 and length of day -/

/-- Rate of a term's phase in arcseconds per century, and its uncertainty. -/
def DEntry.rate (e : DEntry) : ℚ :=
  1.00273790935 * 1296000 * 36525 * e.dn.i0 +
    (-e.dn.i0 + e.dn.i1 + e.dn.i2 + e.dn.i3 + e.dn.i5 : Int) * (1739527262.8478 + (-6962890.5431)) -
    (e.dn.i2 + e.dn.i5 : Int) * 1602961601.2090 - e.dn.i3 * 1717915923.2178 - e.dn.i4 * (-6962890.5431) -
    e.dn.i5 * 129596581.0481
def DEntry.slack (e : DEntry) : ℚ :=
  7600 * |e.dn.i0| + 200 * (|(-e.dn.i0 + e.dn.i1 + e.dn.i2 + e.dn.i3 + e.dn.i5)| : Int) +
    100 * (|e.dn.i2 + e.dn.i5| : Int) + 100 * |e.dn.i3| + 100 * |e.dn.i4| + 100 * |e.dn.i5|

/-- Bounds of a row's mismatch between LOD and minus the rate of UT1. -/
def DEntry.errC (e : DEntry) : ℚ := rowErr (e.lodc / 100) (e.ut1s / 100) e.rate e.slack
def DEntry.errS (e : DEntry) : ℚ := rowErr (e.lods / 100) (-e.ut1c / 100) e.rate e.slack

theorem diurnal_phase_rate (e : DEntry) {t : ℝ} (ht : |t| ≤ 1) {G : ℝ → ℝ} {G' : ℝ} (hG : HasDerivAt G G' t)
    (hr : |G' / 36525 - 2 * Real.pi * 1.00273790935| ≤ 1e-6) : ∃ δ : ℝ, |δ| ≤ ((e.slack : ℚ) : ℝ) ∧
    HasDerivAt (fun x => e.phase (dargs x) (G x)) (sec2rad (((e.rate : ℚ) : ℝ) + δ)) t := by
  obtain ⟨δ, hδ, h0, h1, h2, h3, h4⟩ := dargs_rates ht
  obtain ⟨dg, hdg, eg⟩ : ∃ dg, |dg| ≤ 7600 ∧ G' = sec2rad (1.00273790935 * 1296000 * 36525 + dg) := by
    have hp := Real.pi_gt_d6
    refine ⟨(G' - 2 * Real.pi * 1.00273790935 * 36525) * (1296000 / (2 * Real.pi)), ?_, ?_⟩
    · rw [abs_mul, abs_of_pos (a := 1296000 / (2 * Real.pi)) (by positivity)]
      have e : G' - 2 * Real.pi * 1.00273790935 * 36525 = (G' / 36525 - 2 * Real.pi * 1.00273790935) * 36525 := by
        ring
      rw [e, abs_mul, abs_of_pos (by norm_num : (0:ℝ) < 36525)]
      have : 1296000 / (2 * Real.pi) ≤ 1296000 / (2 * 3.141592) := by
        apply div_le_div_of_nonneg_left <;> linarith
      calc |G' / 36525 - 2 * Real.pi * 1.00273790935| * 36525 * (1296000 / (2 * Real.pi)) ≤
            1e-6 * 36525 * (1296000 / (2 * 3.141592)) := by gcongr
        _ ≤ 7600 := by norm_num
    · unfold sec2rad
      field_simp
      ring
  set m : Int := -e.dn.i0 + e.dn.i1 + e.dn.i2 + e.dn.i3 + e.dn.i5 with hm
  set k : Int := e.dn.i2 + e.dn.i5 with hk
  have hm' : (-e.dn.i0 + e.dn.i1 + e.dn.i2 + e.dn.i3 + e.dn.i5 : ℝ) = m := by rw [hm]; push_cast; ring
  have hk' : (e.dn.i2 + e.dn.i5 : ℝ) = k := by rw [hk]; push_cast; ring
  refine ⟨dg * e.dn.i0 + (δ 2 + δ 4) * m - δ 3 * k - δ 0 * e.dn.i3 - δ 4 * e.dn.i4 - δ 1 * e.dn.i5, ?_, ?_⟩
  · have b : ∀ (x B : ℝ) (n : Int), |x| ≤ B → |x * n| ≤ B * |(n : ℝ)| := fun x B n h => by
      rw [abs_mul]; exact mul_le_mul_of_nonneg_right h (abs_nonneg _)
    have c0 := b dg 7600 e.dn.i0 hdg
    have c1 := b (δ 2 + δ 4) 200 m (by
      refine (abs_add_le _ _).trans ?_
      linarith [hδ 2, hδ 4])
    have c2 := b (δ 3) 100 k (hδ 3)
    have c3 := b (δ 0) 100 e.dn.i3 (hδ 0)
    have c4 := b (δ 4) 100 e.dn.i4 (hδ 4)
    have c5 := b (δ 1) 100 e.dn.i5 (hδ 1)
    unfold DEntry.slack
    rw [← hm, ← hk]
    push_cast
    generalize (|(e.dn.i0 : ℝ)|) = q0 at *
    generalize |(m : ℝ)| = q1 at *
    generalize |(k : ℝ)| = q2 at *
    generalize |(e.dn.i3 : ℝ)| = q3 at *
    generalize |(e.dn.i4 : ℝ)| = q4 at *
    generalize |(e.dn.i5 : ℝ)| = q5 at *
    rw [abs_le] at *
    constructor <;> linarith [c0.1, c0.2, c1.1, c1.2, c2.1, c2.2, c3.1, c3.2, c4.1, c4.2, c5.1, c5.2]
  · have h := ((((((hG.add_const Real.pi).const_mul (e.dn.i0 : ℝ)).fun_add
      ((h2.fun_add h4).const_mul (m : ℝ))).fun_sub (h3.const_mul (k : ℝ))).fun_sub
      (h0.const_mul (e.dn.i3 : ℝ))).fun_sub (h4.const_mul (e.dn.i4 : ℝ))).fun_sub (h1.const_mul (e.dn.i5 : ℝ))
    unfold DEntry.phase
    rw [hm', hk']
    refine h.congr_deriv ?_
    rw [eg]
    unfold sec2rad DEntry.rate
    rw [← hm, ← hk]
    push_cast
    ring

/-- The general statement for a table of diurnal and semidiurnal terms. -/
theorem diurnal_lod (rows : List DEntry) {t : ℝ} (ht : |t| ≤ 1) {G : ℝ → ℝ} {G' : ℝ} (hG : HasDerivAt G G' t)
    (hr : |G' / 36525 - 2 * Real.pi * 1.00273790935| ≤ 1e-6) :
    ∃ U', HasDerivAt (fun x => (rows.foldl (diurnalStep (delaunay2doodson (fargsAt x) (G x))) ⟨0, 0, 0, 0⟩).dut1) U' t ∧
      |(rows.foldl (diurnalStep (delaunay2doodson (fargsAt t) (G t))) ⟨0, 0, 0, 0⟩).dlod + U' / 36525| ≤
        (((rows.map fun e => e.errC + e.errS).sum : ℚ) : ℝ) := by
  have hp : ∀ (e : DEntry) (x : ℝ), Real.cos (e.phase (fargsAt x) (G x)) = Real.cos (e.phase (dargs x) (G x)) ∧
      Real.sin (e.phase (fargsAt x) (G x)) = Real.sin (e.phase (dargs x) (G x)) := by
    intro e x
    apply SolidTide.cong_trig
    have h := fargsAt_cong x
    have := (((((Cong.refl (e.dn.i0 * (G x + Real.pi))).add
      (((h 2).add (h 4)).mul_int (-e.dn.i0 + e.dn.i1 + e.dn.i2 + e.dn.i3 + e.dn.i5))).sub
      ((h 3).mul_int (e.dn.i2 + e.dn.i5))).sub ((h 0).mul_int e.dn.i3)).sub ((h 4).mul_int e.dn.i4)).sub
      ((h 1).mul_int e.dn.i5)
    refine (Cong.of_eq ?_).trans (this.trans (Cong.of_eq ?_)) <;> unfold DEntry.phase <;> push_cast <;> ring
  choose δ hδ hω using fun e : DEntry => diurnal_phase_rate e ht hG hr
  obtain ⟨U', hU, hb⟩ := lod_bound rows (fun e => (e.ut1s / 100 : ℝ)) (fun e => (e.ut1c / 100 : ℝ))
    (fun e => (e.lods / 100 : ℝ)) (fun e => (e.lodc / 100 : ℝ)) (fun e => ((e.errC + e.errS : ℚ) : ℝ))
    (fun e x => e.phase (dargs x) (G x)) (fun e => sec2rad (((e.rate : ℚ) : ℝ) + δ e)) t (fun e _ => hω e) (by
      intro e _
      have k : sec2rad (((e.rate : ℚ) : ℝ) + δ e) / 36525 = K * (((e.rate : ℚ) : ℝ) + δ e) := by
        unfold sec2rad K; ring
      rw [k]
      have b1 := row_bound (l := e.lodc / 100) (u := e.ut1s / 100) (N := e.rate) (hδ e)
      have b2 := row_bound (l := e.lods / 100) (u := -e.ut1c / 100) (N := e.rate) (hδ e)
      unfold DEntry.errC DEntry.errS
      push_cast at b1 b2 ⊢
      refine add_le_add b1 (le_trans (le_of_eq (congrArg _ ?_)) b2)
      ring)
  refine ⟨U', ?_, ?_⟩
  · have e : (fun x => (rows.foldl (diurnalStep (delaunay2doodson (fargsAt x) (G x))) ⟨0, 0, 0, 0⟩).dut1) = _ :=
      funext fun x => (diurnal_fold (fargsAt x) (G x) rows ⟨0, 0, 0, 0⟩).2.2.1
    rw [e]
    simp only [zero_add, fun (r : DEntry) (x : ℝ) => (hp r x).1, fun (r : DEntry) (x : ℝ) => (hp r x).2]
    exact hU
  · rw [(diurnal_fold (fargsAt t) (G t) rows ⟨0, 0, 0, 0⟩).2.2.2]
    simp only [zero_add, fun (r : DEntry) (x : ℝ) => (hp r x).1, fun (r : DEntry) (x : ℝ) => (hp r x).2]
    refine hb.trans (le_of_eq ?_)
    exact (cast_sum rows fun e => e.errC + e.errS).symm

theorem ocean_err_total : (table8.map fun e => e.errC + e.errS).sum ≤ 61 / 10 := by decide +kernel
theorem libration_err_total : (table5NoLongTides.map fun e => e.errC + e.errS).sum ≤ 9 / 10 := by decide +kernel

/-- C78: along the fundamental arguments of the Conventions, within a century of J2000, and any sidereal time
`G` (radians, as function of time in centuries) that advances 1.00273790935 turns per day to 1e-6 rad/day, the
length-of-day correction due to ocean tides is minus the daily rate of the UT1 correction, to 6.1 microseconds. -/
theorem ocean_lod {t : ℝ} (ht : |t| ≤ 1) {G : ℝ → ℝ} {G' : ℝ} (hG : HasDerivAt G G' t)
    (hr : |G' / 36525 - 2 * Real.pi * 1.00273790935| ≤ 1e-6) :
    ∃ U', HasDerivAt (fun x => (deopOceanTide (fargsAt x) (G x)).dut1) U' t ∧
      |(deopOceanTide (fargsAt t) (G t)).dlod + U' / 36525| ≤ 6.1 := by
  obtain ⟨U', h1, h2⟩ := diurnal_lod table8 ht hG hr
  have h' : (((table8.map fun e => e.errC + e.errS).sum : ℚ) : ℝ) ≤ ((61 / 10 : ℚ) : ℝ) := by
    exact_mod_cast ocean_err_total
  exact ⟨U', h1, h2.trans (h'.trans (by norm_num))⟩

/-- C78: the same for libration, to 0.9 microseconds. -/
theorem libration_lod {t : ℝ} (ht : |t| ≤ 1) {G : ℝ → ℝ} {G' : ℝ} (hG : HasDerivAt G G' t)
    (hr : |G' / 36525 - 2 * Real.pi * 1.00273790935| ≤ 1e-6) :
    ∃ U', HasDerivAt (fun x => (deopLibration (fargsAt x) (G x)).dut1) U' t ∧
      |(deopLibration (fargsAt t) (G t)).dlod + U' / 36525| ≤ 0.9 := by
  obtain ⟨U', h1, h2⟩ := diurnal_lod table5NoLongTides ht hG hr
  have h' : (((table5NoLongTides.map fun e => e.errC + e.errS).sum : ℚ) : ℝ) ≤ ((9 / 10 : ℚ) : ℝ) := by
    exact_mod_cast libration_err_total
  exact ⟨U', h1, h2.trans (h'.trans (by norm_num))⟩

/-- A sidereal time that meets the hypotheses. -/
example : ∃ (G : ℝ → ℝ) (G' : ℝ), HasDerivAt G G' 0.2 ∧ |G' / 36525 - 2 * Real.pi * 1.00273790935| ≤ 1e-6 :=
  ⟨fun x => 1.7 + x * (2 * Real.pi * 1.00273790935 * 36525), 2 * Real.pi * 1.00273790935 * 36525,
    by simpa using ((hasDerivAt_id (0.2 : ℝ)).mul_const (2 * Real.pi * 1.00273790935 * 36525)).const_add 1.7,
    by
      have : 2 * Real.pi * 1.00273790935 * 36525 / 36525 - 2 * Real.pi * 1.00273790935 = 0 := by ring
      rw [this]; norm_num⟩

/-- C78: in every row of the ocean tide table but that of M2, and in every row of the libration table, the
LOD amplitudes are minus rate times the UT1 amplitudes to 0.11 microseconds, the rounding of the tables
(0.05 for LOD, 0.005 · 4π for UT1). -/
theorem rows_within_rounding_partial :
    (∀ e ∈ table8, e.dn ≠ ⟨2, 0, 0, 0, 0, 0, 0⟩ → e.errC ≤ 0.11 ∧ e.errS ≤ 0.11) ∧
    (∀ e ∈ table5NoLongTides, e.errC ≤ 0.11 ∧ e.errS ≤ 0.11) := by
  constructor <;> decide +kernel

/-- C78: the M2 row of the ocean tide table is inconsistent: at 2 cycles per lunar day the LOD amplitude of
the cosine UT1 term -7.25 microseconds would be -88.02, not -86.8. -/
theorem m2_row_fails : ∃ e ∈ table8, e.dn = ⟨2, 0, 0, 0, 0, 0, 0⟩ ∧ e.ut1c = -725 ∧ e.lods = -8680 ∧
    1.22 < |(e.lods / 100 : ℝ) - (e.ut1c / 100 : ℝ) * (K * ((e.rate : ℚ) : ℝ))| := by
  refine ⟨d 2 0 0 0 0 0 (-33020) (-2700) 3760 19590 (-1619) (-725) (-8680) 19660, by decide +kernel, rfl, rfl,
    rfl, ?_⟩
  obtain ⟨h1, h2⟩ := K_bounds
  have hr : (d 2 0 0 0 0 0 (-33020) (-2700) 3760 19590 (-1619) (-725) (-8680) 19660).rate =
      2 * 1.00273790935 * 1296000 * 36525 - 2 * (1739527262.8478 - 6962890.5431) := by
    unfold DEntry.rate d; norm_num
  rw [hr]
  simp only [d]
  unfold k0 dk at *
  push_cast at *
  rw [lt_abs]
  left
  have : (0:ℝ) < 2 * 1.00273790935 * 1296000 * 36525 - 2 * (1739527262.8478 - 6962890.5431) := by norm_num
  nlinarith

end Verif.EopTides
