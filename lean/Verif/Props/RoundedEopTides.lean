import Verif.Proof.RoundedEopTides
import Verif.Spec.RoundedEopTides
import Verif.Proof.RoundNearest
import Verif.Props.RoundedCip
import Verif.Props.EopTides
/-
C110: tidal variations of Earth rotation in double precision.
-/
namespace Verif.RoundedEopTides
open Verif Verif.EopTides Verif.Rounded Verif.Rounding Verif.Fundarg Verif.Iau
open Verif.RoundedCip (args_rounded)
open Verif.Angle (Cong sec2rad)

/-- C110: zonal tides from arguments that are off by up to `ε` (whole turns apart): the corrections in double precision are those of exact
arithmetic from the true arguments, in microseconds, microseconds and 1e-14 rad/s. -/
theorem zonal_any {fl : Arith} {fsin fcos : ℝ → ℝ} (hf : Faithful fl) (hT : Trig fsin fcos) {f' f : Fin 5 → ℝ} {ε : ℝ} (he : 0 ≤ ε)
    (he1 : ε ≤ 1e-6) (hF : ∀ i, Near ε (f' i) (f i)) (hb : ∀ i, |f' i| ≤ 6.284) :
    |(deopZonalTide fl fsin fcos f').dut1 - (EopTides.deopZonalTide f).dut1| ≤ 2.07e5 * ε + 3e-8 ∧
    |(deopZonalTide fl fsin fcos f').dlod - (EopTides.deopZonalTide f).dlod| ≤ 4.8e3 * ε + 3e-10 ∧
    |(deopZonalTide fl fsin fcos f').domega - (EopTides.deopZonalTide f).domega| ≤ 404 * ε + 2e-11 := by
  have hu := u_pos
  have hul := u_lt
  have hsq := u_sq
  obtain ⟨p1, q1, p2, q2, p3, q3⟩ := zonal_amps
  have near : ∀ e ∈ table81, Near (zweight e * ε + 880 * u) (ksi fl e f') (e.phase f) := fun e hm => by
    have hz : (zweight e : ℝ) ≤ 12 := by exact_mod_cast zweight_le e hm
    refine (ksi_near hf e he hF hb).mono ?_
    have := mul_le_mul_of_nonneg_right hz hu.le
    linarith
  have small : ∀ e ∈ table81, zweight e * ε ≤ 0.00005 := fun e hm => by
    have hz : (zweight e : ℝ) ≤ 12 := by exact_mod_cast zweight_le e hm
    have := mul_le_mul hz he1 he (by norm_num)
    linarith
  have hn : table81.length ≤ 100 := by decide +kernel
  have A1 := series_app hf hT fsin fcos Real.sin Real.cos (Or.inl ⟨rfl, rfl, rfl, rfl⟩) table81 ZEntry.dut1B ZEntry.dut1C zweight
    (fun e => ksi fl e f') (fun e => e.phase f) 0 1 (D := 10000) (by norm_num) he small near hn p1 q1 (by push_cast; linarith)
  have A2 := series_app hf hT fcos fsin Real.cos Real.sin (Or.inr ⟨rfl, rfl, rfl, rfl⟩) table81 ZEntry.dlodB ZEntry.dlodC zweight
    (fun e => ksi fl e f') (fun e => e.phase f) 2 3 (D := 10000) (by norm_num) he small near hn p2 q2 (by push_cast; linarith)
  have A3 := series_app hf hT fcos fsin Real.cos Real.sin (Or.inr ⟨rfl, rfl, rfl, rfl⟩) table81 ZEntry.domegaB ZEntry.domegaC zweight
    (fun e => ksi fl e f') (fun e => e.phase f) 4 5 (D := 10000) (by norm_num) he small near hn p3 q3 (by push_cast; linarith)
  obtain ⟨s1, s2, s3⟩ := zonal_split fl fsin fcos f' table81 ⟨0, 0, 0⟩
  obtain ⟨t1, t2, t3⟩ := zonal_fold f table81 ⟨0, 0, 0⟩
  simp only [zero_add] at s1 s2 s3 t1 t2 t3
  rw [← s1, ← t1] at A1
  rw [← s2, ← t2] at A2
  rw [← s3, ← t3] at A3
  push_cast at A1 A2 A3
  have B1 := ((A1.mul (App.lit hf 1e2 (M := 1e2) (by norm_num))).fl hf).2
  have B2 := ((A2.mul (App.lit hf 1e1 (M := 1e1) (by norm_num))).fl hf).2
  have hue : u * ε ≤ 1e-15 * ε := by nlinarith
  have hue0 : 0 ≤ u * ε := by positivity
  have huu : u * (u * ε) ≤ 1e-15 * ε := by nlinarith
  have huuu : u * u * u ≤ 1e-15 * u := by nlinarith
  unfold deopZonalTide EopTides.deopZonalTide
  refine ⟨B1.trans ?_, B2.trans ?_, A3.2.trans ?_⟩
  · nlinarith
  · nlinarith
  · nlinarith

/-- The arguments in double precision, in the form the tides take them. -/
theorem fundarg_near {fl : Arith} {s2r : ℝ → ℝ} (hf : Faithful fl) (hs : SecToRad s2r) {t' t : ℝ} (ht : |t' - t| ≤ 4 * u) (hr : |t| ≤ 1) (i : Fin 5) :
    Near 1e-11 (Rounded.fundarg fl s2r t' i) (dargs t i) ∧ |Rounded.fundarg fl s2r t' i| ≤ 6.284 := by
  have h := args_rounded hf hs ht hr
  fin_cases i
  · exact h 0 (by norm_num)
  · exact h 1 (by norm_num)
  · exact h 2 (by norm_num)
  · exact h 3 (by norm_num)
  · exact h 4 (by norm_num)

/-- C110: within a century of J2000 the zonal tide corrections, computed in double precision from the epoch on, are those of exact arithmetic
with the Conventions' arguments to 2.2e-6 µs of UT1, 5e-8 µs of length of day and 5e-23 rad/s of rotation rate. -/
theorem zonal_rounded {fl : Arith} {fsin fcos s2r : ℝ → ℝ} (hf : Faithful fl) (hT : Trig fsin fcos) (hs : SecToRad s2r) {t' t : ℝ}
    (ht : |t' - t| ≤ 4 * u) (hr : |t| ≤ 1) :
    let z := deopZonalTide fl fsin fcos (Rounded.fundarg fl s2r t')
    let Z := EopTides.deopZonalTide ![sec2rad (lPoly t), sec2rad (lpPoly t), sec2rad (fPoly t), sec2rad (dPoly t), sec2rad (omPoly t)]
    |z.dut1 - Z.dut1| ≤ 2.2e-6 ∧ |z.dlod - Z.dlod| ≤ 5e-8 ∧ |z.domega - Z.domega| ≤ 5e-9 := by
  intro z Z
  obtain ⟨h1, h2, h3⟩ := zonal_any hf hT (f' := Rounded.fundarg fl s2r t') (f := dargs t) (ε := 1e-11) (by norm_num) (by norm_num)
    (fun i => (fundarg_near hf hs ht hr i).1) (fun i => (fundarg_near hf hs ht hr i).2)
  exact ⟨h1.trans (by norm_num), h2.trans (by norm_num), h3.trans (by norm_num)⟩

/-- The exact corrections are bounded. -/
theorem zonal_size (f : Fin 5 → ℝ) : |(EopTides.deopZonalTide f).dut1| ≤ 172574 ∧ |(EopTides.deopZonalTide f).dlod| ≤ 1427 := by
  have hu := u_pos
  have hb : ∀ (p q : ZEntry → Int) (g h : ℝ → ℝ), (∀ x, |g x| ≤ 1) → (∀ x, |h x| ≤ 1) → ∀ l : List ZEntry,
      |(l.map fun e => (p e / 10000 : ℝ) * g (e.phase f) + (q e / 10000 : ℝ) * h (e.phase f)).sum| ≤ ((l.map (amp p q)).sum : ℕ) * (1 / 10000) := by
    intro p q g h hg hh l
    induction l with
    | nil => simp
    | cons e l ih =>
      simp only [List.map_cons, List.sum_cons]
      refine (abs_add_le _ _).trans ?_
      have m : ∀ (z : ℤ) {x : ℝ}, |x| ≤ 1 → |(z / 10000 : ℝ) * x| ≤ z.natAbs * (1 / 10000) := fun z x hx => by
        rw [abs_mul, abs_div, RoundedCip.natAbs_cast, abs_of_pos (by norm_num : (0:ℝ) < 10000)]
        have := mul_le_mul_of_nonneg_left hx (by positivity : (0:ℝ) ≤ (z.natAbs : ℝ) / 10000)
        linarith
      have := (abs_add_le _ _).trans (add_le_add (m (p e) (hg (e.phase f))) (m (q e) (hh (e.phase f))))
      unfold amp at *
      push_cast at *
      linarith
  obtain ⟨p1, -, p2, -, -, -⟩ := zonal_amps
  have h1 := hb ZEntry.dut1B ZEntry.dut1C _ _ Real.abs_sin_le_one Real.abs_cos_le_one table81
  have h2 := hb ZEntry.dlodB ZEntry.dlodC _ _ Real.abs_cos_le_one Real.abs_sin_le_one table81
  obtain ⟨t1, t2, -⟩ := zonal_fold f table81 ⟨0, 0, 0⟩
  simp only [zero_add] at t1 t2
  rw [← t1, p1] at h1
  rw [← t2, p2] at h2
  unfold EopTides.deopZonalTide
  constructor
  · show |(table81.foldl (EopTides.zonalStep f) ⟨0, 0, 0⟩).dut1 * 1e2| ≤ _
    rw [abs_mul, abs_of_pos (by norm_num : (0:ℝ) < 1e2)]
    push_cast at h1
    linarith
  · show |(table81.foldl (EopTides.zonalStep f) ⟨0, 0, 0⟩).dlod * 1e1| ≤ _
    rw [abs_mul, abs_of_pos (by norm_num : (0:ℝ) < 1e1)]
    push_cast at h2
    linarith

/-! ### Libration and ocean tides -/

/-- A table of diurnal and semidiurnal terms at an epoch, one quantity. -/
theorem diurnal_app {fl : Arith} {fsin fcos s2r : ℝ → ℝ} (hf : Faithful fl) (hT : Trig fsin fcos) (hs : SecToRad s2r) (tt ut1 : Epoch)
    {f tu t f' tu' t' : ℝ} (hut : Sees ut1 f tu t) (htt : Sees tt f' tu' t') (hr : |ut1.daysSinceJ2000| ≤ 36525) (hr' : |tt.jcenturies| ≤ 1)
    (rows : List DEntry) (p q : DEntry → Int) (k l : ℕ) {P Q : Nat} (hn : rows.length ≤ 100) (hw : ∀ e ∈ rows, dweight e ≤ 4)
    (hP : (rows.map (amp p q)).sum = P) (hQ : (rows.map (ampw p q dweight)).sum = Q) (hPQ : Q ≤ 4 * P) :
    |rows.foldl (fun s e => fl (s + fl (fl.pr k (lit fl (p e / 100) * fsin (Rounded.argument fl e.dn (Rounded.delaunay2doodson fl
        (Rounded.fundarg fl s2r t') (Rounded.gmst fl s2r t' f tu)))) + fl.pr l (lit fl (q e / 100) * fcos (Rounded.argument fl e.dn
        (Rounded.delaunay2doodson fl (Rounded.fundarg fl s2r t') (Rounded.gmst fl s2r t' f tu))))))) 0 -
      (rows.map fun e => (p e / 100 : ℝ) * Real.sin (e.phase (dargs tt.jcenturies) (eraIers ut1.daysSinceJ2000 + sec2rad (gmstPoly tt.jcenturies))) +
        (q e / 100 : ℝ) * Real.cos (e.phase (dargs tt.jcenturies) (eraIers ut1.daysSinceJ2000 + sec2rad (gmstPoly tt.jcenturies)))).sum| ≤
      Q * 1.6e-12 + P * 1.4e-15 := by
  have hu := u_pos
  have hul := u_lt
  have hwr : ∀ e ∈ rows, (dweight e : ℝ) ≤ 4 := fun e hm => by exact_mod_cast hw e hm
  have hPQ' : (Q : ℝ) ≤ 4 * P := by exact_mod_cast hPQ
  have hP0 : (0 : ℝ) ≤ P := Nat.cast_nonneg _
  have near : ∀ e ∈ rows, Near (dweight e * 1.6e-10 + 880 * u) (Rounded.argument fl e.dn (Rounded.delaunay2doodson fl (Rounded.fundarg fl s2r t')
      (Rounded.gmst fl s2r t' f tu))) (e.phase (dargs tt.jcenturies) (eraIers ut1.daysSinceJ2000 + sec2rad (gmstPoly tt.jcenturies))) := by
    intro e hm
    have h1 : (1 : ℝ) ≤ dweight e := by
      have : 1 ≤ dweight e := le_max_left _ _
      exact_mod_cast this
    refine ((argument_rounded hf hs e.dn (dweight e) h1 (dweight_abs e) tt ut1 hut htt hr hr').mono (by linarith)).cong (Cong.of_eq ?_)
    unfold Doodson.DC.combine DEntry.phase dargs
    simp only [Matrix.cons_val]
    ring
  have := (series_app hf hT fsin fcos Real.sin Real.cos (Or.inl ⟨rfl, rfl, rfl, rfl⟩) rows p q dweight _ _ k l (D := 100) (ε := 1.6e-10)
    (by norm_num) (by norm_num) (fun e hm => by have := hwr e hm; linarith) near hn hP hQ (by linarith)).2
  refine this.trans ?_
  have := mul_le_mul_of_nonneg_left hul.le hP0
  linarith

/-- C110: within a century of J2000 the libration corrections, computed in double precision from the epochs TT and UT1 on, are those of exact
arithmetic with the Conventions' arguments to 1.3e-8 µas of polar motion, 2e-9 µs of UT1 and 2.2e-8 µs of length of day. -/
theorem libration_rounded {fl : Arith} {fsin fcos s2r : ℝ → ℝ} (hf : Faithful fl) (hT : Trig fsin fcos) (hs : SecToRad s2r) (tt ut1 : Epoch)
    {f tu t f' tu' t' : ℝ} (hut : Sees ut1 f tu t) (htt : Sees tt f' tu' t') (hr : |ut1.daysSinceJ2000| ≤ 36525) (hr' : |tt.jcenturies| ≤ 1) :
    let T := tt.jcenturies
    let z := deopLibration fl fsin fcos (Rounded.fundarg fl s2r t') (Rounded.gmst fl s2r t' f tu)
    let Z := EopTides.deopLibration ![sec2rad (lPoly T), sec2rad (lpPoly T), sec2rad (fPoly T), sec2rad (dPoly T), sec2rad (omPoly T)]
      (eraIers ut1.daysSinceJ2000 + sec2rad (gmstPoly T))
    |z.dxp - Z.dxp| ≤ 1.3e-8 ∧ |z.dyp - Z.dyp| ≤ 1.3e-8 ∧ |z.dut1 - Z.dut1| ≤ 2e-9 ∧ |z.dlod - Z.dlod| ≤ 2.2e-8 := by
  intro T z Z
  obtain ⟨p1, q1, p2, q2, p3, q3, p4, q4, hw⟩ := libration_amps
  have hn : table5NoLongTides.length ≤ 100 := by decide +kernel
  have A1 := diurnal_app hf hT hs tt ut1 hut htt hr hr' table5NoLongTides DEntry.xps DEntry.xpc 0 1 hn hw p1 q1 (by norm_num)
  have A2 := diurnal_app hf hT hs tt ut1 hut htt hr hr' table5NoLongTides DEntry.yps DEntry.ypc 2 3 hn hw p2 q2 (by norm_num)
  have A3 := diurnal_app hf hT hs tt ut1 hut htt hr hr' table5NoLongTides DEntry.ut1s DEntry.ut1c 4 5 hn hw p3 q3 (by norm_num)
  have A4 := diurnal_app hf hT hs tt ut1 hut htt hr hr' table5NoLongTides DEntry.lods DEntry.lodc 6 7 hn hw p4 q4 (by norm_num)
  obtain ⟨s1, s2, s3, s4⟩ := diurnal_split fl fsin fcos (Rounded.delaunay2doodson fl (Rounded.fundarg fl s2r t') (Rounded.gmst fl s2r t' f tu))
    table5NoLongTides ⟨0, 0, 0, 0⟩
  obtain ⟨t1, t2, t3, t4⟩ := diurnal_fold (dargs T) (eraIers ut1.daysSinceJ2000 + sec2rad (gmstPoly T)) table5NoLongTides ⟨0, 0, 0, 0⟩
  simp only [zero_add] at t1 t2 t3 t4
  simp only [add_comm (_ * Real.cos _) (_ * Real.sin _)] at t4
  rw [← s1, ← t1] at A1
  rw [← s2, ← t2] at A2
  rw [← s3, ← t3] at A3
  rw [← s4, ← t4] at A4
  push_cast at A1 A2 A3 A4
  exact ⟨A1.trans (by norm_num), A2.trans (by norm_num), A3.trans (by norm_num), A4.trans (by norm_num)⟩

/-- C110: the same for the ocean tides: 4.1e-7 µas of polar motion, 3.8e-8 µs of UT1 and 3.2e-7 µs of length of day. -/
theorem ocean_rounded {fl : Arith} {fsin fcos s2r : ℝ → ℝ} (hf : Faithful fl) (hT : Trig fsin fcos) (hs : SecToRad s2r) (tt ut1 : Epoch)
    {f tu t f' tu' t' : ℝ} (hut : Sees ut1 f tu t) (htt : Sees tt f' tu' t') (hr : |ut1.daysSinceJ2000| ≤ 36525) (hr' : |tt.jcenturies| ≤ 1) :
    let T := tt.jcenturies
    let z := deopOceanTide fl fsin fcos (Rounded.fundarg fl s2r t') (Rounded.gmst fl s2r t' f tu)
    let Z := EopTides.deopOceanTide ![sec2rad (lPoly T), sec2rad (lpPoly T), sec2rad (fPoly T), sec2rad (dPoly T), sec2rad (omPoly T)]
      (eraIers ut1.daysSinceJ2000 + sec2rad (gmstPoly T))
    |z.dxp - Z.dxp| ≤ 4.1e-7 ∧ |z.dyp - Z.dyp| ≤ 3.3e-7 ∧ |z.dut1 - Z.dut1| ≤ 3.8e-8 ∧ |z.dlod - Z.dlod| ≤ 3.2e-7 := by
  intro T z Z
  obtain ⟨p1, q1, p2, q2, p3, q3, p4, q4, hw⟩ := ocean_amps
  have hn : table8.length ≤ 100 := by decide +kernel
  have A1 := diurnal_app hf hT hs tt ut1 hut htt hr hr' table8 DEntry.xps DEntry.xpc 0 1 hn hw p1 q1 (by norm_num)
  have A2 := diurnal_app hf hT hs tt ut1 hut htt hr hr' table8 DEntry.yps DEntry.ypc 2 3 hn hw p2 q2 (by norm_num)
  have A3 := diurnal_app hf hT hs tt ut1 hut htt hr hr' table8 DEntry.ut1s DEntry.ut1c 4 5 hn hw p3 q3 (by norm_num)
  have A4 := diurnal_app hf hT hs tt ut1 hut htt hr hr' table8 DEntry.lods DEntry.lodc 6 7 hn hw p4 q4 (by norm_num)
  obtain ⟨s1, s2, s3, s4⟩ := diurnal_split fl fsin fcos (Rounded.delaunay2doodson fl (Rounded.fundarg fl s2r t') (Rounded.gmst fl s2r t' f tu))
    table8 ⟨0, 0, 0, 0⟩
  obtain ⟨t1, t2, t3, t4⟩ := diurnal_fold (dargs T) (eraIers ut1.daysSinceJ2000 + sec2rad (gmstPoly T)) table8 ⟨0, 0, 0, 0⟩
  simp only [zero_add] at t1 t2 t3 t4
  simp only [add_comm (_ * Real.cos _) (_ * Real.sin _)] at t4
  rw [← s1, ← t1] at A1
  rw [← s2, ← t2] at A2
  rw [← s3, ← t3] at A3
  rw [← s4, ← t4] at A4
  push_cast at A1 A2 A3 A4
  exact ⟨A1.trans (by norm_num), A2.trans (by norm_num), A3.trans (by norm_num), A4.trans (by norm_num)⟩

/-- C110: libration in polar motion, computed in double precision from the epochs on, is that of the IERS routine PMSDNUT2 to 1.3e-8 µas. -/
theorem libration_pmsdnut2 {fl : Arith} {fsin fcos s2r : ℝ → ℝ} (hf : Faithful fl) (hT : Trig fsin fcos) (hs : SecToRad s2r) (tt ut1 : Epoch)
    {f tu t f' tu' t' : ℝ} (hut : Sees ut1 f tu t) (htt : Sees tt f' tu' t') (hr : |ut1.daysSinceJ2000| ≤ 36525) (hr' : |tt.jcenturies| ≤ 1) :
    let T := tt.jcenturies
    let z := deopLibration fl fsin fcos (Rounded.fundarg fl s2r t') (Rounded.gmst fl s2r t' f tu)
    let g := eraIers ut1.daysSinceJ2000 + sec2rad (gmstPoly T)
    |z.dxp - Ref.first Ref.pmsdnut2 g (sec2rad (lPoly T)) (sec2rad (lpPoly T)) (sec2rad (fPoly T)) (sec2rad (dPoly T)) (sec2rad (omPoly T))| ≤ 1.3e-8 ∧
    |z.dyp - Ref.second Ref.pmsdnut2 g (sec2rad (lPoly T)) (sec2rad (lpPoly T)) (sec2rad (fPoly T)) (sec2rad (dPoly T)) (sec2rad (omPoly T))| ≤ 1.3e-8 := by
  intro T z g
  obtain ⟨h1, h2, -, -⟩ := libration_rounded hf hT hs tt ut1 hut htt hr hr'
  rw [(libration_pole _ _ _ _ _ _).1] at h1
  rw [(libration_pole _ _ _ _ _ _).2] at h2
  exact ⟨h1, h2⟩

/-! ### Regularization of a series -/

/-- What one record becomes. -/
theorem record_app {fl : Arith} {fsin fcos s2r : ℝ → ℝ} (hf : Faithful fl) (hT : Trig fsin fcos) (hs : SecToRad s2r) {t' t : ℝ}
    (ht : |t' - t| ≤ 4 * u) (hr : |t| ≤ 1) (x y c : ℝ) (hx : |x| ≤ 1.2) (hy : |y| ≤ 0.02) (hc : |c| = 1e-6) :
    let z := deopZonalTide fl fsin fcos (Rounded.fundarg fl s2r t')
    let Z := EopTides.deopZonalTide ![sec2rad (lPoly t), sec2rad (lpPoly t), sec2rad (fPoly t), sec2rad (dPoly t), sec2rad (omPoly t)]
    |fl (x + fl.pr 0 (z.dut1 * lit fl c)) - (x + Z.dut1 * c)| ≤ 2.21e-12 ∧ |fl (y + fl.pr 1 (z.dlod * lit fl c)) - (y + Z.dlod * c)| ≤ 6e-14 := by
  intro z Z
  have hu := u_pos
  have hul := u_lt
  have hsq := u_sq
  obtain ⟨h1, h2, -⟩ := zonal_rounded hf hT hs ht hr
  obtain ⟨b1, b2⟩ := zonal_size ![sec2rad (lPoly t), sec2rad (lpPoly t), sec2rad (fPoly t), sec2rad (dPoly t), sec2rad (omPoly t)]
  have l := App.lit hf c hc.le
  have A1 : App 172574 2.2e-6 z.dut1 Z.dut1 := ⟨b1, h1⟩
  have A2 : App 1427 5e-8 z.dlod Z.dlod := ⟨b2, h2⟩
  have ex : ∀ {w W : ℝ}, |w| ≤ W → App W 0 w w := fun h => ⟨h, by simp⟩
  have B1 := (((A1.mul l).pr hf 0).mono (M' := 0.18) (e' := 2.2001e-12) (by norm_num) (by nlinarith))
  have B2 := (((A2.mul l).pr hf 1).mono (M' := 0.0015) (e' := 5.01e-14) (by norm_num) (by nlinarith))
  have C1 := (((ex hx).add B1).fl hf).2
  have C2 := (((ex hy).add B2).fl hf).2
  exact ⟨C1.trans (by linarith), C2.trans (by linarith)⟩

/-- C110: `regularize` in double precision removes from UT1 and length of day of every record the zonal tides at the epoch of that record,
to 2.3e-12 s and 6e-14 s, and keeps everything else. UT1-UTC is within 1 s, the length of day within 0.01 s, the epochs within a century of J2000. -/
theorem regularize_rounded {fl : Arith} {fsin fcos s2r cents : ℝ → ℝ} (hf : Faithful fl) (hT : Trig fsin fcos) (hs : SecToRad s2r) (s : Eop.Series ℝ)
    (h : ∀ r ∈ s.vec, Centuries cents r.t ∧ |r.dut| ≤ 1 ∧ |r.lod| ≤ 0.01) :
    List.Forall₂ Removed s.vec (regularize fl fsin fcos s2r cents s).vec ∧ (regularize fl fsin fcos s2r cents s).last = s.last ∧
      (regularize fl fsin fcos s2r cents s).cap = s.cap := by
  refine ⟨?_, rfl, rfl⟩
  show List.Forall₂ Removed s.vec (s.vec.map _)
  rw [List.forall₂_map_right_iff]
  refine List.forall₂_same.mpr fun r hr => ?_
  obtain ⟨⟨c1, c2⟩, d1, d2⟩ := h r hr
  obtain ⟨h1, h2⟩ := record_app hf hT hs c1 c2 r.dut r.lod (-1e-6) (by linarith) (by linarith) (by rw [abs_neg]; norm_num)
  refine ⟨rfl, ?_, ?_⟩
  · refine le_trans (le_of_eq ?_) (h1.trans (by norm_num))
    rw [if_neg (by decide)]
    congr 1
    ring
  · refine le_trans (le_of_eq ?_) h2
    rw [if_neg (by decide)]
    congr 1
    ring

theorem lit_neg {fl : Arith} {c : ℝ} (hc : 0 < c) : lit fl (-c) = -lit fl c := by
  unfold lit
  rw [if_pos (by linarith), if_neg (by linarith), neg_neg]

/-- Adding and taking away the same number. -/
theorem there_and_back {fl : Arith} (hf : Faithful fl) (k : ℕ) {x a X A : ℝ} (hx : |x| ≤ X) (ha : |a| ≤ A) :
    |fl (fl (x + fl.pr k (-a)) + fl.pr k a) - x| ≤ u * (2.1 * X + 4.1 * A) := by
  have hu := u_pos
  have hul := u_lt
  have X0 : 0 ≤ X := (abs_nonneg _).trans hx
  have A0 : 0 ≤ A := (abs_nonneg _).trans ha
  have p1 : App A (u * A) (fl.pr k (-a)) (-a) := by
    have h : App A 0 (-a) (-a) := ⟨by rwa [abs_neg], by simp⟩
    exact (h.pr hf k).mono le_rfl (by linarith)
  have p2 : App A (u * A) (fl.pr k a) a := by
    have h : App A 0 a a := ⟨ha, by simp⟩
    exact (h.pr hf k).mono le_rfl (by linarith)
  have s0 : App (X + A) (u * A) (x + fl.pr k (-a)) (x - a) := by
    have h : App X 0 x x := ⟨hx, by simp⟩
    have := h.add p1
    rw [← sub_eq_add_neg] at this
    exact this.mono le_rfl (by linarith)
  have huX := mul_nonneg hu.le X0
  have huA := mul_nonneg hu.le A0
  have huuA : u * (u * A) ≤ 0.001 * (u * A) := mul_le_mul_of_nonneg_right (by linarith) huA
  have huuX : u * (u * X) ≤ 0.001 * (u * X) := mul_le_mul_of_nonneg_right (by linarith) huX
  have s1 := (s0.fl hf).mono (e' := u * (X + 2.002 * A)) le_rfl (by linarith)
  have s2 : App X (u * (X + 3.002 * A)) (fl (x + fl.pr k (-a)) + fl.pr k a) x := by
    have h := s1.add p2
    rw [sub_add_cancel] at h
    exact ⟨hx, h.2.trans (by linarith)⟩
  exact ((s2.fl hf).2).trans (by nlinarith)

/-- C110: `deregularize` after `regularize` in double precision gives back UT1 to 4e-16 s and length of day to 4e-18 s, and everything else. -/
theorem regularize_back {fl : Arith} {fsin fcos s2r cents : ℝ → ℝ} (hf : Faithful fl) (hT : Trig fsin fcos) (hs : SecToRad s2r) (s : Eop.Series ℝ)
    (h : ∀ r ∈ s.vec, Centuries cents r.t ∧ |r.dut| ≤ 1 ∧ |r.lod| ≤ 0.01) :
    List.Forall₂ Restored s.vec (deregularize fl fsin fcos s2r cents (regularize fl fsin fcos s2r cents s)).vec := by
  show List.Forall₂ Restored s.vec ((s.vec.map _).map _)
  rw [List.map_map, List.forall₂_map_right_iff]
  refine List.forall₂_same.mpr fun r hr => ?_
  obtain ⟨⟨c1, c2⟩, d1, d2⟩ := h r hr
  have hu := u_pos
  have hul := u_lt
  obtain ⟨h1, h2, -⟩ := zonal_rounded hf hT hs c1 c2
  obtain ⟨b1, b2⟩ := zonal_size ![sec2rad (lPoly ((r.t - 51544.5) / 36525)), sec2rad (lpPoly ((r.t - 51544.5) / 36525)),
    sec2rad (fPoly ((r.t - 51544.5) / 36525)), sec2rad (dPoly ((r.t - 51544.5) / 36525)), sec2rad (omPoly ((r.t - 51544.5) / 36525))]
  have l := App.lit hf (1e-6) (M := 1e-6) (by norm_num)
  have A1 := (App.mul ⟨b1, h1⟩ l).abs'
  have A2 := (App.mul ⟨b2, h2⟩ l).abs'
  have a1 := A1.trans (c := (0.18 : ℝ)) (by nlinarith)
  have a2 := A2.trans (c := (0.0015 : ℝ)) (by nlinarith)
  have r1 := there_and_back hf 0 d1 a1
  have r2 := there_and_back hf 1 d2 a2
  rw [neg_mul_eq_mul_neg, ← lit_neg (by norm_num)] at r1 r2
  exact ⟨rfl, r1.trans (by nlinarith), r2.trans (by nlinarith)⟩

/-! ### A worked case -/

/-- The hypotheses are met by rounding to nearest, whichever products are fused, and exact functions, on 2012-06-06 12h (TT and UT1 taken as equal). -/
example (s : ℕ → Bool) :
    let s2r := fun x : ℝ => x * (2 * Real.pi / 1296000)
    let T : ℝ := (56084 + 0.5 - 51544.5) / 36525
    let a : Fin 5 → ℝ := ![sec2rad (lPoly T), sec2rad (lpPoly T), sec2rad (fPoly T), sec2rad (dPoly T), sec2rad (omPoly T)]
    let g := eraIers (56084 + 0.5 - 51544.5) + sec2rad (gmstPoly T)
    let a' := Rounded.fundarg (rnArith s) s2r T
    let g' := Rounded.gmst (rnArith s) s2r T 0.5 (56084 + 0.5 - 51544.5)
    |(deopZonalTide (rnArith s) Real.sin Real.cos a').dut1 - (EopTides.deopZonalTide a).dut1| ≤ 2.2e-6 ∧
    |(deopLibration (rnArith s) Real.sin Real.cos a' g').dxp - (EopTides.deopLibration a g).dxp| ≤ 1.3e-8 ∧
    |(deopLibration (rnArith s) Real.sin Real.cos a' g').dxp - Ref.first Ref.pmsdnut2 g (a 0) (a 1) (a 2) (a 3) (a 4)| ≤ 1.3e-8 ∧
    |(deopOceanTide (rnArith s) Real.sin Real.cos a' g').dxp - (EopTides.deopOceanTide a g).dxp| ≤ 4.1e-7 := by
  intro s2r T a g a' g'
  have hu := u_pos
  have hT : Trig Real.sin Real.cos := ⟨fun x => by simp [hu.le], fun x => by simp [hu.le]⟩
  let e : Epoch := ⟨56084, 0.5, by norm_num, by norm_num⟩
  have hd : e.daysSinceJ2000 = 56084 + 0.5 - 51544.5 := by show ((56084 : ℤ) : ℝ) + 0.5 - 51544.5 = _; norm_num
  have hj : e.jcenturies = T := by unfold Epoch.jcenturies; rw [hd]
  have hs : Sees e 0.5 (56084 + 0.5 - 51544.5) T :=
    ⟨by simp [e, hu.le], by rw [hd, sub_self, abs_zero]; positivity, by rw [hj, sub_self, abs_zero]; positivity⟩
  have h1 : |e.daysSinceJ2000| ≤ 36525 := by rw [hd]; norm_num [abs_of_pos]
  have h2 : |T| ≤ 1 := by simp only [T]; norm_num [abs_of_pos]
  have z := zonal_rounded (rn_faithful s) hT s2r_exact (t' := T) (t := T) (by simp [hu.le]) h2
  have l := libration_rounded (rn_faithful s) hT s2r_exact e e hs hs h1 (by rw [hj]; exact h2)
  have p := libration_pmsdnut2 (rn_faithful s) hT s2r_exact e e hs hs h1 (by rw [hj]; exact h2)
  have o := ocean_rounded (rn_faithful s) hT s2r_exact e e hs hs h1 (by rw [hj]; exact h2)
  rw [hj, hd] at l p o
  exact ⟨z.1, l.1, p.1, o.1⟩

/-- Two records, seven years apart, regularized and restored. -/
example (s : ℕ → Bool) (r : Eop.Rec ℝ) (h1 : r.dut = -0.25) (h2 : r.lod = 0.001) (h3 : r.t = 56084.5) :
    let S : Eop.Series ℝ := ⟨[{ r with t := 53371, dut := 0.5 }, r], 2, some 0⟩
    let c := fun t : ℝ => (t - 51544.5) / 36525
    let s2r := fun x : ℝ => x * (2 * Real.pi / 1296000)
    List.Forall₂ Removed S.vec (regularize (rnArith s) Real.sin Real.cos s2r c S).vec ∧
    List.Forall₂ Restored S.vec (deregularize (rnArith s) Real.sin Real.cos s2r c (regularize (rnArith s) Real.sin Real.cos s2r c S)).vec := by
  intro S c s2r
  have hu := u_pos
  have hT : Trig Real.sin Real.cos := ⟨fun x => by simp [hu.le], fun x => by simp [hu.le]⟩
  have h : ∀ r ∈ S.vec, Centuries c r.t ∧ |r.dut| ≤ 1 ∧ |r.lod| ≤ 0.01 := by
    intro q hq
    simp only [S, List.mem_cons, List.not_mem_nil, or_false] at hq
    unfold Centuries
    rcases hq with rfl | rfl
    · exact ⟨⟨by simp [c, hu.le], by norm_num [abs_of_pos]⟩, by norm_num [abs_of_pos], by rw [h2]; norm_num [abs_of_pos]⟩
    · rw [h1, h2, h3]
      exact ⟨⟨by simp [c, hu.le], by norm_num [abs_of_pos]⟩, by norm_num [abs_of_pos, abs_of_neg], by norm_num [abs_of_pos]⟩
  exact ⟨(regularize_rounded (rn_faithful s) hT s2r_exact S h).1, regularize_back (rn_faithful s) hT s2r_exact S h⟩

end Verif.RoundedEopTides
