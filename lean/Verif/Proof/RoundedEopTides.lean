import Verif.Model.RoundedEopTides
import Verif.Proof.RoundedCip
import Verif.Proof.EopTides
import Verif.Props.Rounding
/-
Helper lemmas for the tidal variations of Earth rotation in double precision.
-/
namespace Verif.RoundedEopTides
open Verif Verif.EopTides Verif.Rounded Verif.Rounding Verif.RoundedCip
open Verif.Angle (Cong sec2rad)

/-! ### Sums -/

/-- A rounded sum of rounded terms. -/
theorem fold_app {ι : Type} {fl : Arith} (hf : Faithful fl) (x' x : ι → ℝ) (w d : ι → ℝ) {W : ℝ} :
    ∀ (l : List ι) (a' a A E : ℝ), (∀ i ∈ l, App (w i) (d i) (x' i) (x i)) → (∀ i ∈ l, 0 ≤ d i) → App A E a' a → 0 ≤ E →
      A + (l.map w).sum ≤ W → E + (l.map d).sum + l.length * (2 * u * W) ≤ W →
      App (A + (l.map w).sum) (E + (l.map d).sum + l.length * (2 * u * W)) (l.foldl (fun s i => fl (s + x' i)) a') (a + (l.map x).sum) := by
  intro l
  induction l with
  | nil => intro a' a A E _ _ h _ _ _; simpa using h
  | cons i l ih =>
    intro a' a A E hx hd h hE hW hB
    have hi := hx i List.mem_cons_self
    have hdi := hd i List.mem_cons_self
    have hu := u_pos
    have hsw : 0 ≤ (l.map w).sum := List.sum_nonneg (by
      intro y hy
      obtain ⟨j, hj, rfl⟩ := List.mem_map.mp hy
      exact (abs_nonneg _).trans (hx j (List.mem_cons_of_mem _ hj)).1)
    have hsd : 0 ≤ (l.map d).sum := List.sum_nonneg (by
      intro y hy
      obtain ⟨j, hj, rfl⟩ := List.mem_map.mp hy
      exact hd j (List.mem_cons_of_mem _ hj))
    have hA : 0 ≤ A := (abs_nonneg _).trans h.1
    have hwi : 0 ≤ w i := (abs_nonneg _).trans hi.1
    simp only [List.map_cons, List.sum_cons, List.length_cons, List.foldl_cons] at hW hB ⊢
    push_cast at hB ⊢
    have hW0 : 0 ≤ W := by linarith
    have hl : (0 : ℝ) ≤ l.length * (2 * u * W) := by positivity
    have huW : 0 ≤ 2 * u * W := by positivity
    have s1 := (h.add hi).fl hf
    have b1 : u * (A + w i + (E + d i)) ≤ 2 * u * W := by
      have : A + w i + (E + d i) ≤ 2 * W := by nlinarith
      nlinarith
    have s2 := s1.mono (e' := E + d i + 2 * u * W) le_rfl (by linarith)
    have key := ih _ _ (A + w i) (E + d i + 2 * u * W) (fun j hj => hx j (List.mem_cons_of_mem _ hj))
      (fun j hj => hd j (List.mem_cons_of_mem _ hj)) s2 (by linarith) (by linarith) (by nlinarith)
    have e1 : a + x i + (l.map x).sum = a + (x i + (l.map x).sum) := by ring
    rw [e1] at key
    exact key.mono (by linarith) (by nlinarith)

/-- A term: two amplitudes times sine and cosine. -/
theorem term_app {fl : Arith} (hf : Faithful fl) {δ c' c s' s : ℝ} (hδ0 : 0 ≤ δ) (hδ : δ ≤ 0.0001) (hc : App 1 δ c' c) (hs : App 1 δ s' s)
    (k l : ℕ) {a b A B : ℝ} (ha : |a| ≤ A) (hb : |b| ≤ B) :
    App (A + B) ((A + B) * (δ + 3.2 * u)) (fl (fl.pr k (lit fl a * c') + fl.pr l (lit fl b * s'))) (a * c + b * s) := by
  have hu := u_pos
  have hul := u_lt
  have hsq := u_sq
  have one : ∀ (m : ℕ) {z Z : ℝ} {x' x : ℝ}, |z| ≤ Z → App 1 δ x' x → App Z (Z * (δ + 2.1 * u)) (fl.pr m (lit fl z * x')) (z * x) := by
    intro m z Z x' x hzZ hx
    have hz : (0 : ℝ) ≤ Z := (abs_nonneg _).trans hzZ
    refine (((App.lit hf _ hzZ).mul hx).pr hf m).mono (by linarith) ?_
    have h1 := mul_nonneg hz hu.le
    have h2 := mul_le_mul_of_nonneg_left hδ h1
    have h3 := mul_le_mul_of_nonneg_left hsq hz
    have h4 := mul_le_mul_of_nonneg_left hul.le (mul_nonneg hz (mul_nonneg hu.le hδ0))
    nlinarith
  have A0 : 0 ≤ A := (abs_nonneg _).trans ha
  have B0 : 0 ≤ B := (abs_nonneg _).trans hb
  have S := (one k ha hc).add (one l hb hs)
  have hz : 0 ≤ A + B := add_nonneg A0 B0
  have S' : App (A + B) ((A + B) * (δ + 2.1 * u)) (fl.pr k (lit fl a * c') + fl.pr l (lit fl b * s')) (a * c + b * s) :=
    S.mono le_rfl (by linarith)
  generalize A + B = z at *
  have h1 := mul_nonneg hz hu.le
  have h2 := mul_le_mul_of_nonneg_left hδ h1
  have h3 := mul_le_mul_of_nonneg_left hsq hz
  exact (S'.fl hf).mono le_rfl (by nlinarith)

/-! ### Zonal tides -/

/-- Sum of the absolute values of the multipliers. -/
def zweight (e : ZEntry) : Nat := e.lm.natAbs + e.lpm.natAbs + e.fm.natAbs + e.dm.natAbs + e.om.natAbs

theorem ksi_near {fl : Arith} (hf : Faithful fl) (e : ZEntry) {f' f : Fin 5 → ℝ} {ε : ℝ} (he : 0 ≤ ε) (hF : ∀ i, Near ε (f' i) (f i))
    (hb : ∀ i, |f' i| ≤ 6.284) : Near (zweight e * (ε + 72 * u) + 13 * u) (ksi fl e f') (e.phase f) := by
  let F' : ℕ → ℝ := fun i => if h : i < 5 then f' ⟨i, h⟩ else 0
  let F : ℕ → ℝ := fun i => if h : i < 5 then f ⟨i, h⟩ else 0
  obtain ⟨h1, h2⟩ := dot_near (n := 4) hf (by norm_num) [e.lm, e.lpm, e.fm, e.dm, e.om] (F' := F') (F := F) he
    (by intro i hi; have : i < 5 := by omega
        simp only [F', F, this, dite_true]; exact hF _)
    (by intro i hi; have : i < 5 := by omega
        simp only [F', this, dite_true]; exact hb _)
  have hw : weight 4 [e.lm, e.lpm, e.fm, e.dm, e.om] = zweight e := by
    simp [weight, zweight, List.range']
  have hd : dot fl 4 [e.lm, e.lpm, e.fm, e.dm, e.om] F' = fl (fl (fl (fl (fl.pr 0 (f' 0 * e.lm) + fl.pr 1 (f' 1 * e.lpm)) +
      fl.pr 2 (f' 2 * e.fm)) + fl.pr 3 (f' 3 * e.dm)) + fl.pr 4 (f' 4 * e.om)) := by
    simp [dot, List.range', F', mul_comm]
  have hp' : (List.range' 1 4).foldl (fun a i => a + (([e.lm, e.lpm, e.fm, e.dm, e.om].getD i 0 : ℤ) : ℝ) * F i)
      (([e.lm, e.lpm, e.fm, e.dm, e.om].getD 0 0 : ℤ) * F 0) = e.phase f := by
    simp [List.range', F, ZEntry.phase, mul_comm]
  rw [hw, hd, hp'] at h1
  rw [hw, hd] at h2
  have hu := u_pos
  have hn : (0 : ℝ) ≤ zweight e := Nat.cast_nonneg _
  unfold ksi
  refine ((anp_near hf _).trans h1).mono ?_
  nlinarith

/-- The three loops, one by one. -/
theorem zonal_split (fl : Arith) (fsin fcos : ℝ → ℝ) (f : Fin 5 → ℝ) : ∀ (l : List ZEntry) (a : Zonal),
    (l.foldl (zonalStep fl fsin fcos f) a).dut1 = l.foldl (fun s e => fl (s + fl (fl.pr 0 (lit fl (e.dut1B / 10000) * fsin (ksi fl e f)) +
      fl.pr 1 (lit fl (e.dut1C / 10000) * fcos (ksi fl e f))))) a.dut1 ∧
    (l.foldl (zonalStep fl fsin fcos f) a).dlod = l.foldl (fun s e => fl (s + fl (fl.pr 2 (lit fl (e.dlodB / 10000) * fcos (ksi fl e f)) +
      fl.pr 3 (lit fl (e.dlodC / 10000) * fsin (ksi fl e f))))) a.dlod ∧
    (l.foldl (zonalStep fl fsin fcos f) a).domega = l.foldl (fun s e => fl (s + fl (fl.pr 4 (lit fl (e.domegaB / 10000) * fcos (ksi fl e f)) +
      fl.pr 5 (lit fl (e.domegaC / 10000) * fsin (ksi fl e f))))) a.domega := by
  intro l
  induction l with
  | nil => intro a; exact ⟨rfl, rfl, rfl⟩
  | cons e l ih => intro a; exact ih _

/-- Amplitudes of a row, and amplitudes times the weight of its argument. -/
def amp {ι : Type} (p q : ι → Int) (e : ι) : Nat := (p e).natAbs + (q e).natAbs
def ampw {ι : Type} (p q : ι → Int) (wt : ι → Nat) (e : ι) : Nat := amp p q e * wt e

theorem sum_cast {ι : Type} (g : ι → Nat) (c : ℝ) (l : List ι) : (l.map fun i => (g i : ℝ) * c).sum = ((l.map g).sum : ℕ) * c := by
  induction l with
  | nil => simp
  | cons i l ih => simp only [List.map_cons, List.sum_cons, ih]; push_cast; ring

/-- One row of a series: amplitudes in units `r`. -/
theorem row_app {fl : Arith} {fsin fcos : ℝ → ℝ} (hf : Faithful fl) (hT : Trig fsin fcos) (g' h' g h : ℝ → ℝ)
    (hgh : (g' = fsin ∧ h' = fcos ∧ g = Real.sin ∧ h = Real.cos) ∨ (g' = fcos ∧ h' = fsin ∧ g = Real.cos ∧ h = Real.sin))
    (p q : ℤ) (k l : ℕ) {ε r D θ' θ : ℝ} {w : ℕ} (hD : 0 < D) (hr : r = 1 / D) (he : 0 ≤ ε) (hw : w * ε ≤ 0.00005) (hθ : Near (w * ε + 880 * u) θ' θ) :
    App (((p.natAbs + q.natAbs : ℕ) : ℝ) * r) (((p.natAbs + q.natAbs : ℕ) * w : ℕ) * (r * ε) + ((p.natAbs + q.natAbs : ℕ) : ℝ) * (r * (900 * u)))
      (fl (fl.pr k (lit fl (p / D) * g' θ') + fl.pr l (lit fl (q / D) * h' θ'))) ((p / D : ℝ) * g θ + (q / D : ℝ) * h θ) := by
  have hu := u_pos
  have hul := u_lt
  have hr0 : 0 < r := by rw [hr]; positivity
  have c1 := app_cos hT hθ
  have s1 := app_sin hT hθ
  have w0 : 0 ≤ (w : ℝ) * ε := by positivity
  generalize hδ : (w : ℝ) * ε + 880 * u + 2 * u = δ at c1 s1
  have d0 : 0 ≤ δ := by rw [← hδ]; positivity
  have d2 : δ ≤ 0.0001 := by linarith
  have ab : ∀ z : ℤ, |(z / D : ℝ)| ≤ z.natAbs * r := fun z => by
    rw [abs_div, natAbs_cast, abs_of_pos hD, hr]; exact le_of_eq (by ring)
  have key : App (p.natAbs * r + q.natAbs * r) ((p.natAbs * r + q.natAbs * r) * (δ + 3.2 * u))
      (fl (fl.pr k (lit fl (p / D) * g' θ') + fl.pr l (lit fl (q / D) * h' θ'))) ((p / D : ℝ) * g θ + (q / D : ℝ) * h θ) := by
    rcases hgh with ⟨rfl, rfl, rfl, rfl⟩ | ⟨rfl, rfl, rfl, rfl⟩
    · exact term_app hf d0 d2 s1 c1 k l (ab _) (ab _)
    · exact term_app hf d0 d2 c1 s1 k l (ab _) (ab _)
  have ea : (p.natAbs : ℝ) * r + q.natAbs * r = ((p.natAbs + q.natAbs : ℕ) : ℝ) * r := by push_cast; ring
  rw [ea] at key
  refine key.mono le_rfl ?_
  rw [← hδ]
  push_cast
  have hA : (0 : ℝ) ≤ ((p.natAbs : ℝ) + (q.natAbs : ℝ)) * r * u := by positivity
  generalize (p.natAbs : ℝ) + (q.natAbs : ℝ) = A at *
  have e : A * r * (w * ε + 880 * u + 2 * u + 3.2 * u) = A * w * (r * ε) + A * r * u * 885.2 := by ring
  rw [e]
  linarith

/-- A series. `P`, `Q`: sums of the amplitudes and of the amplitudes times the weights. -/
theorem series_app {ι : Type} {fl : Arith} {fsin fcos : ℝ → ℝ} (hf : Faithful fl) (hT : Trig fsin fcos) (g' h' g h : ℝ → ℝ)
    (hgh : (g' = fsin ∧ h' = fcos ∧ g = Real.sin ∧ h = Real.cos) ∨ (g' = fcos ∧ h' = fsin ∧ g = Real.cos ∧ h = Real.sin))
    (rows : List ι) (p q : ι → Int) (wt : ι → Nat) (θ' θ : ι → ℝ) (k l : ℕ) {ε D : ℝ} {P Q : Nat} (hD : 0 < D) (he : 0 ≤ ε)
    (hw : ∀ e ∈ rows, wt e * ε ≤ 0.00005) (hθ : ∀ e ∈ rows, Near (wt e * ε + 880 * u) (θ' e) (θ e)) (hn : rows.length ≤ 100)
    (hP : (rows.map (amp p q)).sum = P) (hQ : (rows.map (ampw p q wt)).sum = Q) (hQP : Q * ε ≤ P * 0.01) :
    App (P / D) (Q / D * ε + P / D * (1100 * u))
      (rows.foldl (fun s e => fl (s + fl (fl.pr k (lit fl (p e / D) * g' (θ' e)) + fl.pr l (lit fl (q e / D) * h' (θ' e))))) 0)
      (rows.map fun e => (p e / D : ℝ) * g (θ e) + (q e / D : ℝ) * h (θ e)).sum := by
  have hu := u_pos
  have hul := u_lt
  have term : ∀ e ∈ rows, App ((amp p q e : ℝ) * (1 / D)) ((ampw p q wt e : ℝ) * (1 / D * ε) + (amp p q e : ℝ) * (1 / D * (900 * u))) _ _ :=
    fun e hm => row_app hf hT g' h' g h hgh (p e) (q e) k l hD rfl he (hw e hm) (hθ e hm)
  have e1 : (rows.map fun e => (amp p q e : ℝ) * (1 / D)).sum = P * (1 / D) := by rw [sum_cast, hP]
  have e2 : (rows.map fun e => (ampw p q wt e : ℝ) * (1 / D * ε) + (amp p q e : ℝ) * (1 / D * (900 * u))).sum =
      Q * (1 / D * ε) + P * (1 / D * (900 * u)) := by
    rw [List.sum_map_add, sum_cast, sum_cast, hP, hQ]
  have hPD : (0 : ℝ) ≤ P * (1 / D) := by positivity
  have hPu0 : 0 ≤ (P : ℝ) * (1 / D) * u := by positivity
  have hPu : (P : ℝ) * (1 / D) * u ≤ P * (1 / D) * 1.2e-16 := mul_le_mul_of_nonneg_left hul.le hPD
  have hQ' : (Q : ℝ) * (1 / D * ε) ≤ P * (1 / D) * 0.01 := by
    have := mul_le_mul_of_nonneg_right hQP (by positivity : (0 : ℝ) ≤ 1 / D)
    linarith
  have hn' : (rows.length : ℝ) ≤ 100 := by exact_mod_cast hn
  have hl : (rows.length : ℝ) * (2 * u * (P * (1 / D))) ≤ 100 * (2 * u * (P * (1 / D))) := mul_le_mul_of_nonneg_right hn' (by positivity)
  have z0 : App 0 0 (0 : ℝ) 0 := by unfold App; simp
  have fin := fold_app hf _ _ _ _ (W := P * (1 / D)) rows 0 0 0 0 term (by
      intro e _; positivity) z0 le_rfl (by rw [e1]; linarith) (by
      rw [e2]; linarith)
  rw [e1, e2, zero_add, zero_add, zero_add] at fin
  refine fin.mono (le_of_eq (by ring)) ?_
  have e3 : (Q : ℝ) / D * ε = Q * (1 / D * ε) := by ring
  have e4 : (P : ℝ) / D * (1100 * u) = P * (1 / D) * u * 1100 := by ring
  rw [e3, e4]
  linarith

theorem zweight_le : ∀ e ∈ table81, zweight e ≤ 12 := by decide +kernel

/-- The sums over the table of zonal tides. -/
theorem zonal_amps : (table81.map (amp ZEntry.dut1B ZEntry.dut1C)).sum = 17257311 ∧ (table81.map (ampw ZEntry.dut1B ZEntry.dut1C zweight)).sum = 20633260 ∧
    (table81.map (amp ZEntry.dlodB ZEntry.dlodC)).sum = 1426455 ∧ (table81.map (ampw ZEntry.dlodB ZEntry.dlodC zweight)).sum = 4776821 ∧
    (table81.map (amp ZEntry.domegaB ZEntry.domegaC)).sum = 1203916 ∧ (table81.map (ampw ZEntry.domegaB ZEntry.domegaC zweight)).sum = 4031590 := by
  decide +kernel

/-! ### Diurnal tides -/

/-- The largest multiplier, at least 1. -/
def dweight (e : DEntry) : Nat :=
  max 1 (max (max (max e.dn.i0.natAbs e.dn.i1.natAbs) (max e.dn.i2.natAbs e.dn.i3.natAbs)) (max e.dn.i4.natAbs e.dn.i5.natAbs))

/-- The four loops, one by one. -/
theorem diurnal_split (fl : Arith) (fsin fcos : ℝ → ℝ) (f : Fin 6 → ℝ) : ∀ (l : List DEntry) (a : Diurnal),
    (l.foldl (diurnalStep fl fsin fcos f) a).dxp = l.foldl (fun s e => fl (s + fl (fl.pr 0 (lit fl (e.xps / 100) * fsin (Rounded.argument fl e.dn f)) +
      fl.pr 1 (lit fl (e.xpc / 100) * fcos (Rounded.argument fl e.dn f))))) a.dxp ∧
    (l.foldl (diurnalStep fl fsin fcos f) a).dyp = l.foldl (fun s e => fl (s + fl (fl.pr 2 (lit fl (e.yps / 100) * fsin (Rounded.argument fl e.dn f)) +
      fl.pr 3 (lit fl (e.ypc / 100) * fcos (Rounded.argument fl e.dn f))))) a.dyp ∧
    (l.foldl (diurnalStep fl fsin fcos f) a).dut1 = l.foldl (fun s e => fl (s + fl (fl.pr 4 (lit fl (e.ut1s / 100) * fsin (Rounded.argument fl e.dn f)) +
      fl.pr 5 (lit fl (e.ut1c / 100) * fcos (Rounded.argument fl e.dn f))))) a.dut1 ∧
    (l.foldl (diurnalStep fl fsin fcos f) a).dlod = l.foldl (fun s e => fl (s + fl (fl.pr 6 (lit fl (e.lods / 100) * fsin (Rounded.argument fl e.dn f)) +
      fl.pr 7 (lit fl (e.lodc / 100) * fcos (Rounded.argument fl e.dn f))))) a.dlod := by
  intro l
  induction l with
  | nil => intro a; exact ⟨rfl, rfl, rfl, rfl⟩
  | cons e l ih =>
    intro a
    have h := ih (diurnalStep fl fsin fcos f a e)
    simp only [List.foldl_cons]
    refine ⟨h.1.trans ?_, h.2.1.trans ?_, h.2.2.1.trans ?_, h.2.2.2.trans ?_⟩ <;> simp only [diurnalStep, mul_comm]

theorem libration_amps :
    (table5NoLongTides.map (amp DEntry.xps DEntry.xpc)).sum = 6170 ∧ (table5NoLongTides.map (ampw DEntry.xps DEntry.xpc dweight)).sum = 7540 ∧
    (table5NoLongTides.map (amp DEntry.yps DEntry.ypc)).sum = 6170 ∧ (table5NoLongTides.map (ampw DEntry.yps DEntry.ypc dweight)).sum = 7540 ∧
    (table5NoLongTides.map (amp DEntry.ut1s DEntry.ut1c)).sum = 549 ∧ (table5NoLongTides.map (ampw DEntry.ut1s DEntry.ut1c dweight)).sum = 1106 ∧
    (table5NoLongTides.map (amp DEntry.lods DEntry.lodc)).sum = 6680 ∧ (table5NoLongTides.map (ampw DEntry.lods DEntry.lodc dweight)).sum = 13450 ∧
    ∀ e ∈ table5NoLongTides, dweight e ≤ 4 := by
  decide +kernel

theorem ocean_amps :
    (table8.map (amp DEntry.xps DEntry.xpc)).sum = 149020 ∧ (table8.map (ampw DEntry.xps DEntry.xpc dweight)).sum = 252320 ∧
    (table8.map (amp DEntry.yps DEntry.ypc)).sum = 123060 ∧ (table8.map (ampw DEntry.yps DEntry.ypc dweight)).sum = 200000 ∧
    (table8.map (amp DEntry.ut1s DEntry.ut1c)).sum = 14433 ∧ (table8.map (ampw DEntry.ut1s DEntry.ut1c dweight)).sum = 23281 ∧
    (table8.map (amp DEntry.lods DEntry.lodc)).sum = 115350 ∧ (table8.map (ampw DEntry.lods DEntry.lodc dweight)).sum = 197710 ∧
    ∀ e ∈ table8, dweight e ≤ 4 := by
  decide +kernel

theorem dweight_abs (e : DEntry) : |(e.dn.i0 : ℝ)| ≤ dweight e ∧ |(e.dn.i1 : ℝ)| ≤ dweight e ∧ |(e.dn.i2 : ℝ)| ≤ dweight e ∧
    |(e.dn.i3 : ℝ)| ≤ dweight e ∧ |(e.dn.i4 : ℝ)| ≤ dweight e ∧ |(e.dn.i5 : ℝ)| ≤ dweight e := by
  simp only [natAbs_cast, Nat.cast_le]
  unfold dweight
  omega

end Verif.RoundedEopTides
