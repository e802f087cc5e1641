import Verif.Proof.RoundedTides
import Verif.Props.SolidTide
/-
Helper lemmas for the frequency-dependent part of the solid Earth tide in double precision.
-/
namespace Verif.RoundedTides
open Verif Verif.Rounded Verif.Rounding Verif.RoundedCip Verif.RoundedEopTides Verif.Iau Verif.Fundarg
open Verif.SolidTide (Row2 Step2 table2 theta band)
open Verif.Angle (sec2rad Cong)
open Verif.EopTides (dargs)

/-- The constituents of a band. -/
def bandRows (m : ℤ) (l : List Row2) : List Row2 := l.filter fun c => c.d.i0 = m

/-- The largest multiplier, at least 1, and the amplitudes in tenths. -/
def rweight (e : Row2) : Nat :=
  max 1 (max (max (max e.d.i0.natAbs e.d.i1.natAbs) (max e.d.i2.natAbs e.d.i3.natAbs)) (max e.d.i4.natAbs e.d.i5.natAbs))
def ipN (e : Row2) : Int := (e.ip * 10).num
def opN (e : Row2) : Int := (e.op * 10).num

theorem rweight_abs (e : Row2) : |(e.d.i0 : ℝ)| ≤ rweight e ∧ |(e.d.i1 : ℝ)| ≤ rweight e ∧ |(e.d.i2 : ℝ)| ≤ rweight e ∧
    |(e.d.i3 : ℝ)| ≤ rweight e ∧ |(e.d.i4 : ℝ)| ≤ rweight e ∧ |(e.d.i5 : ℝ)| ≤ rweight e := by
  simp only [natAbs_cast, Nat.cast_le]
  unfold rweight
  omega

theorem tenths : ∀ e ∈ table2, e.ip = (ipN e : ℚ) / 10 ∧ e.op = (opN e : ℚ) / 10 ∧ rweight e ≤ 4 := by decide +kernel

theorem band_amps :
    ((bandRows 0 table2).map (amp ipN opN)).sum = 566 ∧ ((bandRows 0 table2).map (ampw ipN opN rweight)).sum = 861 ∧ (bandRows 0 table2).length = 21 ∧
    ((bandRows 1 table2).map (amp ipN opN)).sum = 6815 ∧ ((bandRows 1 table2).map (ampw ipN opN rweight)).sum = 7491 ∧ (bandRows 1 table2).length = 48 ∧
    ((bandRows 2 table2).map (amp ipN opN)).sum = 15 ∧ ((bandRows 2 table2).map (ampw ipN opN rweight)).sum = 30 ∧ (bandRows 2 table2).length = 2 := by
  decide +kernel

/-- The five loops, one by one. -/
theorem step2_split (fl : Arith) (fsin fcos : ℝ → ℝ) (f : Fin 6 → ℝ) : ∀ (l : List Row2) (s : Step2),
    let r := l.foldl (addRow fl fsin fcos f) s
    let θ := fun c : Row2 => Rounded.argument fl c.d f
    r.C20 = (bandRows 0 l).foldl (fun a c => fl (a + fl (fl.pr 4 (lit fl c.ip * fcos (θ c)) - fl.pr 5 (lit fl c.op * fsin (θ c))))) s.C20 ∧
    r.C21 = (bandRows 1 l).foldl (fun a c => fl (a + fl (fl.pr 0 (lit fl c.ip * fsin (θ c)) + fl.pr 1 (lit fl c.op * fcos (θ c))))) s.C21 ∧
    r.S21 = (bandRows 1 l).foldl (fun a c => fl (a + fl (fl.pr 2 (lit fl c.ip * fcos (θ c)) - fl.pr 3 (lit fl c.op * fsin (θ c))))) s.S21 ∧
    r.C22 = (bandRows 2 l).foldl (fun a c => fl (a + fl (fl.pr 6 (lit fl c.ip * fcos (θ c)) - fl.pr 7 (lit fl c.op * fsin (θ c))))) s.C22 ∧
    r.S22 = (bandRows 2 l).foldl (fun a c => fl (a + -fl (fl.pr 8 (lit fl c.ip * fsin (θ c)) + fl.pr 9 (lit fl c.op * fcos (θ c))))) s.S22 := by
  intro l
  induction l with
  | nil => intro s; exact ⟨rfl, rfl, rfl, rfl, rfl⟩
  | cons c l ih =>
    intro s
    obtain ⟨h1, h2, h3, h4, h5⟩ := ih (addRow fl fsin fcos f s c)
    simp only [List.foldl_cons]
    rw [h1, h2, h3, h4, h5]
    by_cases k1 : c.d.i0 = 1
    · simp [bandRows, addRow, k1]
    · by_cases k0 : c.d.i0 = 0
      · simp [bandRows, addRow, k0]
      · by_cases k2 : c.d.i0 = 2
        · simp [bandRows, addRow, k2, sub_eq_add_neg]
        · simp [bandRows, addRow, k0, k1, k2]

/-- A difference of two amplitudes times sine and cosine. -/
theorem term_sub {fl : Arith} (hf : Faithful fl) {δ c' c s' s : ℝ} (hδ0 : 0 ≤ δ) (hδ : δ ≤ 0.0001) (hc : App 1 δ c' c) (hs : App 1 δ s' s)
    (k l : ℕ) {a b A B : ℝ} (ha : |a| ≤ A) (hb : |b| ≤ B) :
    App (A + B) ((A + B) * (δ + 3.2 * u)) (fl (fl.pr k (lit fl a * c') - fl.pr l (lit fl b * s'))) (a * c - b * s) := by
  have hu := u_pos
  have hul := u_lt
  have hsq := u_sq
  have one : ∀ (m : ℕ) {z Z : ℝ} {x' x : ℝ}, |z| ≤ Z → App 1 δ x' x → App Z (Z * (δ + 2.1 * u)) (fl.pr m (lit fl z * x')) (z * x) := by
    intro m z Z x' x hzZ hx
    have hz : (0 : ℝ) ≤ Z := (abs_nonneg _).trans hzZ
    refine (((App.lit hf _ hzZ).mul hx).pr hf m).mono (by linarith) ?_
    have h1 := mul_nonneg hz hu.le
    have h2 := mul_le_mul_of_nonneg_left hδ h1
    have h3 := mul_le_mul_of_nonneg_left hsq hz
    have h4 := mul_le_mul_of_nonneg_left hul.le (mul_nonneg hz (mul_nonneg hu.le hδ0))
    nlinarith
  have A0 : 0 ≤ A := (abs_nonneg _).trans ha
  have B0 : 0 ≤ B := (abs_nonneg _).trans hb
  have S := (one k ha hc).sub (one l hb hs)
  have hz : 0 ≤ A + B := add_nonneg A0 B0
  have S' : App (A + B) ((A + B) * (δ + 2.1 * u)) (fl.pr k (lit fl a * c') - fl.pr l (lit fl b * s')) (a * c - b * s) :=
    S.mono le_rfl (by linarith)
  generalize A + B = z at *
  have h1 := mul_nonneg hz hu.le
  have h2 := mul_le_mul_of_nonneg_left hδ h1
  have h3 := mul_le_mul_of_nonneg_left hsq hz
  exact (S'.fl hf).mono le_rfl (by nlinarith)

/-- One constituent: in phase with the cosine (difference) or with the sine (sum). -/
theorem row2_app {fl : Arith} {fsin fcos : ℝ → ℝ} (hf : Faithful fl) (hT : Trig fsin fcos) {e : Row2} (he : e ∈ table2) (k l : ℕ) {θ' θ : ℝ}
    (hθ : Near (rweight e * 1.6e-10) θ' θ) :
    App ((amp ipN opN e : ℝ) * (1 / 10)) ((ampw ipN opN rweight e : ℝ) * (1 / 10 * 1.6e-10) + (amp ipN opN e : ℝ) * (1 / 10 * (6 * u)))
      (fl (fl.pr k (lit fl e.ip * fcos θ') - fl.pr l (lit fl e.op * fsin θ'))) (e.ip * Real.cos θ - e.op * Real.sin θ) ∧
    App ((amp ipN opN e : ℝ) * (1 / 10)) ((ampw ipN opN rweight e : ℝ) * (1 / 10 * 1.6e-10) + (amp ipN opN e : ℝ) * (1 / 10 * (6 * u)))
      (fl (fl.pr k (lit fl e.ip * fsin θ') + fl.pr l (lit fl e.op * fcos θ'))) (e.ip * Real.sin θ + e.op * Real.cos θ) := by
  obtain ⟨h1, h2, h3⟩ := tenths e he
  have hu := u_pos
  have hul := u_lt
  have h3' : (rweight e : ℝ) ≤ 4 := by exact_mod_cast h3
  have w0 : (0 : ℝ) ≤ rweight e := Nat.cast_nonneg _
  have c1 := app_cos hT hθ
  have s1 := app_sin hT hθ
  have ab : ∀ {q : ℚ} {z : ℤ}, q = (z : ℚ) / 10 → |(q : ℝ)| ≤ z.natAbs * (1 / 10) := by
    intro q z h
    rw [h]
    push_cast
    rw [abs_div, natAbs_cast, abs_of_pos (by norm_num : (0 : ℝ) < 10)]
    exact le_of_eq (by ring)
  have d0 : 0 ≤ (rweight e : ℝ) * 1.6e-10 + 2 * u := by positivity
  have d1 : (rweight e : ℝ) * 1.6e-10 + 2 * u ≤ 0.0001 := by linarith
  have ea : ((ipN e).natAbs : ℝ) * (1 / 10) + (opN e).natAbs * (1 / 10) = (amp ipN opN e : ℝ) * (1 / 10) := by
    unfold amp; push_cast; ring
  have A0 : (0 : ℝ) ≤ amp ipN opN e := Nat.cast_nonneg _
  have fin : (amp ipN opN e : ℝ) * (1 / 10) * ((rweight e : ℝ) * 1.6e-10 + 2 * u + 3.2 * u) ≤
      (ampw ipN opN rweight e : ℝ) * (1 / 10 * 1.6e-10) + (amp ipN opN e : ℝ) * (1 / 10 * (6 * u)) := by
    unfold ampw
    push_cast
    have := mul_nonneg A0 hu.le
    nlinarith
  constructor
  · have := term_sub hf d0 d1 c1 s1 k l (ab h1) (ab h2)
    rw [ea] at this
    exact this.mono le_rfl fin
  · have := term_app hf d0 d1 s1 c1 k l (ab h1) (ab h2)
    rw [ea] at this
    exact this.mono le_rfl fin

/-- A sum over the constituents of a band, in units of 1e-12. `P`, `Q`: sums of the amplitudes and of the amplitudes times the weights, in tenths. -/
theorem band_app {fl : Arith} (hf : Faithful fl) (rows : List Row2) (x' x : Row2 → ℝ) {P Q : ℕ}
    (hx : ∀ e ∈ rows, App ((amp ipN opN e : ℝ) * (1 / 10)) ((ampw ipN opN rweight e : ℝ) * (1 / 10 * 1.6e-10) + (amp ipN opN e : ℝ) * (1 / 10 * (6 * u)))
      (x' e) (x e)) (hP : (rows.map (amp ipN opN)).sum = P) (hQ : (rows.map (ampw ipN opN rweight)).sum = Q) (hn : rows.length ≤ 50) (hQP : Q ≤ 4 * P) :
    App (P / 10) (Q * 1.6e-11 + P * (11 * u)) (rows.foldl (fun s e => fl (s + x' e)) 0) (rows.map x).sum := by
  have hu := u_pos
  have hul := u_lt
  have e1 : (rows.map fun e => (amp ipN opN e : ℝ) * (1 / 10)).sum = P * (1 / 10) := by rw [sum_cast, hP]
  have e2 : (rows.map fun e => (ampw ipN opN rweight e : ℝ) * (1 / 10 * 1.6e-10) + (amp ipN opN e : ℝ) * (1 / 10 * (6 * u))).sum =
      Q * (1 / 10 * 1.6e-10) + P * (1 / 10 * (6 * u)) := by
    rw [List.sum_map_add, sum_cast, sum_cast, hP, hQ]
  have hP0 : (0 : ℝ) ≤ P := Nat.cast_nonneg _
  have hPu := mul_nonneg hP0 hu.le
  have hPu' := mul_le_mul_of_nonneg_left hul.le hP0
  have hQ' : (Q : ℝ) ≤ 4 * P := by exact_mod_cast hQP
  have hn' : (rows.length : ℝ) ≤ 50 := by exact_mod_cast hn
  have hl : (rows.length : ℝ) * (2 * u * (P * (1 / 10))) ≤ 50 * (2 * u * (P * (1 / 10))) := mul_le_mul_of_nonneg_right hn' (by positivity)
  have z0 : App 0 0 (0 : ℝ) 0 := by unfold App; simp
  have fin := fold_app hf _ _ _ _ (W := P * (1 / 10)) rows 0 0 0 0 hx (by
      intro e _; positivity) z0 le_rfl (by rw [e1]; linarith) (by
      rw [e2]; linarith)
  rw [e1, e2, zero_add, zero_add, zero_add] at fin
  exact fin.mono (le_of_eq (by ring)) (by linarith)

theorem row_re (e : Row2) (θ : ℝ) : (((e.ip : ℂ) + e.op * Complex.I) * Complex.exp (Complex.I * θ)).re = e.ip * Real.cos θ - e.op * Real.sin θ := by
  rw [SolidTide.exp_pos]
  have h1 : ((e.ip : ℚ) : ℂ) = ((e.ip : ℝ) : ℂ) := by push_cast; rfl
  have h2 : ((e.op : ℚ) : ℂ) = ((e.op : ℝ) : ℂ) := by push_cast; rfl
  rw [h1, h2]
  simp [-Complex.ofReal_cos, -Complex.ofReal_sin]

theorem row_im (e : Row2) (θ : ℝ) : (((e.ip : ℂ) + e.op * Complex.I) * Complex.exp (Complex.I * θ)).im = e.ip * Real.sin θ + e.op * Real.cos θ := by
  rw [SolidTide.exp_pos]
  have h1 : ((e.ip : ℚ) : ℂ) = ((e.ip : ℝ) : ℂ) := by push_cast; rfl
  have h2 : ((e.op : ℚ) : ℂ) = ((e.op : ℝ) : ℂ) := by push_cast; rfl
  rw [h1, h2]
  simp [-Complex.ofReal_cos, -Complex.ofReal_sin]

theorem band_re (g : ℝ) (a : Fin 5 → ℝ) (m : ℤ) :
    (band table2 g a m).re = ((bandRows m table2).map fun e => e.ip * Real.cos (theta e.d g a) - e.op * Real.sin (theta e.d g a)).sum := by
  unfold band bandRows
  induction (table2.filter fun c => c.d.i0 = m) with
  | nil => simp
  | cons e l ih => simp only [List.map_cons, List.sum_cons, Complex.add_re, ih, row_re]

theorem band_im (g : ℝ) (a : Fin 5 → ℝ) (m : ℤ) :
    (band table2 g a m).im = ((bandRows m table2).map fun e => e.ip * Real.sin (theta e.d g a) + e.op * Real.cos (theta e.d g a)).sum := by
  unfold band bandRows
  induction (table2.filter fun c => c.d.i0 = m) with
  | nil => simp
  | cons e l ih => simp only [List.map_cons, List.sum_cons, Complex.add_im, ih, row_im]

/-- The second step, from the epochs on. -/
theorem step2_app {fl : Arith} {fsin fcos s2r : ℝ → ℝ} (hf : Faithful fl) (hT : Trig fsin fcos) (hs : SecToRad s2r) (tt ut1 : Epoch)
    {f tu t f' tu' t' : ℝ} (hut : Sees ut1 f tu t) (htt : Sees tt f' tu' t') (hr : |ut1.daysSinceJ2000| ≤ 36525) (hr' : |tt.jcenturies| ≤ 1) :
    let g := eraIers ut1.daysSinceJ2000 + sec2rad (gmstPoly tt.jcenturies)
    let a := dargs tt.jcenturies
    let q := step2 fl fsin fcos (Rounded.gmst fl s2r t' f tu) (Rounded.fundarg fl s2r t')
    App 6e-11 1.4e-20 q.C20 ((band table2 g a 0).re * 1e-12) ∧ App 7e-10 1.3e-19 q.C21 ((band table2 g a 1).im * 1e-12) ∧
      App 7e-10 1.3e-19 q.S21 ((band table2 g a 1).re * 1e-12) ∧ App 2e-12 5e-22 q.C22 ((band table2 g a 2).re * 1e-12) ∧
      App 2e-12 5e-22 q.S22 (-(band table2 g a 2).im * 1e-12) := by
  intro g a q
  have hu := u_pos
  have hul := u_lt
  obtain ⟨P0, Q0, n0, P1, Q1, n1, P2, Q2, n2⟩ := band_amps
  have near : ∀ e : Row2, Near (rweight e * 1.6e-10) (Rounded.argument fl e.d (Rounded.delaunay2doodson fl (Rounded.fundarg fl s2r t')
      (Rounded.gmst fl s2r t' f tu))) (theta e.d g a) := by
    intro e
    have h1 : (1 : ℝ) ≤ rweight e := by
      have : 1 ≤ rweight e := le_max_left _ _
      exact_mod_cast this
    refine (argument_rounded hf hs e.d (rweight e) h1 (rweight_abs e) tt ut1 hut htt hr hr').cong (Cong.of_eq ?_)
    unfold Doodson.DC.combine theta
    simp only [a, g, dargs, Matrix.cons_val]
  have mem : ∀ {m : ℤ} {e : Row2}, e ∈ bandRows m table2 → e ∈ table2 := fun h => (List.mem_filter.mp h).1
  obtain ⟨s1, s2, s3, s4, s5⟩ := step2_split fl fsin fcos (Rounded.delaunay2doodson fl (Rounded.fundarg fl s2r t') (Rounded.gmst fl s2r t' f tu)) table2 ⟨0, 0, 0, 0, 0⟩
  have A1 := band_app hf (bandRows 0 table2) _ _ (fun e h => (row2_app hf hT (mem h) 4 5 (near e)).1) P0 Q0 (by rw [n0]; norm_num) (by norm_num)
  have A2 := band_app hf (bandRows 1 table2) _ _ (fun e h => (row2_app hf hT (mem h) 0 1 (near e)).2) P1 Q1 (by rw [n1]; norm_num) (by norm_num)
  have A3 := band_app hf (bandRows 1 table2) _ _ (fun e h => (row2_app hf hT (mem h) 2 3 (near e)).1) P1 Q1 (by rw [n1]; norm_num) (by norm_num)
  have A4 := band_app hf (bandRows 2 table2) _ _ (fun e h => (row2_app hf hT (mem h) 6 7 (near e)).1) P2 Q2 (by rw [n2]; norm_num) (by norm_num)
  have A5 := band_app hf (bandRows 2 table2) _ _ (fun e h => (row2_app hf hT (mem h) 8 9 (near e)).2.neg) P2 Q2 (by rw [n2]; norm_num) (by norm_num)
  have neg : ((bandRows 2 table2).map fun e => -((e.ip : ℝ) * Real.sin (theta e.d g a) + e.op * Real.cos (theta e.d g a))).sum = -(band table2 g a 2).im := by
    rw [band_im]
    induction bandRows 2 table2 with
    | nil => simp
    | cons e l ih => simp only [List.map_cons, List.sum_cons, ih]; ring
  rw [← s1, ← band_re] at A1
  rw [← s2, ← band_im] at A2
  rw [← s3, ← band_re] at A3
  rw [← s4, ← band_re] at A4
  rw [← s5, neg] at A5
  have scale : ∀ {P Q : ℝ} {x' x : ℝ}, App (P / 10) (Q * 1.6e-11 + P * (11 * u)) x' x → 0 ≤ P → P ≤ 10000 → 0 ≤ Q → Q ≤ 10000 →
      App (P * 1e-13) (Q * 1.61e-23 + P * 1.5e-27) (fl (x' * lit fl 1e-12)) (x * 1e-12) := by
    intro P Q x' x h p0 p1 q0 q1
    have m := App.lit hf (c := 1e-12) (M := 1e-12) (by norm_num [abs_of_pos])
    refine ((h.mul m).fl hf).mono (le_of_eq (by ring)) ?_
    have h1 := mul_nonneg p0 hu.le
    have h2 := mul_le_mul_of_nonneg_left hul.le p0
    have h4 := mul_le_mul_of_nonneg_left hul.le q0
    have hE : 0 ≤ Q * 1.6e-11 + P * (11 * u) := by positivity
    have hE1 : Q * 1.6e-11 + P * (11 * u) ≤ Q * 1.6e-11 + P * 1.4e-15 := by linarith
    generalize Q * 1.6e-11 + P * (11 * u) = E at *
    have h5 := mul_le_mul_of_nonneg_left hul.le hE
    have h6 := mul_nonneg hE hu.le
    have h7 := mul_le_mul_of_nonneg_right hul.le h6
    have h8 := mul_le_mul_of_nonneg_right hul.le h1
    nlinarith
  have B1 := scale A1 (by norm_num) (by norm_num) (by norm_num) (by norm_num)
  have B2 := scale A2 (by norm_num) (by norm_num) (by norm_num) (by norm_num)
  have B3 := scale A3 (by norm_num) (by norm_num) (by norm_num) (by norm_num)
  have B4 := scale A4 (by norm_num) (by norm_num) (by norm_num) (by norm_num)
  have B5 := scale A5 (by norm_num) (by norm_num) (by norm_num) (by norm_num)
  exact ⟨B1.mono (by norm_num) (by norm_num), B2.mono (by norm_num) (by norm_num), B3.mono (by norm_num) (by norm_num),
    B4.mono (by norm_num) (by norm_num), B5.mono (by norm_num) (by norm_num)⟩

end Verif.RoundedTides
