import Verif.Model.RoundedAtlas
import Verif.Spec.RoundedAtlas
import Verif.Proof.RoundedEopTides
import Verif.Props.Tide
/-
Helper lemmas for tide models in double precision.
-/
namespace Verif.RoundedAtlas
open Verif Verif.Rounded Verif.Rounding Verif.RoundedCip Verif.RoundedEopTides Verif.Iau Verif.Fundarg Verif.Doodson
open Verif.Tide (Constituent Atlas Admittance SameSize angle)
open Verif.Angle (sec2rad Cong)
open Verif.EopTides (dargs)

/-- A constituent with the factors of its two sets, as computed and as they should be, and a bound for them. -/
structure Item where
  w : Constituent
  c' : ℝ
  s' : ℝ
  c : ℝ
  s : ℝ
  α : ℝ

variable {fl : Rounded.Arith}

theorem accum_ok {m cos sin : Coeffs ℝ} (h1 : cos.rows = m.rows) (h2 : sin.rows = m.rows) (c s : ℝ) :
    accum fl m cos sin c s = .ok { m with
      C := fun i j => fl (m.C i j + fl (fl.pr 0 (cos.C i j * c) + fl.pr 1 (sin.C i j * s)))
      S := fun i j => fl (m.S i j + fl (fl.pr 2 (cos.S i j * c) + fl.pr 3 (sin.S i j * s))) } := by
  unfold accum
  rw [if_neg (by simp [h1, h2]), if_neg (by simp [h1])]

theorem accum_all : ∀ (l : List Item) (m : Coeffs ℝ), (∀ p ∈ l, p.w.cos.rows = m.rows ∧ p.w.sin.rows = m.rows) →
    ∃ m', forEach l (fun p m => accum fl m p.w.cos p.w.sin p.c' p.s') m = .ok m' ∧ m'.deg = m.deg ∧ m'.ord = m.ord ∧ m'.rows = m.rows ∧
      ∀ i j, m'.C i j = l.foldl (fun x p => fl (x + fl (fl.pr 0 (p.w.cos.C i j * p.c') + fl.pr 1 (p.w.sin.C i j * p.s')))) (m.C i j) ∧
        m'.S i j = l.foldl (fun x p => fl (x + fl (fl.pr 2 (p.w.cos.S i j * p.c') + fl.pr 3 (p.w.sin.S i j * p.s')))) (m.S i j) := by
  intro l
  induction l with
  | nil => intro m _; exact ⟨m, rfl, rfl, rfl, rfl, by simp⟩
  | cons p l ih =>
    intro m h
    obtain ⟨h1, h2⟩ := h p (by simp)
    simp only [forEach, accum_ok h1 h2, Res.bind]
    exact ih _ fun q hq => h q (by simp [hq])

/-- A constituent. -/
theorem item_app (hf : Faithful fl) {ε α c' c s' s : ℝ} (e0 : 0 ≤ ε) (e1 : ε ≤ 0.001) (hc : App α (α * ε) c' c) (hs : App α (α * ε) s' s) (k l : ℕ) (a b : ℝ) :
    App (α * (|a| + |b|)) (α * (|a| + |b|) * (ε + 2.1 * u)) (fl (fl.pr k (a * c') + fl.pr l (b * s'))) (a * c + b * s) := by
  have hu := u_pos
  have hul := u_lt
  have α0 : 0 ≤ α := (abs_nonneg _).trans hc.1
  have one : ∀ (m : ℕ) (z : ℝ) {x' x : ℝ}, App α (α * ε) x' x → App (α * |z|) (α * |z| * (ε + 1.01 * u)) (fl.pr m (z * x')) (z * x) := by
    intro m z x' x hx
    refine (((App.exact (x := z)).mul hx).pr hf m).mono (le_of_eq (by ring)) ?_
    have h0 : 0 ≤ α * |z| := by positivity
    have h1 := mul_le_mul_of_nonneg_left e1 (mul_nonneg h0 hu.le)
    nlinarith
  have S := ((one k a hc).add (one l b hs)).fl hf
  have hz : 0 ≤ α * (|a| + |b|) := by positivity
  refine S.mono (le_of_eq (by ring)) ?_
  have e : α * |a| * (ε + 1.01 * u) + α * |b| * (ε + 1.01 * u) = α * (|a| + |b|) * (ε + 1.01 * u) := by ring
  have e' : α * |a| + α * |b| = α * (|a| + |b|) := by ring
  rw [e, e']
  generalize α * (|a| + |b|) = Z at *
  have h1 := mul_le_mul_of_nonneg_left e1 (mul_nonneg hz hu.le)
  have h2 := mul_le_mul_of_nonneg_left hul.le (mul_nonneg hz hu.le)
  nlinarith

theorem sum_le_map {ι : Type} (f : ι → ℝ) (c : ℝ) (l : List ι) : (l.map fun i => f i * c).sum = (l.map f).sum * c := by
  induction l with
  | nil => simp
  | cons i l ih => simp only [List.map_cons, List.sum_cons, ih]; ring

/-- The sum over the constituents, one coefficient. -/
theorem items_app (hf : Faithful fl) {ε : ℝ} (e0 : 0 ≤ ε) (e1 : ε ≤ 0.001) (l : List Item) (hn : l.length ≤ 1000000)
    (h : ∀ p ∈ l, App p.α (p.α * ε) p.c' p.c ∧ App p.α (p.α * ε) p.s' p.s) (k j : ℕ) (a b : Constituent → ℝ) :
    |l.foldl (fun x p => fl (x + fl (fl.pr k (a p.w * p.c') + fl.pr j (b p.w * p.s')))) 0 - (l.map fun p => a p.w * p.c + b p.w * p.s).sum| ≤
      (ε + (2 * l.length + 3) * u) * (l.map fun p => p.α * (|a p.w| + |b p.w|)).sum := by
  have hu := u_pos
  have hul := u_lt
  have hn' : (l.length : ℝ) ≤ 1000000 := by exact_mod_cast hn
  have α0 : ∀ p ∈ l, 0 ≤ p.α := fun p hp => (abs_nonneg _).trans (h p hp).1.1
  have W0 : 0 ≤ (l.map fun p => p.α * (|a p.w| + |b p.w|)).sum := by
    apply List.sum_nonneg
    intro x hx
    obtain ⟨p, hp, rfl⟩ := List.mem_map.mp hx
    exact mul_nonneg (α0 p hp) (by positivity)
  have z0 : App 0 0 (0 : ℝ) 0 := by unfold App; simp
  have hd : (l.map fun p => p.α * (|a p.w| + |b p.w|) * (ε + 2.1 * u)).sum = (l.map fun p => p.α * (|a p.w| + |b p.w|)).sum * (ε + 2.1 * u) := sum_le_map _ _ l
  have fin := fold_app hf _ _ _ _ (W := (l.map fun p => p.α * (|a p.w| + |b p.w|)).sum) l 0 0 0 0
    (fun p hp => item_app hf e0 e1 (h p hp).1 (h p hp).2 k j (a p.w) (b p.w)) (fun p hp => by have := α0 p hp; positivity) z0 le_rfl (by linarith) (by
      rw [hd]
      have h2 := mul_le_mul_of_nonneg_right hn' (by positivity : 0 ≤ 2 * u * (l.map fun p => p.α * (|a p.w| + |b p.w|)).sum)
      have h3 := mul_le_mul_of_nonneg_left hul.le W0
      nlinarith)
  rw [hd, zero_add, zero_add, zero_add] at fin
  refine fin.2.trans ?_
  have := mul_nonneg hu.le W0
  nlinarith

/-- The angle of a constituent. -/
theorem wave_near (hf : Faithful fl) {s2r : ℝ → ℝ} (hs : SecToRad s2r) (tt ut1 : Epoch)
    {f tu t f' tu' t' : ℝ} (hut : Sees ut1 f tu t) (htt : Sees tt f' tu' t') (hr : |ut1.daysSinceJ2000| ≤ 36525) (hr' : |tt.jcenturies| ≤ 1) {w : ℝ} (w1 : 1 ≤ w)
    {d : DC} (hd : Multipliers w d) :
    let a := dargs tt.jcenturies
    Near (w * 1.6e-10) (Rounded.argument fl d (Rounded.delaunay2doodson fl (Rounded.fundarg fl s2r t') (Rounded.gmst fl s2r t' f tu)))
      (angle d (eraIers ut1.daysSinceJ2000 + sec2rad (gmstPoly tt.jcenturies)) (a 0) (a 1) (a 2) (a 3) (a 4)) := by
  intro a
  refine (argument_rounded hf hs d w w1 hd tt ut1 hut htt hr hr').cong (Cong.of_eq ?_)
  unfold Doodson.DC.combine angle
  simp only [a, dargs, Matrix.cons_val]

theorem argument_range (hf : Faithful fl) (d : DC) (f : Fin 6 → ℝ) : |Rounded.argument fl d f| ≤ 6.3 := by
  unfold Rounded.argument
  obtain ⟨h1, h2⟩ := anp_range hf (fl (fl (fl (fl (fl (fl.pr 0 (f 0 * d.i0) + fl.pr 1 (f 1 * d.i1)) + fl.pr 2 (f 2 * d.i2)) + fl.pr 3 (f 3 * d.i3)) +
    fl.pr 4 (f 4 * d.i4)) + fl.pr 5 (f 5 * d.i5)))
  rw [abs_of_nonneg h1]
  linarith [(D2PI_bounds hf).2]

/-- The angle with the phase of the constituent. -/
theorem phase_near (hf : Faithful fl) {w x' x p : ℝ} (w1 : 1 ≤ w) (h : Near (w * 1.6e-10) x' x) (hx : |x'| ≤ 6.3) (hp : |p| ≤ 4) :
    Near (w * 1.61e-10) (fl (x' + fl (fl (p * DPI fl) / 2))) (x + p * (Real.pi / 2)) := by
  have hu := u_pos
  have hul := u_lt
  have P : App 12.6 (13 * u) (p * DPI fl) (p * Real.pi) := by
    refine ((App.exact (x := p)).mul (app_DPI hf)).mono ?_ ?_ <;> nlinarith [abs_nonneg p]
  have Q := P.fl hf
  have hh : App 6.3 (13 * u) (fl (p * DPI fl) / 2) (p * (Real.pi / 2)) := by
    refine ⟨?_, ?_⟩
    · rw [show p * (Real.pi / 2) = p * Real.pi / 2 by ring, abs_div, abs_two]; linarith [Q.1]
    · rw [show fl (p * DPI fl) / 2 - p * (Real.pi / 2) = (fl (p * DPI fl) - p * Real.pi) / 2 by ring, abs_div, abs_two]
      have := Q.2
      nlinarith
  have H := hh.fl hf
  have H' : App 6.3 (20 * u) (fl (fl (p * DPI fl) / 2)) (p * (Real.pi / 2)) := H.mono le_rfl (by nlinarith)
  have s := h.add (Near.of_app H')
  have b : |x' + fl (fl (p * DPI fl) / 2)| ≤ 13 := (abs_add_le _ _).trans (by linarith [H'.abs'])
  exact (s.fl hf b).mono (by nlinarith)

/-- A factor of the admittance matrix. -/
theorem factor_app {mv : (n : ℕ) → (Fin n → ℝ) → (Fin n → ℝ) → ℝ} (hm : InnerProduct mv) {n : ℕ} (hn : n ≤ 1000000) (A c' c : Fin n → ℝ) {δ : ℝ}
    (d1 : δ ≤ 0.0001) (h : ∀ i, App 1 δ (c' i) (c i)) :
    App (∑ i, |A i|) ((∑ i, |A i|) * (δ + (2.1 * n + 1.1) * u)) (mv n A c') (∑ i, A i * c i) := by
  have hu := u_pos
  have S0 : 0 ≤ ∑ i, |A i| := Finset.sum_nonneg fun i _ => abs_nonneg _
  have n0 : (0 : ℝ) ≤ n := Nat.cast_nonneg _
  refine ⟨(Finset.abs_sum_le_sum_abs _ _).trans (Finset.sum_le_sum fun i _ => ?_), ?_⟩
  · rw [abs_mul]; exact mul_le_of_le_one_right (abs_nonneg _) (h i).1
  have q := hm n A c' hn
  have b1 : ∑ i, |A i * c' i| ≤ (∑ i, |A i|) * 1.0001 := by
    rw [Finset.sum_mul]
    refine Finset.sum_le_sum fun i _ => ?_
    rw [abs_mul]
    exact mul_le_mul_of_nonneg_left ((h i).abs'.trans (by linarith)) (abs_nonneg _)
  have b2 : |∑ i, A i * c' i - ∑ i, A i * c i| ≤ (∑ i, |A i|) * δ := by
    rw [← Finset.sum_sub_distrib, Finset.sum_mul]
    refine (Finset.abs_sum_le_sum_abs _ _).trans (Finset.sum_le_sum fun i _ => ?_)
    rw [← mul_sub, abs_mul]
    exact mul_le_mul_of_nonneg_left (h i).2 (abs_nonneg _)
  have t := abs_add_le (mv n A c' - ∑ i, A i * c' i) (∑ i, A i * c' i - ∑ i, A i * c i)
  rw [sub_add_sub_cancel] at t
  have q' := q.trans (mul_le_mul_of_nonneg_left b1 (by positivity))
  have h1 : 0 ≤ (∑ i, |A i|) * u := mul_nonneg S0 hu.le
  have h2 : 0 ≤ (∑ i, |A i|) * u * n := mul_nonneg h1 n0
  nlinarith

end Verif.RoundedAtlas
