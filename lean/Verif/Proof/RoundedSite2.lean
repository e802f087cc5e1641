import Verif.Proof.RoundedSite
import Verif.Proof.RoundedStep2
import Verif.Props.SolidTideSite
/-
Helper lemmas for the frequency-dependent part of the displacement of a site in double precision.
-/
namespace Verif.RoundedSite
open Verif Verif.Rounded Verif.Rounding Verif.RoundedCip Verif.RoundedEopTides Verif.RoundedTides Verif.Iau Verif.Fundarg
open Verif.SolidTide (Sph Row7 table7 theta rowOf vsum cart2sph Body)
open Verif.PoleTide (lvlhMul)
open Verif.Angle (sec2rad Cong)
open Verif.EopTides (dargs)

/-- The largest multiplier, at least 1, and the amplitudes in hundredths. -/
def weight7 (e : Row7) : Nat :=
  max 1 (max (max (max e.d.i0.natAbs e.d.i1.natAbs) (max e.d.i2.natAbs e.d.i3.natAbs)) (max e.d.i4.natAbs e.d.i5.natAbs))
def ripN (e : Row7) : Int := (e.rip * 100).num
def ropN (e : Row7) : Int := (e.rop * 100).num
def tipN (e : Row7) : Int := (e.tip * 100).num
def topN (e : Row7) : Int := (e.top * 100).num

theorem weight7_abs (e : Row7) : |(e.d.i0 : ℝ)| ≤ weight7 e ∧ |(e.d.i1 : ℝ)| ≤ weight7 e ∧ |(e.d.i2 : ℝ)| ≤ weight7 e ∧
    |(e.d.i3 : ℝ)| ≤ weight7 e ∧ |(e.d.i4 : ℝ)| ≤ weight7 e ∧ |(e.d.i5 : ℝ)| ≤ weight7 e := by
  simp only [natAbs_cast, Nat.cast_le]
  unfold weight7
  omega

theorem hundredths : ∀ e ∈ table7, e.rip = (ripN e : ℚ) / 100 ∧ e.rop = (ropN e : ℚ) / 100 ∧ e.tip = (tipN e : ℚ) / 100 ∧ e.top = (topN e : ℚ) / 100 ∧
    weight7 e ≤ 4 := by decide +kernel

theorem amps7 :
    (table7.map (amp tipN topN)).sum = 186 ∧ (table7.map (ampw tipN topN weight7)).sum = 242 ∧
    (table7.map (amp ripN ropN)).sum = 1951 ∧ (table7.map (ampw ripN ropN weight7)).sum = 2215 ∧ table7.length = 36 := by
  decide +kernel

/-- An amplitude times a function of the latitude. -/
theorem comp7 {fl : Rounded.Arith} (hf : Faithful fl) (k : ℕ) {A w t' t q' q : ℝ} (A0 : 0 ≤ A) (w1 : 1 ≤ w) (w4 : w ≤ 4)
    (ht : App A (A * (w * 1.61e-10 + 2 * u + 3.2 * u)) t' t) (hq : App 1 (200 * u) q' q) : App A (A * (w * 1.62e-10)) (fl.pr k (t' * q')) (t * q) := by
  have hu := u_pos
  have hul := u_lt
  refine ((ht.mul hq).pr hf k).mono (by linarith) ?_
  have hw : 0 ≤ A * w := by positivity
  have h1 : A ≤ A * w := le_mul_of_one_le_right A0 w1
  have h2 : A * w ≤ A * 4 := mul_le_mul_of_nonneg_left w4 A0
  have h3 := mul_le_mul_of_nonneg_left hul.le A0
  have e : A * (w * 1.61e-10 + 2 * u + 3.2 * u) = A * w * 1.61e-10 + A * u * 5.2 := by ring
  rw [e]
  have g0 : 0 ≤ A * u := by positivity
  have t1 := mul_le_mul_of_nonneg_left hul.le hw
  have t2 := mul_le_mul_of_nonneg_left hul.le g0
  have t3 := mul_le_mul_of_nonneg_left hul.le (mul_nonneg hw hu.le)
  have t4 := mul_le_mul_of_nonneg_left hul.le (mul_nonneg g0 hu.le)
  have p1 := mul_nonneg hw hu.le
  have p2 := mul_nonneg p1 hu.le
  have p3 := mul_nonneg g0 hu.le
  have p4 := mul_nonneg p3 hu.le
  nlinarith

/-- The functions of the latitude. -/
theorem lat7 {fl : Rounded.Arith} (hf : Faithful fl) {fsin fcos : ℝ → ℝ} (hT : Trig fsin fcos) {s : Sph} {rs : V3} (hs : Placed s rs) :
    let φ := (cart2sph rs).lat
    App 1 (200 * u) (fsin s.lat) (Real.sin φ) ∧ App 1 (200 * u) (fl (fl (2 * fsin s.lat) * fcos s.lat)) (Real.sin (2 * φ)) ∧
    App 1 (200 * u) (fl (fl.pr 0 (fcos s.lat * fcos s.lat) - fl.pr 1 (fsin s.lat * fsin s.lat))) (Real.cos (2 * φ)) ∧
    App 1 (200 * u) (fl (fl.pr 17 (fl (1.50 * fsin s.lat) * fsin s.lat) - 0.5)) (3 / 2 * Real.sin φ ^ 2 - 1 / 2) := by
  intro φ
  have hu := u_pos
  obtain ⟨sp, cp⟩ := trig_sc hT (k := 8) (x' := s.lat) (x := (cart2sph rs).lat) ⟨0, by rw [Int.cast_zero, mul_zero, sub_zero]; exact hs.lat⟩
  obtain ⟨a, b⟩ := twice_sc hf 0 1 sp cp (by norm_num) (by norm_num)
  have c := Sc.subf hf 22.1 (Sc.mulp hf 17 (Sc.mulf hf (Sc.num 1.50) sp) sp) (Sc.num 0.5)
  have hs2 := Real.sin_sq_le_one φ
  have hs0 := sq_nonneg (Real.sin φ)
  refine ⟨⟨Real.abs_sin_le_one _, sp.2.trans (by linarith)⟩, ⟨Real.abs_sin_le_one _, ?_⟩, ⟨Real.abs_cos_le_one _, ?_⟩, ⟨?_, ?_⟩⟩
  · rw [Real.sin_two_mul]; exact a.2.trans (by linarith)
  · rw [Real.cos_two_mul', sq, sq]; exact b.2.trans (by linarith)
  · rw [abs_le]; constructor <;> linarith
  · have := c.2
    have e : 3 / 2 * Real.sin φ ^ 2 - 1 / 2 = 1.50 * Real.sin φ * Real.sin φ - 0.5 := by norm_num; ring
    rw [e]
    refine le_trans this ?_
    linarith

/-- The angle of a diurnal constituent. -/
theorem diurnal_near {fl : Rounded.Arith} (hf : Faithful fl) {d : Doodson.DC} {f : Fin 6 → ℝ} {s : Sph} {rs : V3} (hs : Placed s rs) {w θ : ℝ} (w1 : 1 ≤ w)
    (h : Near (w * 1.6e-10) (Rounded.argument fl d f) θ) :
    Near (w * 1.61e-10) (Rounded.anp fl (fl (Rounded.argument fl d f + s.lon))) (θ + (cart2sph rs).lon) := by
  have hu := u_pos
  have hul := u_lt
  obtain ⟨hb1, hb2⟩ := D2PI_bounds hf
  have hr := anp_range hf
  have ha : |Rounded.argument fl d f| ≤ 6.3 := by
    unfold Rounded.argument
    rw [abs_le]
    have := hr (fl (fl (fl (fl (fl (fl.pr 0 (f 0 * d.i0) + fl.pr 1 (f 1 * d.i1)) + fl.pr 2 (f 2 * d.i2)) + fl.pr 3 (f 3 * d.i3)) + fl.pr 4 (f 4 * d.i4)) + fl.pr 5 (f 5 * d.i5)))
    constructor <;> linarith
  have hl := hs.turn
  have n1 := h.add hs.lon
  have hM : |Rounded.argument fl d f + s.lon| ≤ 13.3 := (abs_add_le _ _).trans (by linarith)
  have n2 := n1.fl hf hM
  have hfl : |fl (Rounded.argument fl d f + s.lon)| ≤ 13.4 := by
    have h2 := (App.fl hf (App.exact (x := Rounded.argument fl d f + s.lon))).abs'
    rw [add_zero, zero_add] at h2
    nlinarith [abs_nonneg (Rounded.argument fl d f + s.lon)]
  refine ((anp_near hf _).trans n2).mono ?_
  nlinarith

/-- East, north and radial part of one constituent, in millimetres. -/
noncomputable def part7 (g : ℝ) (a : Fin 5 → ℝ) (lon lat : ℝ) (r : Row7) : V3 :=
  let θ := theta r.d g a
  if r.d.i0 = 1 then
    ⟨(r.tip * Real.cos (θ + lon) - r.top * Real.sin (θ + lon)) * Real.sin lat, (r.tip * Real.sin (θ + lon) + r.top * Real.cos (θ + lon)) * Real.cos (2 * lat),
      (r.rip * Real.sin (θ + lon) + r.rop * Real.cos (θ + lon)) * Real.sin (2 * lat)⟩
  else
    ⟨0, (r.tip * Real.cos θ + r.top * Real.sin θ) * Real.sin (2 * lat), (r.rip * Real.cos θ + r.rop * Real.sin θ) * (3 / 2 * Real.sin lat ^ 2 - 1 / 2)⟩

theorem part7_row (g : ℝ) (a : Fin 5 → ℝ) (lon lat : ℝ) (r : Row7) : lvlhMul lat lon (part7 g a lon lat r) = rowOf g a lon lat r := by
  rw [SolidTide.lvlh_enu]
  unfold part7 rowOf
  simp only
  split_ifs
  · rfl
  · rw [mul_comm (3 / 2 * Real.sin lat ^ 2 - 1 / 2)]

theorem row7_app {fl : Rounded.Arith} (hf : Faithful fl) {fsin fcos : ℝ → ℝ} (hT : Trig fsin fcos) {s : Sph} {rs : V3} (hs : Placed s rs) {e : Row7}
    (he : e ∈ table7) {f : Fin 6 → ℝ} {g : ℝ} {a : Fin 5 → ℝ} (hθ : Near (weight7 e * 1.6e-10) (Rounded.argument fl e.d f) (theta e.d g a)) :
    let v' := rowTerm fl fsin fcos f s e
    let v := part7 g a (cart2sph rs).lon (cart2sph rs).lat e
    App ((amp tipN topN e : ℝ) * (1 / 100)) ((ampw tipN topN weight7 e : ℝ) * (1 / 100 * 1.62e-10)) v'.x v.x ∧
    App ((amp tipN topN e : ℝ) * (1 / 100)) ((ampw tipN topN weight7 e : ℝ) * (1 / 100 * 1.62e-10)) v'.y v.y ∧
    App ((amp ripN ropN e : ℝ) * (1 / 100)) ((ampw ripN ropN weight7 e : ℝ) * (1 / 100 * 1.62e-10)) v'.z v.z := by
  intro v' v
  have hu := u_pos
  have hul := u_lt
  obtain ⟨h1, h2, h3, h4, h5⟩ := hundredths e he
  have w4 : (weight7 e : ℝ) ≤ 4 := by exact_mod_cast h5
  have w1 : (1 : ℝ) ≤ weight7 e := by
    have : 1 ≤ weight7 e := le_max_left _ _
    exact_mod_cast this
  have ab : ∀ {q : ℚ} {z : ℤ}, q = (z : ℚ) / 100 → |(q : ℝ)| ≤ z.natAbs * (1 / 100) := by
    intro q z h
    rw [h]
    push_cast
    rw [abs_div, natAbs_cast, abs_of_pos (by norm_num : (0 : ℝ) < 100)]
    exact le_of_eq (by ring)
  obtain ⟨q1, q2, q3, q4⟩ := lat7 hf hT hs
  have d0 : 0 ≤ (weight7 e : ℝ) * 1.61e-10 + 2 * u := by positivity
  have d1 : (weight7 e : ℝ) * 1.61e-10 + 2 * u ≤ 0.0001 := by linarith
  have ea : ∀ p q : Row7 → ℤ, ((p e).natAbs : ℝ) * (1 / 100) + (q e).natAbs * (1 / 100) = (amp p q e : ℝ) * (1 / 100) := by
    intro p q; unfold amp; push_cast; ring
  have fin : ∀ {p q : Row7 → ℤ} {t' t c' c : ℝ} (k : ℕ), App (((p e).natAbs : ℝ) * (1 / 100) + (q e).natAbs * (1 / 100))
      ((((p e).natAbs : ℝ) * (1 / 100) + (q e).natAbs * (1 / 100)) * (weight7 e * 1.61e-10 + 2 * u + 3.2 * u)) t' t → App 1 (200 * u) c' c →
      App ((amp p q e : ℝ) * (1 / 100)) ((ampw p q weight7 e : ℝ) * (1 / 100 * 1.62e-10)) (fl.pr k (t' * c')) (t * c) := by
    intro p q t' t c' c k ht hc
    rw [ea] at ht
    refine (comp7 hf k (by positivity) w1 w4 ht hc).mono le_rfl (le_of_eq ?_)
    unfold ampw
    push_cast
    ring
  by_cases hd : e.d.i0 = 1
  · have n := diurnal_near hf hs w1 hθ
    have c1 := app_cos hT n
    have s1 := app_sin hT n
    simp only [v', v, rowTerm, part7, if_pos hd]
    exact ⟨fin 2 (term_sub hf d0 d1 c1 s1 3 4 (ab h3) (ab h4)) q1, fin 5 (term_app hf d0 d1 s1 c1 6 7 (ab h3) (ab h4)) q3,
      fin 8 (term_app hf d0 d1 s1 c1 9 10 (ab h1) (ab h2)) q2⟩
  · have n : Near (weight7 e * 1.61e-10) (Rounded.argument fl e.d f) (theta e.d g a) := hθ.mono (by linarith)
    have c1 := app_cos hT n
    have s1 := app_sin hT n
    simp only [v', v, rowTerm, part7, if_neg hd]
    refine ⟨⟨by rw [abs_zero]; positivity, by rw [sub_zero, abs_zero]; positivity⟩, fin 11 (term_app hf d0 d1 c1 s1 12 13 (ab h3) (ab h4)) q2,
      fin 14 (term_app hf d0 d1 c1 s1 15 16 (ab h1) (ab h2)) q4⟩

/-- The loop, one component at a time. -/
theorem loop7_split (fl : Rounded.Arith) (fsin fcos : ℝ → ℝ) (f : Fin 6 → ℝ) (s : Sph) : ∀ (l : List Row7) (v : V3),
    l.foldl (addRow fl fsin fcos f s) v = ⟨l.foldl (fun a c => fl (a + (rowTerm fl fsin fcos f s c).x)) v.x,
      l.foldl (fun a c => fl (a + (rowTerm fl fsin fcos f s c).y)) v.y, l.foldl (fun a c => fl (a + (rowTerm fl fsin fcos f s c).z)) v.z⟩ := by
  intro l
  induction l with
  | nil => intro v; rfl
  | cons c l ih => intro v; rw [List.foldl_cons, ih]; rfl

theorem sum7_app {fl : Rounded.Arith} (hf : Faithful fl) (rows : List Row7) (p q : Row7 → ℤ) (x' x : Row7 → ℝ) {P Q : ℕ}
    (hx : ∀ e ∈ rows, App ((amp p q e : ℝ) * (1 / 100)) ((ampw p q weight7 e : ℝ) * (1 / 100 * 1.62e-10)) (x' e) (x e))
    (hP : (rows.map (amp p q)).sum = P) (hQ : (rows.map (ampw p q weight7)).sum = Q) (hQP : Q ≤ 4 * P) (hPQ : P ≤ Q) (hn : rows.length = 36) :
    App (P * 1e-5) (Q * 1.63e-15) (fl (rows.foldl (fun s e => fl (s + x' e)) 0 * lit fl 1e-3)) ((rows.map x).sum * 1e-3) := by
  have hu := u_pos
  have hul := u_lt
  have e1 : (rows.map fun e => (amp p q e : ℝ) * (1 / 100)).sum = P * (1 / 100) := by rw [sum_cast, hP]
  have e2 : (rows.map fun e => (ampw p q weight7 e : ℝ) * (1 / 100 * 1.62e-10)).sum = Q * (1 / 100 * 1.62e-10) := by rw [sum_cast, hQ]
  have hP0 : (0 : ℝ) ≤ P := Nat.cast_nonneg _
  have hQ0 : (0 : ℝ) ≤ Q := Nat.cast_nonneg _
  have hQ' : (Q : ℝ) ≤ 4 * P := by exact_mod_cast hQP
  have hPQ' : (P : ℝ) ≤ Q := by exact_mod_cast hPQ
  have hPu := mul_nonneg hP0 hu.le
  have hPu' := mul_le_mul_of_nonneg_left hul.le hP0
  have hn : (rows.length : ℝ) = 36 := by rw [hn]; norm_num
  have z0 : App 0 0 (0 : ℝ) 0 := by unfold App; simp
  have fin := fold_app hf _ _ _ _ (W := P * (1 / 100)) rows 0 0 0 0 hx (by
      intro e _; positivity) z0 le_rfl (by rw [e1]; linarith) (by
      rw [e2, hn]; linarith)
  rw [e1, e2, hn, zero_add, zero_add, zero_add] at fin
  have m := App.lit hf (c := 1e-3) (M := 1e-3) (by norm_num [abs_of_pos])
  have f2 : App (P * (1 / 100)) (Q * 1.621e-12) (rows.foldl (fun s e => fl (s + x' e)) 0) (rows.map x).sum := fin.mono le_rfl (by linarith)
  refine ((f2.mul m).fl hf).mono (le_of_eq (by ring)) ?_
  have h4 := mul_le_mul_of_nonneg_left hul.le hQ0
  have h5 := mul_nonneg hQ0 hu.le
  have h6 := mul_le_mul_of_nonneg_left hul.le h5
  have h7 := mul_le_mul_of_nonneg_left hul.le hPu
  nlinarith

/-- A row of the rotation times a vector. -/
theorem dot_app {dot : V3 → V3 → ℝ} (hd : DotProduct dot) {a' a b' b : V3} {X Y Z e₁ e₂ e₃ : ℝ} (ax : Sc 21 1 a'.x a.x) (ay : Sc 21 1 a'.y a.y)
    (az : Sc 21 1 a'.z a.z) (bx : App X e₁ b'.x b.x) (yb : App Y e₂ b'.y b.y) (bz : App Z e₃ b'.z b.z) :
    |dot a' b' - (a.x * b.x + a.y * b.y + a.z * b.z)| ≤ 1.001 * (e₁ + e₂ + e₃) + 25.1 * u * (X + Y + Z) := by
  have hu := u_pos
  have hul := u_lt
  have one : ∀ {c' c y' y Y e : ℝ}, Sc 21 1 c' c → App Y e y' y → App Y (e + 21 * u * Y + 21 * u * e) (c' * y') (c * y) := by
    intro c' c y' y Y e h g
    have h' : App 1 (21 * u) c' c := ⟨h.1, by simpa using h.2⟩
    exact (h'.mul g).mono (by linarith) (by nlinarith)
  have p1 := one ax bx
  have p2 := one ay yb
  have p3 := one az bz
  have s := (p1.add p2).add p3
  have q := hd a' b'
  have t := abs_add_le (dot a' b' - (a'.x * b'.x + a'.y * b'.y + a'.z * b'.z)) (a'.x * b'.x + a'.y * b'.y + a'.z * b'.z - (a.x * b.x + a.y * b.y + a.z * b.z))
  rw [sub_add_sub_cancel] at t
  have g := add_le_add (add_le_add p1.abs' p2.abs') p3.abs'
  have q' := q.trans (mul_le_mul_of_nonneg_left g (by positivity))
  have s2 := s.2
  have hX : 0 ≤ X + Y + Z := by linarith [(abs_nonneg _).trans bx.1, (abs_nonneg _).trans yb.1, (abs_nonneg _).trans bz.1]
  have he : 0 ≤ e₁ + e₂ + e₃ := by linarith [(abs_nonneg _).trans bx.2, (abs_nonneg _).trans yb.2, (abs_nonneg _).trans bz.2]
  have w1 : e₁ + 21 * u * X + 21 * u * e₁ + (e₂ + 21 * u * Y + 21 * u * e₂) + (e₃ + 21 * u * Z + 21 * u * e₃) =
      (e₁ + e₂ + e₃) + 21 * (u * (X + Y + Z)) + 21 * (u * (e₁ + e₂ + e₃)) := by ring
  have w2 : 4 * u * (X + (e₁ + 21 * u * X + 21 * u * e₁) + (Y + (e₂ + 21 * u * Y + 21 * u * e₂)) + (Z + (e₃ + 21 * u * Z + 21 * u * e₃))) =
      4 * (u * (X + Y + Z)) + 4 * (u * (e₁ + e₂ + e₃)) + 84 * (u * (u * (X + Y + Z))) + 84 * (u * (u * (e₁ + e₂ + e₃))) := by ring
  rw [w1] at s2
  rw [w2] at q'
  generalize X + Y + Z = S at *
  generalize e₁ + e₂ + e₃ = E at *
  have a1 := mul_nonneg hu.le hX
  have a2 := mul_nonneg hu.le he
  have a3 := mul_le_mul_of_nonneg_right hul.le hX
  have a4 := mul_le_mul_of_nonneg_right hul.le he
  have a5 := mul_le_mul_of_nonneg_right hul.le a1
  have a6 := mul_le_mul_of_nonneg_right hul.le a2
  linarith

theorem parts_sum (lat lon : ℝ) (p : Row7 → V3) : ∀ l : List Row7,
    lvlhMul lat lon ⟨(l.map fun c => (p c).x).sum * 1e-3, (l.map fun c => (p c).y).sum * 1e-3, (l.map fun c => (p c).z).sum * 1e-3⟩ =
      (1e-3 : ℝ) * vsum (l.map fun c => lvlhMul lat lon (p c)) := by
  intro l
  induction l with
  | nil => unfold lvlhMul vsum; ext <;> simp
  | cons c l ih =>
    have : (1e-3 : ℝ) * vsum ((c :: l).map fun c => lvlhMul lat lon (p c)) = (1e-3 : ℝ) * lvlhMul lat lon (p c) + (1e-3 : ℝ) * vsum (l.map fun c => lvlhMul lat lon (p c)) := by
      simp only [List.map_cons, vsum]
      ext <;> simp <;> ring
    rw [this, ← ih]
    simp only [List.map_cons, List.sum_cons]
    unfold lvlhMul
    ext <;> simp <;> ring

/-- The second step, in the local frame. -/
theorem siteStep2_app {fl : Rounded.Arith} {fsin fcos s2r : ℝ → ℝ} (hf : Faithful fl) (hT : Trig fsin fcos) (hs : SecToRad s2r) (tt ut1 : Epoch)
    {f tu t f' tu' t' : ℝ} (hut : Sees ut1 f tu t) (htt : Sees tt f' tu' t') (hr : |ut1.daysSinceJ2000| ≤ 36525) (hr' : |tt.jcenturies| ≤ 1)
    {s : Sph} {rs : V3} (hp : Placed s rs) :
    let g := eraIers ut1.daysSinceJ2000 + sec2rad (gmstPoly tt.jcenturies)
    let a := dargs tt.jcenturies
    let q := step2 fl fsin fcos (Rounded.gmst fl s2r t' f tu) s (Rounded.fundarg fl s2r t')
    ∃ v : V3, lvlhMul (cart2sph rs).lat (cart2sph rs).lon v = (1e-3 : ℝ) * vsum (table7.map (rowOf g a (cart2sph rs).lon (cart2sph rs).lat)) ∧
      App 0.00186 4e-13 q.x v.x ∧ App 0.00186 4e-13 q.y v.y ∧ App 0.01951 3.62e-12 q.z v.z := by
  intro g a q
  obtain ⟨P1, Q1, P2, Q2, n⟩ := amps7
  have near : ∀ e : Row7, Near (weight7 e * 1.6e-10) (Rounded.argument fl e.d (Rounded.delaunay2doodson fl (Rounded.fundarg fl s2r t')
      (Rounded.gmst fl s2r t' f tu))) (theta e.d g a) := by
    intro e
    have h1 : (1 : ℝ) ≤ weight7 e := by
      have : 1 ≤ weight7 e := le_max_left _ _
      exact_mod_cast this
    refine (argument_rounded hf hs e.d (weight7 e) h1 (weight7_abs e) tt ut1 hut htt hr hr').cong (Cong.of_eq ?_)
    unfold Doodson.DC.combine theta
    simp only [a, g, dargs, Matrix.cons_val]
  have row := fun e he => row7_app hf hT hp he (near e)
  have A1 := sum7_app hf table7 tipN topN _ _ (fun e he => (row e he).1) P1 Q1 (by norm_num) (by norm_num) n
  have A2 := sum7_app hf table7 tipN topN _ _ (fun e he => (row e he).2.1) P1 Q1 (by norm_num) (by norm_num) n
  have A3 := sum7_app hf table7 ripN ropN _ _ (fun e he => (row e he).2.2) P2 Q2 (by norm_num) (by norm_num) n
  refine ⟨_, (parts_sum _ _ (part7 g a (cart2sph rs).lon (cart2sph rs).lat) table7).trans ?_, ?_⟩
  · simp only [part7_row]
  · have e : q = ⟨fl (_ * lit fl 1e-3), fl (_ * lit fl 1e-3), fl (_ * lit fl 1e-3)⟩ := rfl
    rw [loop7_split] at e
    rw [e]
    exact ⟨A1.mono (by norm_num) (by norm_num), A2.mono (by norm_num) (by norm_num), A3.mono (by norm_num) (by norm_num)⟩

end Verif.RoundedSite
