import Verif.Proof.RoundedGcrs
import Verif.Proof.RoundedCio
import Verif.Props.RoundedCip
import Verif.Props.Gcrs
/-
C105: the rotation from GCRS to ITRS in double precision.
-/
namespace Verif.RoundedGcrs
open Verif Verif.Rounding Verif.Rounded Verif.RoundedCip Verif.Iau
open Verif.Cip.Spec (args uas)
open Verif.EarthRot (poleX poleY locator tioLocator arcsec EopRec)
open Verif.Angle (sec2rad)

/-- A product with t. -/
theorem mul_t {fl : Rounded.Arith} (hf : Faithful fl) (k : ℕ) {t' t M E y' y : ℝ} (ht : App 1 (4 * u) t' t) (h : App M E y' y) (hM : M ≤ 4000) (hE : E ≤ 1) :
    App M (1.0001 * E + 1e-11) (fl.pr k (t' * y')) (t * y) := by
  have hu := u_pos
  have hul := u_lt
  have hM0 : 0 ≤ M := (abs_nonneg _).trans h.1
  have hE0 : 0 ≤ E := (abs_nonneg _).trans h.2
  refine ((ht.mul h).pr hf k).mono (by linarith) ?_
  have h1 := mul_le_mul_of_nonneg_left hM hu.le
  have h2 := mul_le_mul_of_nonneg_left hE hu.le
  have h3 : u * (4 * u * M) ≤ u * 1 := mul_le_mul_of_nonneg_left (by nlinarith) hu.le
  have h4 : u * (4 * u * E) ≤ u * 1 := mul_le_mul_of_nonneg_left (by nlinarith) hu.le
  nlinarith

theorem add_fl {fl : Rounded.Arith} (hf : Faithful fl) {M E x' x N D y' y : ℝ} (hx : App M E x' x) (hy : App N D y' y) (hM : M + N ≤ 100000) (hE : E + D ≤ 1) :
    App (M + N) (E + D + 2e-11) (fl (x' + y')) (x + y) := by
  have hu := u_pos
  have hul := u_lt
  refine ((hx.add hy).fl hf).mono le_rfl ?_
  nlinarith

/-- The CIO locator in double precision, from coordinates of the pole. -/
theorem s06_near {fl : Rounded.Arith} {fsin fcos s2r : ℝ → ℝ} (hf : Faithful fl) (hT : Trig fsin fcos) (hs : SecToRad s2r) {t' t : ℝ} (ht : App 1 (4 * u) t' t)
    {F' F : ℕ → ℝ} (hF : ∀ i < 14, Near 1e-11 (F' i) (F i)) (hb : ∀ i < 14, |F' i| ≤ 6.284) {x' x y' y : ℝ} (hx : App 0.11 2e-15 x' x)
    (hy : App 0.11 2e-15 y' y) : App 0.01 4e-16 (s06 fl fsin fcos s2r F' t' x' y') (Cip.s06Detail F t x y) := by
  have hu := u_pos
  have hul := u_lt
  have hsq := u_sq
  obtain ⟨w0, w1, w2, w3, w4⟩ := weights
  obtain ⟨a0, a1, a2, a3, a4⟩ := amps
  have c4 := plain_sim hf hT hF hb w4 a4 (by norm_num) (by decide)
  have c3 := plain_sim hf hT hF hb w3 a3 (by norm_num) (by decide)
  have c2 := plain_sim hf hT hF hb w2 a2 (by norm_num) (by decide)
  have c1 := plain_sim hf hT hF hb w1 a1 (by norm_num) (by decide)
  have c0 := plain_sim hf hT hF hb w0 a0 (by norm_num) (by decide)
  have ab : ∀ {a b : ℝ}, 0 ≤ a → a ≤ b → |a| ≤ b := fun h h' => by rwa [abs_of_nonneg h]
  have ab' : ∀ {a b : ℝ}, 0 ≤ a → a ≤ b → |-a| ≤ b := fun h h' => by rwa [abs_neg, abs_of_nonneg h]
  push_cast at c4 c3 c2 c1 c0
  -- the series
  have s4 := mul_t hf 3 ht c4 (by norm_num) (by norm_num)
  have s3 := add_fl hf c3 s4 (by norm_num) (by norm_num)
  have s3t := mul_t hf 2 ht s3 (by norm_num) (by norm_num)
  have s2 := add_fl hf c2 s3t (by norm_num) (by norm_num)
  have s2t := mul_t hf 1 ht s2 (by norm_num) (by norm_num)
  have s1 := add_fl hf c1 s2t (by norm_num) (by norm_num)
  have s1t := mul_t hf 0 ht s1 (by norm_num) (by norm_num)
  have s0 := (add_fl hf c0 s1t (by norm_num) (by norm_num)).mono (M' := 3900) (e' := 9e-6) (by norm_num) (by norm_num)
  -- the polynomial
  have l1 : ∀ {c C : ℝ}, |c| ≤ C → App C (C * u) (horner fl t' [c]) c := fun h => by rw [mul_comm]; exact App.lit hf _ h
  have p5 := l1 (c := 15.62) (C := 16) (ab (by norm_num) (by norm_num))
  have p4 := (ht.horner hf (c := 27.98) (C := 28) (ab (by norm_num) (by norm_num)) (by norm_num) p5).mono (M' := 44) (e' := 200 * u)
    (by norm_num) (by nlinarith)
  have p3 := (ht.horner hf (c := -72574.11) (C := 72575) (ab' (by norm_num) (by norm_num)) (by norm_num) p4).mono (M' := 72619)
    (e' := 1.5e5 * u) (by norm_num) (by nlinarith)
  have p2 := (ht.horner hf (c := -122.68) (C := 123) (ab' (by norm_num) (by norm_num)) (by norm_num) p3).mono (M' := 72742)
    (e' := 6e5 * u) (by norm_num) (by nlinarith)
  have p1 := (ht.horner hf (c := 3808.65) (C := 3809) (ab (by norm_num) (by norm_num)) (by norm_num) p2).mono (M' := 76551)
    (e' := 1.1e6 * u) (by norm_num) (by nlinarith)
  have p0 := (ht.horner hf (c := 94) (C := 94) (ab (by norm_num) le_rfl) (by norm_num) p1).mono (M' := 76645)
    (e' := 1e-9) (by norm_num) (by nlinarith)
  have sum := (add_fl hf s0 p0 (by norm_num) (by norm_num)).mono (M' := 80600) (e' := 9.01e-6) (by norm_num) (by norm_num)
  have a := ((sum.mul (App.lit hf 1e-6 (M := 1e-6) (by rw [abs_of_nonneg (by norm_num)]))).fl hf).mono (M' := 0.081) (e' := 9.02e-12)
    (by norm_num) (by nlinarith)
  have e0 : Cip.s06Detail F t x y = sec2rad ((Cip.plainSum F Cip.c0Series + t * (Cip.plainSum F Cip.c1Series + t * (Cip.plainSum F Cip.c2Series +
      t * (Cip.plainSum F Cip.c3Series + t * Cip.plainSum F Cip.c4Series))) +
      (94 + t * (3808.65 + t * (-122.68 + t * (-72574.11 + t * (27.98 + t * 15.62)))))) * 1e-6) - x * y / 2 := by
    unfold Cip.s06Detail
    simp only
    congr 2
    ring
  rw [e0]
  unfold s06
  simp only
  generalize (Cip.plainSum F Cip.c0Series + t * (Cip.plainSum F Cip.c1Series + t * (Cip.plainSum F Cip.c2Series +
      t * (Cip.plainSum F Cip.c3Series + t * Cip.plainSum F Cip.c4Series))) +
      (94 + t * (3808.65 + t * (-122.68 + t * (-72574.11 + t * (27.98 + t * 15.62)))))) * 1e-6 = w at *
  generalize fl (fl (fl (plainSum fl fsin fcos F' Cip.c0Series + fl.pr 0 (t' * fl (plainSum fl fsin fcos F' Cip.c1Series + fl.pr 1 (t' *
    fl (plainSum fl fsin fcos F' Cip.c2Series + fl.pr 2 (t' * fl (plainSum fl fsin fcos F' Cip.c3Series + fl.pr 3 (t' *
      plainSum fl fsin fcos F' Cip.c4Series)))))))) + horner fl t' [94, 3808.65, -122.68, -72574.11, 27.98, 15.62]) * lit fl 1e-6) = w' at *
  -- radians
  have hp := Real.pi_pos
  have hp1 := pi_lt
  have hc : (0 : ℝ) < 2 * Real.pi / 1296000 := by positivity
  have hcl : 2 * Real.pi / 1296000 ≤ 4.85e-6 := by rw [div_le_iff₀ (by norm_num)]; linarith
  have r : App 4e-7 5e-17 (s2r w') (sec2rad w) := by
    have h1 := hs w'
    have h2 : |w' * (2 * Real.pi / 1296000)| ≤ 0.082 * 4.85e-6 := by
      rw [abs_mul, abs_of_pos hc]
      exact mul_le_mul (a.abs'.trans (by norm_num)) hcl hc.le (by norm_num)
    have h3 : |(w' - w) * (2 * Real.pi / 1296000)| ≤ 9.02e-12 * 4.85e-6 := by
      rw [abs_mul, abs_of_pos hc]
      exact mul_le_mul a.2 hcl hc.le (by norm_num)
    have h4 : |sec2rad w| ≤ 0.081 * 4.85e-6 := by
      unfold sec2rad
      rw [abs_mul, abs_of_pos hc]
      exact mul_le_mul a.1 hcl hc.le (by norm_num)
    refine ⟨h4.trans (by norm_num), ?_⟩
    have e : s2r w' - sec2rad w = (s2r w' - w' * (2 * Real.pi / 1296000)) + (w' - w) * (2 * Real.pi / 1296000) := by
      unfold sec2rad; ring
    rw [e]
    refine (abs_add_le _ _).trans ((add_le_add (h1.trans (mul_le_mul_of_nonneg_left h2 (by positivity))) h3).trans ?_)
    nlinarith
  have xy := ((hx.mul hy).fl hf).mono (M' := 0.0121) (e' := 4.5e-16) (by norm_num) (by nlinarith)
  have xy2 : App 0.00605 2.25e-16 (fl (x' * y') / 2) (x * y / 2) := by
    refine ⟨?_, ?_⟩
    · rw [abs_div, abs_two]; have := xy.1; linarith
    · rw [← sub_div, abs_div, abs_two]; have := xy.2; linarith
  have fin := ((r.sub ((xy2.fl hf).mono (M' := 0.00605) (e' := 2.3e-16) le_rfl (by nlinarith))).fl hf)
  exact fin.mono (by norm_num) (by nlinarith)

theorem app_args {t' t : ℝ} (ht : |t' - t| ≤ 4 * u) (hr : |t| ≤ 1) : App 1 (4 * u) t' t := ⟨hr, ht⟩

/-- Arcseconds, converted to radians. -/
theorem arcsec_near {s2r : ℝ → ℝ} (hs : SecToRad s2r) {x : ℝ} (hx : |x| ≤ 3600) : App 0.0175 1e-17 (s2r x) (arcsec x) := by
  have hu := u_pos
  have hul := u_lt
  have hp := Real.pi_pos
  have hp1 := pi_lt
  have hc : (0 : ℝ) < 2 * Real.pi / 1296000 := by positivity
  have e : arcsec x = x * (2 * Real.pi / 1296000) := by unfold EarthRot.arcsec; ring
  have h1 : |x * (2 * Real.pi / 1296000)| ≤ 0.0175 := by
    rw [abs_mul, abs_of_pos hc]
    have := mul_le_mul_of_nonneg_right hx hc.le
    linarith
  rw [e]
  refine ⟨h1, (hs x).trans ?_⟩
  have := mul_le_mul_of_nonneg_left h1 (by positivity : 0 ≤ 4 * u)
  linarith

/-- C105: within a century of J2000 the CIO locator s, computed in double precision from the coordinates and arguments that come with it, is
that of the Conventions to 4e-16 rad. -/
theorem cio_rounded {fl : Rounded.Arith} {fsin fcos s2r : ℝ → ℝ} (hf : Faithful fl) (hT : Trig fsin fcos) (hs : SecToRad s2r) {t' t : ℝ}
    (ht : |t' - t| ≤ 4 * u) (hr : |t| ≤ 1) : ∃ x y, xycip06a fl fsin fcos s2r t' = .ok (x, y) ∧ |x - poleX t| ≤ 2e-15 ∧ |y - poleY t| ≤ 2e-15 ∧
      |s06 fl fsin fcos s2r (fun i => (fargs14 fl s2r t').getD i 0) t' x y - locator t| ≤ 4e-16 ∧
      |locator t| ≤ 0.01 := by
  obtain ⟨x, y, h1, hx, hy⟩ := cip_rounded hf hT hs ht hr
  have hF := args_rounded hf hs ht hr
  obtain ⟨bx, bY⟩ := Cip.XY_bound (args t) (t := t) (by linarith)
  refine ⟨x, y, h1, hx, hy, And.symm ?_⟩
  have := s06_near hf hT hs (app_args ht hr) (fun i hi => (hF i hi).1) (fun i hi => (hF i hi).2) (x' := x) (x := poleX t) (y' := y) (y := poleY t)
    ⟨bx, hx⟩ ⟨bY, hy⟩
  rwa [Cip.s06Detail_eq] at this

/-- C105: within a century of J2000 the TIO locator s' is that of the Conventions to 1e-24 rad. -/
theorem tio_rounded {fl : Rounded.Arith} {s2r : ℝ → ℝ} (hf : Faithful fl) (hs : SecToRad s2r) {t' t : ℝ} (ht : |t' - t| ≤ 4 * u) (hr : |t| ≤ 1) :
    |sp00 fl s2r t' - tioLocator t| ≤ 1e-24 := by
  have hu := u_pos
  have hul := u_lt
  have hsq := u_sq
  have hp := Real.pi_pos
  have hp1 := pi_lt
  have hc : (0 : ℝ) < 2 * Real.pi / 1296000 := by positivity
  have hcl : 2 * Real.pi / 1296000 ≤ 4.85e-6 := by rw [div_le_iff₀ (by norm_num)]; linarith
  have a := (((App.lit hf (-47e-6) (M := 47e-6) (by rw [abs_neg, abs_of_nonneg (by norm_num)])).mul (app_args ht hr)).fl hf).mono (M' := 47e-6)
    (e' := 7 * 47e-6 * u) (by norm_num) (by nlinarith)
  unfold sp00
  generalize fl (lit fl (-47e-6) * t') = y at a
  have h1 := hs y
  have hy : |y| ≤ 48e-6 := a.abs'.trans (by linarith)
  have h2 : |y * (2 * Real.pi / 1296000)| ≤ 48e-6 * 4.85e-6 := by
    rw [abs_mul, abs_of_pos hc]
    exact mul_le_mul hy hcl hc.le (by norm_num)
  have h3 : |(y - -47e-6 * t) * (2 * Real.pi / 1296000)| ≤ 7 * 47e-6 * u * 4.85e-6 := by
    rw [abs_mul, abs_of_pos hc]
    exact mul_le_mul a.2 hcl hc.le (by positivity)
  have e : s2r y - tioLocator t = (s2r y - y * (2 * Real.pi / 1296000)) + (y - -47e-6 * t) * (2 * Real.pi / 1296000) := by
    unfold EarthRot.tioLocator Cip.Spec.uas; ring
  rw [e]
  refine (abs_add_le _ _).trans ((add_le_add (h1.trans (mul_le_mul_of_nonneg_left h2 (by positivity))) h3).trans ?_)
  nlinarith

theorem Near.of_abs {e x y : ℝ} (h : |x - y| ≤ e) : Near e x y := ⟨0, by simpa using h⟩

theorem close_mono {a b : ℝ} {p q : M3} (h : Close a p q) (hab : a ≤ b) : Close b p q := by
  obtain ⟨h1, h2, h3, h4, h5, h6, h7, h8, h9⟩ := h
  exact ⟨h1.trans hab, h2.trans hab, h3.trans hab, h4.trans hab, h5.trans hab, h6.trans hab, h7.trans hab, h8.trans hab, h9.trans hab⟩

/-- The product of the five rotations. -/
theorem c2i_near {fl : Rounded.Arith} {fsin fcos : ℝ → ℝ} {qmul : Quat → Quat → Quat} (hf : Faithful fl) (hT : Trig fsin fcos) (hm : QuatMul qmul)
    {era' era s' s sp' sp d' d e' e xp' xp yp' yp : ℝ} (hera : Near 1e-12 era' era) (bera : |era'| ≤ 6.284) (hs : |s' - s| ≤ 4e-16) (bs : |s'| ≤ 1)
    (hsp : |sp' - sp| ≤ 1e-24) (bsp : |sp'| ≤ 0.001) (hd : |d' - d| ≤ 4 * u) (bd : |d'| ≤ 2) (he : Near (4 * u) e' e) (be : |e'| ≤ 4)
    (hxp : App 0.0175 1e-17 xp' xp) (hyp : App 0.0175 1e-17 yp' yp) :
    QNear 7.8e-13 (c2i fl fsin fcos qmul era' s' sp' d' e' xp' yp') (EarthRot.c2i era s sp d e xp yp) := by
  have hu := u_pos
  have hul := u_lt
  -- the angle about the third axis
  have b1 : |-sp' - era'| ≤ 6.3 := by
    rw [show -sp' - era' = -(sp' + era') by ring, abs_neg]
    exact (abs_add_le _ _).trans (by linarith)
  have n1 := ((Near.of_abs hsp).neg.sub hera).fl hf b1
  have c1 := abs_fl hf b1
  have b2 : |fl (-sp' - era') + e'| ≤ 10.4 := (abs_add_le _ _).trans (by nlinarith)
  have n2 := (n1.add he).fl hf b2
  have c2 := abs_fl hf b2
  have b3 : |fl (fl (-sp' - era') + e') + s'| ≤ 11.5 := (abs_add_le _ _).trans (by nlinarith)
  have n3 := ((n2.add (Near.of_abs hs)).fl hf b3).mono (e' := 1.006e-12) (by linarith)
  have c3 := abs_fl hf b3
  have qz := (near_Z hf hT n3 (by nlinarith)).mono (e' := 7.6e-13) (by linarith)
  have qx := (near_X hf hT (Near.of_app hyp) (hyp.abs'.trans (by norm_num))).mono (e' := 2.3e-15) (by linarith)
  have qy := (near_Y hf hT (Near.of_app hxp) (hxp.abs'.trans (by norm_num))).mono (e' := 2.3e-15) (by linarith)
  have qd := (near_Y hf hT (Near.of_abs hd).neg (by rw [abs_neg]; linarith)).mono (e' := 2.6e-15) (by linarith)
  have qe := (near_Z hf hT he.neg (by rw [abs_neg]; linarith)).mono (e' := 2.6e-15) (by linarith)
  have m1 := (qx.mul hm qy (by norm_num) (by norm_num)).mono (e' := 6e-15) (by linarith)
  have m2 := (m1.mul hm qz (by norm_num) (by norm_num)).mono (e' := 7.68e-13) (by linarith)
  have m3 := (m2.mul hm qd (by norm_num) (by norm_num)).mono (e' := 7.73e-13) (by linarith)
  exact (m3.mul hm qe (by norm_num) (by norm_num)).mono (by linarith)

/-- C105: for every epoch within a century of J2000 and every EOP record with angles up to a degree, the rotation from GCRS to ITRS computed in
double precision is the inverse of Q R W of the Conventions up to 3.2e-12 in every entry of its matrix, whatever the rounding of ties, the
C library and the order of the sums in products of quaternions. -/
theorem gcrs_to_itrs_rounded {fl : Rounded.Arith} {fsin fcos fatan s2r : ℝ → ℝ} {fatan2 : ℝ → ℝ → ℝ} {qmul : Quat → Quat → Quat} (hf : Faithful fl)
    (hT : Trig fsin fcos) (hI : InverseTrig fatan fatan2) (hs : SecToRad s2r) (hm : QuatMul qmul) (tt ut1 : Epoch) {t f tu t1 : ℝ}
    (ht : |t - tt.jcenturies| ≤ 4 * u) (hu1 : Sees ut1 f tu t1) (hr : |tt.jcenturies| ≤ 1) (hr1 : |ut1.daysSinceJ2000| ≤ 36525) (eops : EopRec)
    (hdX : |eops.dX| ≤ 3600) (hdY : |eops.dY| ≤ 3600) (hxp : |eops.xp| ≤ 3600) (hyp : |eops.yp| ≤ 3600) :
    ∃ q d e, c2i06a fl fsin fcos fatan s2r fatan2 qmul t f tu eops = .ok q ∧
      Real.sin d * Real.cos e = poleX tt.jcenturies + arcsec eops.dX ∧ Real.sin d * Real.sin e = poleY tt.jcenturies + arcsec eops.dY ∧
      0 ≤ d ∧ d ≤ Real.pi / 2 ∧
      Close 3.2e-12 q.mat (EarthRot.celestial d e (locator tt.jcenturies) * EarthRot.spin (eraIers ut1.daysSinceJ2000) *
        EarthRot.polarMotion (tioLocator tt.jcenturies) (arcsec eops.xp) (arcsec eops.yp)).transpose := by
  have hu := u_pos
  have hul := u_lt
  obtain ⟨x, y, h1, hx, hy, hcio, lcio⟩ := cio_rounded hf hT hs ht hr
  obtain ⟨bx, bY⟩ := Cip.XY_bound (args tt.jcenturies) (t := tt.jcenturies) (by linarith)
  have htio := tio_rounded hf hs ht hr
  have hera := era00_rounded hf ut1 hu1 hr1
  have bera : |Rounded.era00 fl f tu| ≤ 6.284 := anp_abs hf _
  have ax : App 0.13 2.1e-15 (fl (x + s2r eops.dX)) (poleX tt.jcenturies + arcsec eops.dX) := by
    refine (((show App 0.11 2e-15 x (poleX tt.jcenturies) from ⟨bx, hx⟩).add (arcsec_near hs hdX)).fl hf).mono (by norm_num) (by linarith)
  have ay : App 0.13 2.1e-15 (fl (y + s2r eops.dY)) (poleY tt.jcenturies + arcsec eops.dY) := by
    refine (((show App 0.11 2e-15 y (poleY tt.jcenturies) from ⟨bY, hy⟩).add (arcsec_near hs hdY)).fl hf).mono (by norm_num) (by linarith)
  have bx' := ax.abs'
  have by' := ay.abs'
  obtain ⟨d0, e0, hsp, nd, ne, be, bd⟩ := spherical_round hf hI (X := fl (x + s2r eops.dX)) (Y := fl (y + s2r eops.dY)) (by linarith) (by linarith)
  -- the exact rotation
  have hin := EarthRot.corrected_inside bx bY hdX hdY
  rw [EarthRot.arcsec_eq, EarthRot.arcsec_eq] at hin
  let a : EarthRot.Args := ⟨poleX tt.jcenturies, poleY tt.jcenturies, locator tt.jcenturies, tioLocator tt.jcenturies, eraIers ut1.daysSinceJ2000,
    eops.dX, eops.dY, eops.xp, eops.yp, eops.lod⟩
  have exc : a.Xc = poleX tt.jcenturies + arcsec eops.dX := by rw [← EarthRot.arcsec_eq]; rfl
  have eyc : a.Yc = poleY tt.jcenturies + arcsec eops.dY := by rw [← EarthRot.arcsec_eq]; rfl
  obtain ⟨q, d, e, hq, hsx, hmat⟩ := EarthRot.c2i06a_matrix a (by rw [exc, eyc]; exact hin)
  obtain ⟨k1, k2, -, k4, k5⟩ := EarthRot.spherical_spec hsx
  have hqe : q = EarthRot.c2i (eraIers ut1.daysSinceJ2000) (locator tt.jcenturies) (tioLocator tt.jcenturies) d e (arcsec eops.xp)
      (arcsec eops.yp) := by
    unfold EarthRot.c2i06a at hq
    rw [hsx] at hq
    simp only [Option.map_some, Option.some.injEq] at hq
    rw [← hq, ← EarthRot.arcsec_eq, ← EarthRot.arcsec_eq]
  rw [exc, eyc] at hsx
  rw [exc] at k1
  rw [eyc] at k2
  -- the locators are small
  have bcio : |s06 fl fsin fcos s2r (fun i => (fargs14 fl s2r t).getD i 0) t x y| ≤ 1 :=
    (App.abs' ⟨lcio, hcio⟩).trans (by norm_num)
  have btio : |sp00 fl s2r t| ≤ 0.001 := by
    refine (App.abs' (M := 1e-9) ⟨?_, htio⟩).trans (by norm_num)
    have hp := Real.pi_pos
    have hp1 := pi_lt
    have e : tioLocator tt.jcenturies = -(47e-6 * (2 * Real.pi / 1296000)) * tt.jcenturies := by
      unfold EarthRot.tioLocator Cip.Spec.uas; ring
    rw [e, abs_mul, abs_neg, abs_of_pos (by positivity)]
    have := mul_le_mul_of_nonneg_left hr (by positivity : 0 ≤ 47e-6 * (2 * Real.pi / 1296000))
    linarith
  have n := c2i_near hf hT hm hera bera hcio bcio htio btio nd bd ne be (arcsec_near hs hxp) (arcsec_near hs hyp)
  have lip := c2i_lip hsx hsp (ax.1.trans (by norm_num)) (ay.1.trans (by norm_num)) (by linarith) (by linarith) (eraIers ut1.daysSinceJ2000)
    (locator tt.jcenturies) (tioLocator tt.jcenturies) (arcsec eops.xp) (arcsec eops.yp)
  have fin := (n.of_norm (lip.trans (add_le_add ax.2 ay.2)) (EarthRot.unit_c2i ..)).mono (e' := 7.9e-13) (by norm_num)
  have hc := fin.mat (by norm_num)
  rw [← hqe, hmat, EarthRot.arcsec_eq, EarthRot.arcsec_eq] at hc
  refine ⟨_, d, e, ?_, k1, k2, k4, k5, close_mono hc (by norm_num)⟩
  unfold c2i06a
  rw [h1]
  rfl

/-- C105: a position turned from GCRS to ITRS by that matrix is wrong by at most 3.2e-12 times the sum of its coordinates, in each coordinate. -/
theorem position_rounded {q' q : M3} {ε : ℝ} (h : Close ε q' q) (v : V3) :
    |(q' * v).x - (q * v).x| ≤ ε * (|v.x| + |v.y| + |v.z|) ∧ |(q' * v).y - (q * v).y| ≤ ε * (|v.x| + |v.y| + |v.z|) ∧
      |(q' * v).z - (q * v).z| ≤ ε * (|v.x| + |v.y| + |v.z|) := by
  obtain ⟨h1, h2, h3, h4, h5, h6, h7, h8, h9⟩ := h
  have key : ∀ {a b c a' b' c' : ℝ}, |a' - a| ≤ ε → |b' - b| ≤ ε → |c' - c| ≤ ε →
      |(a' * v.x + b' * v.y + c' * v.z) - (a * v.x + b * v.y + c * v.z)| ≤ ε * (|v.x| + |v.y| + |v.z|) := by
    intro a b c a' b' c' ha hb hc
    rw [show (a' * v.x + b' * v.y + c' * v.z) - (a * v.x + b * v.y + c * v.z) = (a' - a) * v.x + (b' - b) * v.y + (c' - c) * v.z by ring]
    have k1 := mul_le_mul_of_nonneg_right ha (abs_nonneg v.x)
    have k2 := mul_le_mul_of_nonneg_right hb (abs_nonneg v.y)
    have k3 := mul_le_mul_of_nonneg_right hc (abs_nonneg v.z)
    have m1 := abs_mul (a' - a) v.x
    have m2 := abs_mul (b' - b) v.y
    have m3 := abs_mul (c' - c) v.z
    have t1 := abs_add_le ((a' - a) * v.x + (b' - b) * v.y) ((c' - c) * v.z)
    have t2 := abs_add_le ((a' - a) * v.x) ((b' - b) * v.y)
    linarith
  exact ⟨key h1 h2 h3, key h4 h5 h6, key h7 h8 h9⟩

theorem sum4 {fl : Rounded.Arith} (hf : Faithful fl) (k : ℕ) {p q r s : ℝ} {σ τ υ : ℝ} (hσ : σ = 1 ∨ σ = -1) (hτ : τ = 1 ∨ τ = -1) (hυ : υ = 1 ∨ υ = -1) :
    |fl (fl (fl (fl.pr k p + σ * fl.pr (k + 1) q) + τ * fl.pr (k + 2) r) + υ * fl.pr (k + 3) s) - (p + σ * q + τ * r + υ * s)| ≤ 5 * u * (|p| + |q| + |r| + |s|) := by
  have hu := u_pos
  have hul := u_lt
  have one : ∀ (m : ℕ) (x : ℝ), App |x| (u * |x|) (fl.pr m x) x := fun m x => ⟨le_rfl, hf.prel m x⟩
  have sg : ∀ (m : ℕ) {σ x : ℝ}, (σ = 1 ∨ σ = -1) → App |x| (u * |x|) (σ * fl.pr m x) (σ * x) := by
    rintro m σ x (rfl | rfl)
    · simpa using one m x
    · have := one m x
      refine ⟨by simp, ?_⟩
      rw [show (-1 : ℝ) * fl.pr m x - -1 * x = -(fl.pr m x - x) by ring, abs_neg]
      exact this.2
  have a := abs_nonneg p
  have b := abs_nonneg q
  have c := abs_nonneg r
  have d := abs_nonneg s
  have e1 := (((one k p).add (sg (k + 1) (x := q) hσ)).fl hf).mono (M' := |p| + |q|) (e' := 2.1 * u * (|p| + |q|)) le_rfl (by nlinarith [mul_nonneg hu.le (add_nonneg a b)])
  have e2 := ((e1.add (sg (k + 2) (x := r) hτ)).fl hf).mono (M' := |p| + |q| + |r|) (e' := 3.2 * u * (|p| + |q| + |r|)) le_rfl
    (by nlinarith [mul_nonneg hu.le (add_nonneg a b), mul_nonneg hu.le c])
  have e3 := ((e2.add (sg (k + 3) (x := s) hυ)).fl hf)
  refine e3.2.trans ?_
  nlinarith [mul_nonneg hu.le (add_nonneg a b), mul_nonneg hu.le c, mul_nonneg hu.le d]

/-- The product as it is computed without vector instructions is one of those allowed. -/
theorem product_ok {fl : Rounded.Arith} (hf : Faithful fl) : QuatMul (product fl) := by
  have p1 : (1 : ℝ) = 1 ∨ (1 : ℝ) = -1 := .inl rfl
  have m1 : (-1 : ℝ) = 1 ∨ (-1 : ℝ) = -1 := .inr rfl
  constructor
  · intro a b
    have := sum4 hf 0 (p := a.w * b.w) (q := a.x * b.x) (r := a.y * b.y) (s := a.z * b.z) m1 m1 m1
    simp only [neg_one_mul, ← sub_eq_add_neg] at this
    exact this
  · intro a b
    have := sum4 hf 4 (p := a.w * b.x) (q := a.x * b.w) (r := a.y * b.z) (s := a.z * b.y) p1 p1 m1
    simp only [one_mul, neg_one_mul, ← sub_eq_add_neg] at this
    exact this
  · intro a b
    have := sum4 hf 8 (p := a.w * b.y) (q := a.y * b.w) (r := a.z * b.x) (s := a.x * b.z) p1 p1 m1
    simp only [one_mul, neg_one_mul, ← sub_eq_add_neg] at this
    exact this
  · intro a b
    have := sum4 hf 12 (p := a.w * b.z) (q := a.z * b.w) (r := a.x * b.y) (s := a.y * b.x) p1 p1 m1
    simp only [one_mul, neg_one_mul, ← sub_eq_add_neg] at this
    exact this

/-- Exact functions are accurate. -/
theorem inverse_exact : InverseTrig Real.arctan (fun y x => Complex.arg ⟨x, y⟩) := by
  have hu := u_pos
  refine ⟨fun x => by simp [hu.le], fun y x => ⟨0, by simp [hu.le]⟩, fun y x => ?_⟩
  exact (Complex.abs_arg_le_pi _).trans (by linarith [pi_lt])

/-- The hypotheses can be met: rounding to nearest, whichever products are fused, exact functions of the C library, and the product above, at noon of MJD 56084. -/
example (s : ℕ → Bool) : ∃ q d e, c2i06a (rnArith s) Real.sin Real.cos Real.arctan (fun x => x * (2 * Real.pi / 1296000)) (fun y x => Complex.arg ⟨x, y⟩)
      (product (rnArith s)) ((56084 + 0.5 - 51544.5) / 36525) 0.5 (56084 + 0.5 - 51544.5) ⟨0.1, 0.3, 0.0002, -0.0001, 0.001, 0.0005⟩ = .ok q ∧
    Close 3.2e-12 q.mat (EarthRot.celestial d e (locator (4540 / 36525)) * EarthRot.spin (eraIers 4540) *
        EarthRot.polarMotion (tioLocator (4540 / 36525)) (arcsec 0.1) (arcsec 0.3)).transpose := by
  have hu := u_pos
  let ep : Epoch := ⟨56084, 0.5, by norm_num, by norm_num⟩
  have hd : ep.daysSinceJ2000 = 56084 + 0.5 - 51544.5 := by show ((56084 : ℤ) : ℝ) + 0.5 - 51544.5 = _; norm_num
  have hs : Sees ep 0.5 (56084 + 0.5 - 51544.5) ((56084 + 0.5 - 51544.5) / 36525) :=
    ⟨by simp [ep, hu.le], by rw [hd, sub_self, abs_zero]; positivity, by unfold Epoch.jcenturies; rw [hd, sub_self, abs_zero]; positivity⟩
  have hj : ep.jcenturies = 4540 / 36525 := by unfold Epoch.jcenturies; rw [hd]; norm_num
  have he : ep.daysSinceJ2000 = 4540 := by rw [hd]; norm_num
  obtain ⟨q, d, e, h, -, -, -, -, hc⟩ := gcrs_to_itrs_rounded (t := (56084 + 0.5 - 51544.5) / 36525) (rn_faithful s)
    (show Trig Real.sin Real.cos from ⟨fun x => by simp [hu.le], fun x => by simp [hu.le]⟩) (show InverseTrig Real.arctan _ from inverse_exact) s2r_exact (product_ok (rn_faithful s)) ep ep
    (by rw [hj, show ((56084 : ℝ) + 0.5 - 51544.5) / 36525 = 4540 / 36525 by norm_num, sub_self, abs_zero]; positivity) hs
    (by rw [hj]; norm_num [abs_of_pos]) (by rw [he]; norm_num [abs_of_pos]) ⟨0.1, 0.3, 0.0002, -0.0001, 0.001, 0.0005⟩
    (by norm_num [abs_of_pos]) (by norm_num [abs_of_pos]) (by norm_num [abs_of_pos]) (by norm_num [abs_of_pos])
  rw [hj, he] at hc
  exact ⟨q, d, e, h, hc⟩

end Verif.RoundedGcrs
