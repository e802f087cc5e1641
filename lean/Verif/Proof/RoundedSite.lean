import Verif.Model.RoundedSite
import Verif.Spec.RoundedSite
import Verif.Proof.RoundedStep2
import Verif.Props.SolidTideSite
/-
Helper lemmas for the displacement of a site in double precision.
-/
namespace Verif.RoundedSite
open Verif Verif.Rounded Verif.Rounding Verif.RoundedCip Verif.RoundedTides Verif.RoundedPoint
open Verif.SolidTide (Sph Body cart2sph)

section
variable {fl : Arith} (hf : Faithful fl)
include hf

theorem nrm_rel {sq : V3 → ℝ} (hq : SumOfSquares sq) (v : V3) : Rel 5.1 (nrm fl sq v) v.norm := by
  have g : Rel 4 (sq v) (v.x * v.x + v.y * v.y + v.z * v.z) := by
    have := hq v
    unfold Rounding.Rel
    rwa [abs_of_nonneg (by nlinarith [mul_self_nonneg v.x, mul_self_nonneg v.y, mul_self_nonneg v.z] : 0 ≤ v.x * v.x + v.y * v.y + v.z * v.z),
      ← pow_two, ← pow_two, ← pow_two]
  have n0 : 0 ≤ v.x * v.x + v.y * v.y + v.z * v.z := by nlinarith [mul_self_nonneg v.x, mul_self_nonneg v.y, mul_self_nonneg v.z]
  exact ((g.sqrt n0 (g.nonneg (by norm_num) n0)).fl hf.toRounds (by norm_num)).mono (by norm_num)

/-- A quotient by the length of a vector. -/
theorem over_norm {sq : V3 → ℝ} (hq : SumOfSquares sq) {v : V3} (hv : 0 < v.norm) (x : ℝ) :
    Sc 6.2 (|x| / v.norm) (fl (x / nrm fl sq v)) (x / v.norm) := by
  have h := ((Sc.exact x).div hv.ne' (nrm_rel hf hq v) (by norm_num) (by norm_num) (by norm_num) (by norm_num)).fl hf (by norm_num)
  rw [abs_of_pos hv] at h
  exact h.mono (by norm_num)

theorem normalized_sc {sq : V3 → ℝ} (hq : SumOfSquares sq) {v : V3} (hv : 0 < v.norm) :
    Sc 6.2 |(SolidTide.unit v).x| (normalized fl sq v).x (SolidTide.unit v).x ∧ Sc 6.2 |(SolidTide.unit v).y| (normalized fl sq v).y (SolidTide.unit v).y ∧
    Sc 6.2 |(SolidTide.unit v).z| (normalized fl sq v).z (SolidTide.unit v).z := by
  have pos : 0 < sq v := by
    have h := hq v
    have hn := SolidTide.norm_sq v
    have : 0 < v.norm ^ 2 := by positivity
    rw [← hn] at h
    have := (abs_le.mp h).1
    nlinarith [u_lt, u_pos]
  unfold normalized
  rw [if_pos pos]
  have e : ∀ x : ℝ, Sc 6.2 |1 / v.norm * x| (fl (x / nrm fl sq v)) (1 / v.norm * x) := by
    intro x
    have h := over_norm hf hq hv x
    rwa [show 1 / v.norm * x = x / v.norm by ring, abs_div, abs_of_pos hv]
  exact ⟨e v.x, e v.y, e v.z⟩

omit hf in
theorem unit_le {v : V3} (hv : 0 < v.norm) : |(SolidTide.unit v).x| ≤ 1 ∧ |(SolidTide.unit v).y| ≤ 1 ∧ |(SolidTide.unit v).z| ≤ 1 := by
  have hn := SolidTide.norm_sq v
  have h : ∀ x : ℝ, x ^ 2 ≤ v.norm ^ 2 → |1 / v.norm * x| ≤ 1 := by
    intro x hx
    have := Real.abs_le_sqrt hx
    rw [Real.sqrt_sq hv.le] at this
    rw [show 1 / v.norm * x = x / v.norm by ring, abs_div, abs_of_pos hv, div_le_one hv]
    exact this
  exact ⟨h _ (by rw [hn]; nlinarith [sq_nonneg v.y, sq_nonneg v.z]), h _ (by rw [hn]; nlinarith [sq_nonneg v.x, sq_nonneg v.z]),
    h _ (by rw [hn]; nlinarith [sq_nonneg v.x, sq_nonneg v.y])⟩

omit hf in
theorem unit_sum {v : V3} (hv : 0 < v.norm) : (SolidTide.unit v).x ^ 2 + (SolidTide.unit v).y ^ 2 + (SolidTide.unit v).z ^ 2 = 1 := by
  have hn := SolidTide.norm_sq v
  have e : ∀ x : ℝ, (1 / v.norm * x) ^ 2 = x ^ 2 / v.norm ^ 2 := fun x => by ring
  show (1 / v.norm * v.x) ^ 2 + (1 / v.norm * v.y) ^ 2 + (1 / v.norm * v.z) ^ 2 = 1
  rw [e, e, e, ← add_div, ← add_div, hn, div_self]
  rw [← hn]; positivity

/-- The cosine of the angle between site and body. -/
theorem cosine_sc {sq : V3 → ℝ} (hq : SumOfSquares sq) {dot : V3 → V3 → ℝ} (hD : DotProduct dot) {v w : V3} (hv : 0 < v.norm) (hw : 0 < w.norm) :
    Sc 16.5 1 (dot (normalized fl sq v) (normalized fl sq w)) ((SolidTide.unit v).dot (SolidTide.unit w)) := by
  obtain ⟨a1, a2, a3⟩ := normalized_sc hf hq hv
  obtain ⟨b1, b2, b3⟩ := normalized_sc hf hq hw
  have h := RoundedTides.dot_sc hD (by norm_num) (by norm_num) (by norm_num) (by norm_num) a1 a2 a3 b1 b2 b3
  refine (h.mono (by norm_num)).le (by norm_num) ?_
  have s1 := unit_sum hv
  have s2 := unit_sum hw
  rw [← sq_abs, ← sq_abs (SolidTide.unit v).y, ← sq_abs (SolidTide.unit v).z] at s1
  rw [← sq_abs, ← sq_abs (SolidTide.unit w).y, ← sq_abs (SolidTide.unit w).z] at s2
  generalize |(SolidTide.unit v).x| = x1 at *
  generalize |(SolidTide.unit v).y| = x2 at *
  generalize |(SolidTide.unit v).z| = x3 at *
  generalize |(SolidTide.unit w).x| = y1 at *
  generalize |(SolidTide.unit w).y| = y2 at *
  generalize |(SolidTide.unit w).z| = y3 at *
  nlinarith [sq_nonneg (x1 - y1), sq_nonneg (x2 - y2), sq_nonneg (x3 - y3)]

/-- Half of a number. -/
theorem half_sc {k M x' x : ℝ} (h : Sc k M x' x) (h0 : 0 ≤ k := by norm_num) (hk : k ≤ 900 := by norm_num) : Sc (k + 1.01) (M / 2) (fl (x' / 2)) (x / 2) := by
  have e : Sc k (M / 2) (x' / 2) (x / 2) := by
    refine ⟨?_, ?_⟩
    · rw [abs_div, abs_two]; linarith [h.1]
    · rw [show x' / 2 - x / 2 = (x' - x) / 2 by ring, abs_div, abs_two]; linarith [h.2]
  exact (e.fl hf (by linarith)).mono (by linarith)

theorem latP_sc {sq : V3 → ℝ} (hq : SumOfSquares sq) {v : V3} (hv : 0 < v.norm) :
    Sc 16.8 2 (latP fl sq v) ((3 * (v.z / v.norm) * (v.z / v.norm) - 1) / 2) := by
  have h := over_norm hf hq hv v.z
  have z1 : |v.z| / v.norm ≤ 1 := by
    have := (unit_le hv).2.2
    rwa [show (SolidTide.unit v).z = v.z / v.norm by show 1 / v.norm * v.z = _; ring, abs_div, abs_of_pos hv] at this
  have s := h.le (by norm_num) z1
  have p := half_sc hf (Sc.subf hf 14.5 (Sc.mulp hf 0 (Sc.mulf hf (Sc.num 3) s) s) (Sc.num 1))
  exact p.abs_le 16.8

theorem love2_sc {sq : V3 → ℝ} (hq : SumOfSquares sq) {v : V3} (hv : 0 < v.norm) :
    Sc 20 0.61 (love2 fl sq v) (0.6078 + (-0.0006) * ((3 * (v.z / v.norm) * (v.z / v.norm) - 1) / 2)) ∧
    Sc 20 0.0852 (shida2 fl sq v) (0.0847 + 0.0002 * ((3 * (v.z / v.norm) * (v.z / v.norm) - 1) / 2)) := by
  have p := latP_sc hf hq hv
  have l : ∀ c : ℝ, 0 ≤ c → Sc 1 c (lit fl c) c := fun c h => Sc.lit hf c (by rw [abs_of_nonneg h])
  have n := Sc.lit hf (c := -0.0006) 0.0006 (by norm_num [abs_of_neg])
  exact ⟨(Sc.addf hf 18.9 (l 0.6078 (by norm_num)) (Sc.mulp hf 1 n p)).abs_le 20, (Sc.addf hf 18.9 (l 0.0847 (by norm_num)) (Sc.mulp hf 2 (l 0.0002 (by norm_num)) p)).abs_le 20⟩

/-- A component of the in-phase part. -/
theorem inComp_sc {h' h l' l R' R q' q us' us ur' ur : ℝ} (hh : Sc 20 0.61 h' h) (hl : Sc 20 0.0852 l' l) (hR : Sc 16.5 1 R' R) (hqq : Sc 6.2 1 q' q)
    (hus : Sc 6.2 1 us' us) (hur : Sc 6.2 1 ur' ur) :
    Sc 76 3.2 (inComp fl h' l' R' q' us' ur')
      ((3 * (R * R) - 1) / 2 * (h * us) + 3 * l * R * (ur - R * us) +
        q * (1 / 2 * ((5 * (R * R * R) - 3 * R) * (0.292 * us)) + 0.015 * (15 * (R * R) - 3) / 2 * (ur - R * us))) := by
  have lp : ∀ c : ℝ, 0 ≤ c → Sc 1 c (lit fl c) c := fun c h => Sc.lit hf c (by rw [abs_of_nonneg h])
  have R2 := Sc.mulf hf hR hR
  have R3 := Sc.mulf hf R2 hR
  have t := Sc.subf hf 23.8 hur (Sc.mulp hf 3 hR hus)
  have a := Sc.mulp hf 4 (Sc.mulf hf hh hus) (half_sc hf (Sc.subf hf 35.2 (Sc.mulp hf 5 (Sc.num 3) R2) (Sc.num 1)))
  have b := Sc.mulp hf 6 (Sc.mulf hf (Sc.mulf hf (Sc.num 3) hl) hR) t
  have dx := Sc.addf hf 66 a b
  have c := half_sc hf (Sc.mulf hf (Sc.mulf hf (lp 0.292 (by norm_num)) hus)
    (Sc.subf hf 52.9 (Sc.mulp hf 8 (Sc.num 5) R3) (Sc.mulp hf 9 (Sc.num 3) hR)))
  have d := Sc.mulp hf 10 (half_sc hf (Sc.mulf hf (lp 0.015 (by norm_num)) (Sc.subf hf 35.2 (Sc.mulp hf 11 (Sc.num 15) R2) (Sc.num 3)))) t
  have e := Sc.mulp hf 7 (Sc.addf hf 66 c d) hqq
  have fin := (Sc.addf hf 74.9 dx e).abs_le (N := 3.2) 76
  have eq : (3 * (R * R) - 1) / 2 * (h * us) + 3 * l * R * (ur - R * us) +
        q * (1 / 2 * ((5 * (R * R * R) - 3 * R) * (0.292 * us)) + 0.015 * (15 * (R * R) - 3) / 2 * (ur - R * us)) =
      h * us * ((3 * (R * R) - 1) / 2) + 3 * l * R * (ur - R * us) +
        (0.292 * us * (5 * (R * R * R) - 3 * R) / 2 + 0.015 * (15 * (R * R) - 3) / 2 * (ur - R * us)) * q := by ring
  rw [eq]
  exact fin

theorem inPhase_sc {sq : V3 → ℝ} (hq : SumOfSquares sq) {dot : V3 → V3 → ℝ} (hD : DotProduct dot) {Re : ℝ} (hR : 0 < Re) {rsta rtb : V3}
    (hs : 0 < rsta.norm) (hb : Re ≤ rtb.norm) :
    let v' := inPhase fl sq dot Re rsta rtb
    let v := SolidTide.inPhase Re rsta rtb
    Sc 76 3.2 v'.x v.x ∧ Sc 76 3.2 v'.y v.y ∧ Sc 76 3.2 v'.z v.z := by
  have hn : 0 < rtb.norm := hR.trans_le hb
  obtain ⟨l1, l2⟩ := love2_sc hf hq hs
  have c := cosine_sc hf hq hD hn hs
  have q : Sc 6.2 1 (fl (Re / nrm fl sq rtb)) (Re / rtb.norm) := (over_norm hf hq hn Re).le (by norm_num) (by rw [abs_of_pos hR, div_le_one hn]; exact hb)
  obtain ⟨a1, a2, a3⟩ := normalized_sc hf hq hs
  obtain ⟨b1, b2, b3⟩ := normalized_sc hf hq hn
  obtain ⟨c1, c2, c3⟩ := unit_le hs
  obtain ⟨d1, d2, d3⟩ := unit_le hn
  exact ⟨inComp_sc hf l1 l2 c q (a1.le (by norm_num) c1) (b1.le (by norm_num) d1), inComp_sc hf l1 l2 c q (a2.le (by norm_num) c2) (b2.le (by norm_num) d2),
    inComp_sc hf l1 l2 c q (a3.le (by norm_num) c3) (b3.le (by norm_num) d3)⟩

theorem siteFac_sc {sq : V3 → ℝ} (hq : SumOfSquares sq) {cube : ℝ → ℝ} (hc : Cube cube) {Re : ℝ} (hR : 0 < Re) {r : V3} (hb : Re ≤ r.norm) (ratio : ℝ) :
    Sc 23.9 (Re * |pull Re ⟨ratio, r⟩|) (fac fl cube sq Re (fl ratio) r) (ratio * (Re / r.norm) ^ 3 * Re) := by
  have hn : 0 < r.norm := hR.trans_le hb
  have q := over_norm hf hq hn Re
  rw [abs_of_pos hR] at q
  have c := q.cube hc (by norm_num) (by norm_num)
  have s := Sc.of_rel (Rel.one hf.toRounds ratio)
  have e : Re * |pull Re ⟨ratio, r⟩| = |ratio| * (Re / r.norm) ^ 3 * Re := by
    unfold pull
    rw [abs_mul, abs_of_nonneg (by positivity : 0 ≤ (Re / r.norm) ^ 3)]; ring
  rw [e]
  exact (Sc.mulf hf (Sc.mulf hf s c) (Sc.num Re hR.le)).mono (by norm_num)

/-- Sine and cosine of twice an angle. -/
theorem twice_sc {k a' s' c' : ℝ} (i j : ℕ) (hs : Sc k 1 s' (Real.sin a')) (hc : Sc k 1 c' (Real.cos a')) (h0 : 0 ≤ k) (hk : k ≤ 50) :
    Sc (2 * k + 2.1) 2 (fl (fl (2 * s') * c')) (2 * Real.sin a' * Real.cos a') ∧
    Sc (2 * k + 2.1) 2 (fl (fl.pr i (c' * c') - fl.pr j (s' * s'))) (Real.cos a' * Real.cos a' - Real.sin a' * Real.sin a') := by
  have n := Sc.mulf hf (Sc.mulf hf (Sc.num 2) hs (hl0 := h0) (hl := by linarith)) hc (h0 := by linarith) (hk := by linarith) (hl0 := h0) (hl := by linarith)
  have a := Sc.mulp hf i hc hc (h0 := h0) (hk := by linarith) (hl0 := h0) (hl := by linarith)
  have b := Sc.mulp hf j hs hs (h0 := h0) (hk := by linarith) (hl0 := h0) (hl := by linarith)
  have d := Sc.subf hf (k + k + 1.01) a b le_rfl le_rfl (by linarith)
  exact ⟨(n.mono (by linarith)).le (by linarith) (by norm_num), (d.mono (by linarith)).le (by linarith) (by norm_num)⟩

/-- The out-of-phase part. -/
theorem outPhase_sc {fsin fcos : ℝ → ℝ} (hT : Trig fsin fcos) {s b : Sph} {rs rb : V3} (hs : Placed s rs) (hb : Placed b rb) :
    let v' := outPhase fl fsin fcos s b
    let v := SolidTide.outPhase (cart2sph rs) (cart2sph rb)
    Sc 130 0.02 v'.x v.x ∧ Sc 130 0.02 v'.y v.y ∧ Sc 130 0.02 v'.z v.z := by
  have hu := u_pos
  obtain ⟨sp, cp⟩ := trig_sc hT (k := 8) (x' := s.lat) (x := (cart2sph rs).lat) ⟨0, by rw [Int.cast_zero, mul_zero, sub_zero]; exact hs.lat⟩
  obtain ⟨sP, cP⟩ := trig_sc hT (k := 8) (x' := b.lat) (x := (cart2sph rb).lat) ⟨0, by rw [Int.cast_zero, mul_zero, sub_zero]; exact hb.lat⟩
  have nd : Near (30 * u) (fl (s.lon - b.lon)) ((cart2sph rs).lon - (cart2sph rb).lon) := by
    have h1 := hs.turn
    have h2 := hb.turn
    exact ((hs.lon.sub hb.lon).fl hf (M := 14) ((abs_sub _ _).trans (by linarith))).mono (by linarith)
  obtain ⟨sl, cl⟩ := trig_sc hT nd
  obtain ⟨s2p, c2p⟩ := twice_sc hf 0 1 sp cp (by norm_num) (by norm_num)
  obtain ⟨s2P, -⟩ := twice_sc hf 0 1 sP cP (by norm_num) (by norm_num)
  obtain ⟨s2l, c2l⟩ := twice_sc hf 2 3 sl cl (by norm_num) (by norm_num)
  have P21 := Sc.mulf hf (Sc.mulf hf (Sc.numneg 3) sP) cP
  have P22 := Sc.mulf hf (Sc.mulf hf (Sc.num 3) cP) cP
  have lp : ∀ c : ℝ, 0 ≤ c → Sc 1 c (lit fl c) c := fun c h => Sc.lit hf c (by rw [abs_of_nonneg h])
  have ln : ∀ c : ℝ, 0 ≤ c → Sc 1 c (lit fl (-c)) (-c) := fun c h => Sc.lit hf c (by rw [abs_neg, abs_of_nonneg h])
  have F18 := Sc.mulf hf (Sc.mulf hf (lp 0.0012 (by norm_num)) sp) P21
  have F19 := Sc.mulf hf (Sc.mulf hf (Sc.mulf hf (Sc.mulf hf (Sc.numneg 0.50) (lp 0.0024 (by norm_num))) sp) cp) P22
  have cP2 := Sc.mulf hf cP cP
  have cp2 := Sc.mulf hf cp cp
  have l7 := Sc.mulf hf (Sc.numneg 1.50) (ln 0.0007 (by norm_num))
  have l7' := Sc.mulf hf (Sc.num 0.75) (ln 0.0007 (by norm_num))
  have h25 := Sc.mulf hf (Sc.numneg 0.75) (ln 0.0025 (by norm_num))
  have h22 := Sc.mulf hf (Sc.numneg 0.75) (ln 0.0022 (by norm_num))
  have x1 := Sc.mulp hf 4 (Sc.mulf hf (Sc.mulf hf l7 s2P) sp) cl
  have x2 := Sc.mulp hf 5 (Sc.mulf hf (Sc.mulf hf l7 cP2) cp) c2l
  have x3 := Sc.mulp hf 6 F18 (Sc.mulf hf c2p.neg sl)
  have x4 := Sc.mulp hf 7 F19 (Sc.mulf hf sp s2l)
  have y1 := Sc.mulp hf 8 (Sc.mulf hf (Sc.mulf hf l7 s2P) c2p) sl
  have y2 := Sc.mulp hf 9 (Sc.mulf hf (Sc.mulf hf l7' cP2) s2p) s2l
  have y3 := Sc.mulp hf 10 F18 (Sc.mulf hf sp cl)
  have y4 := Sc.mulp hf 11 F19 c2l
  have z1 := Sc.mulp hf 12 (Sc.mulf hf (Sc.mulf hf h25 s2P) s2p) sl
  have z2 := Sc.mulp hf 13 (Sc.mulf hf (Sc.mulf hf h22 cP2) cp2) s2l
  have x := Sc.addf hf 126 (Sc.addf hf 110 (Sc.addf hf 105 x1 x2) x3) x4
  have y := Sc.addf hf 126 (Sc.addf hf 124 (Sc.addf hf 122 y1 y2) y3) y4
  have z := Sc.addf hf 128 z1 z2
  exact ⟨x.abs_le 130, y.abs_le 130, z.abs_le 130⟩

/-- Two parts, scaled and added. -/
theorem pair_sc {F G a' a b' b x' x y' y : ℝ} (hx : Sc 76 3.2 x' x) (hy : Sc 76 3.2 y' y) (ha : Sc 23.9 F a' a) (hb : Sc 23.9 G b' b) :
    Sc 102.1 (3.2 * (F + G)) (fl (fl (x' * a') + fl.pr 0 (b' * y'))) (a * x + b * y) := by
  have h := Sc.addf hf 101 (Sc.mulf hf hx ha) (Sc.mulp hf 0 hb hy)
  rw [show a * x + b * y = x * a + b * y by ring]
  exact (h.mono (by norm_num)).le (by norm_num) (le_of_eq (by ring))

theorem pair_out {F G a' a b' b x' x y' y : ℝ} (hx : Sc 130 0.02 x' x) (hy : Sc 130 0.02 y' y) (ha : Sc 23.9 F a' a) (hb : Sc 23.9 G b' b) :
    Sc 157 (0.02 * (F + G)) (fl (fl (0 + fl.pr 1 (x' * a')) + fl.pr 2 (y' * b'))) (a * x + b * y) := by
  have z : Sc 0 0 (0 : ℝ) 0 := by simp [Sc]
  have h := Sc.addf hf 155.94 (Sc.addf hf 154.92 z (Sc.mulp hf 1 hx ha)) (Sc.mulp hf 2 hy hb)
  rw [show a * x + b * y = 0 + x * a + y * b by ring]
  exact (h.mono (by norm_num)).le (by norm_num) (le_of_eq (by ring))

omit hf in
theorem near_trig {x' x : ℝ} (h : Near (8 * u) x' x) :
    Sc 8 1 (Real.sin x') (Real.sin x) ∧ Sc 8 1 (Real.cos x') (Real.cos x) := by
  obtain ⟨k, hk⟩ := h
  have e1 : Real.sin (x + k * (2 * Real.pi)) = Real.sin x := Real.sin_add_int_mul_two_pi x k
  have e2 : Real.cos (x + k * (2 * Real.pi)) = Real.cos x := Real.cos_add_int_mul_two_pi x k
  have hk' : |x' - (x + k * (2 * Real.pi))| ≤ 8 * u := by rwa [show x' - (x + k * (2 * Real.pi)) = x' - x - 2 * Real.pi * k by ring]
  refine ⟨⟨Real.abs_sin_le_one x, ?_⟩, ⟨Real.abs_cos_le_one x, ?_⟩⟩
  · rw [← e1, mul_one]; exact (Real.abs_sin_sub_sin_le _ _).trans hk'
  · rw [← e2, mul_one]; exact (Real.abs_cos_sub_cos_le _ _).trans hk'

omit hf in
/-- The columns of the rotation to the local frame. -/
theorem frame_sc {lv : ℝ → ℝ → V3 × V3 × V3} (hL : Lvlh lv) {s : Sph} {rs : V3} (hs : Placed s rs) :
    let R := lv s.lat s.lon
    let e := PoleTide.east (cart2sph rs).lon (cart2sph rs).lat
    let n := SolidTide.north (cart2sph rs).lon (cart2sph rs).lat
    let p := PoleTide.up (cart2sph rs).lon (cart2sph rs).lat
    (Sc 21 1 R.1.x e.x ∧ Sc 21 1 R.1.y e.y ∧ Sc 21 1 R.1.z e.z) ∧ (Sc 21 1 R.2.1.x n.x ∧ Sc 21 1 R.2.1.y n.y ∧ Sc 21 1 R.2.1.z n.z) ∧
    (Sc 21 1 R.2.2.x p.x ∧ Sc 21 1 R.2.2.y p.y ∧ Sc 21 1 R.2.2.z p.z) := by
  intro R e n p
  have hu := u_pos
  obtain ⟨sf, cf⟩ := near_trig (x' := s.lat) (x := (cart2sph rs).lat) ⟨0, by rw [Int.cast_zero, mul_zero, sub_zero]; exact hs.lat⟩
  obtain ⟨sl, cl⟩ := near_trig (x' := s.lon) (x := (cart2sph rs).lon) hs.lon
  obtain ⟨⟨h1, h2, h3⟩, ⟨h4, h5, h6⟩, ⟨h7, h8, h9⟩⟩ := hL s.lat s.lon
  have tr : ∀ {k x' y x : ℝ}, |x' - y| ≤ 4 * u → Sc k 1 y x → k ≤ 17 → Sc 21 1 x' x := by
    intro k x' y x h g hk
    refine ⟨g.1, ?_⟩
    have := abs_add_le (x' - y) (y - x)
    rw [sub_add_sub_cancel] at this
    have g2 := g.2
    have := mul_le_mul_of_nonneg_right hk hu.le
    linarith
  have m := fun {a' a b' b : ℝ} (h : Sc 8 1 a' a) (g : Sc 8 1 b' b) => (h.mul g (by norm_num) (by norm_num) (by norm_num) (by norm_num)).le (N := 1) (by norm_num) (by norm_num)
  have z : Sc 0 1 (0 : ℝ) 0 := by simp [Sc]
  simp only [PoleTide.east, PoleTide.up, PoleTide.south, SolidTide.north, V3.neg_x, V3.neg_y, V3.neg_z] at h1 h2 h3 h4 h5 h6 h7 h8 h9
  refine ⟨⟨tr h1 sl.neg (by norm_num), tr h2 cl (by norm_num), tr h3 z (by norm_num)⟩, ⟨?_, ?_, ?_⟩, ⟨?_, ?_, ?_⟩⟩
  · exact tr h4 (m sf cl).neg (by norm_num)
  · exact tr h5 (m sf sl).neg (by norm_num)
  · exact tr h6 cf.neg.neg (by norm_num)
  · exact tr h7 (m cf cl) (by norm_num)
  · exact tr h8 (m cf sl) (by norm_num)
  · exact tr h9 sf (by norm_num)

omit hf in
theorem _root_.Verif.Rounding.Sc.shift {k M l N x' x : ℝ} (h : Sc k M x' x) (hM : M ≤ N) (hk : k * M ≤ l * N) : Sc l N x' x :=
  ⟨h.1.trans hM, h.2.trans (by nlinarith [u_pos])⟩

omit hf in
theorem lvlhMulT_eq (lat lon : ℝ) (v : V3) :
    SolidTide.lvlhMulT lat lon v = ⟨(PoleTide.east lon lat).x * v.x + (PoleTide.east lon lat).y * v.y + (PoleTide.east lon lat).z * v.z,
      (SolidTide.north lon lat).x * v.x + (SolidTide.north lon lat).y * v.y + (SolidTide.north lon lat).z * v.z,
      (PoleTide.up lon lat).x * v.x + (PoleTide.up lon lat).y * v.y + (PoleTide.up lon lat).z * v.z⟩ := by
  unfold SolidTide.lvlhMulT SolidTide.north PoleTide.east PoleTide.up PoleTide.south
  ext <;> simp <;> ring

/-- Both parts of step 1, in the local frame. -/
theorem siteStep1_sc {fsin fcos cube : ℝ → ℝ} (hT : Trig fsin fcos) (hc : Cube cube) {sq : V3 → ℝ} (hq : SumOfSquares sq) {dot : V3 → V3 → ℝ}
    (hD : DotProduct dot) {lv : ℝ → ℝ → V3 × V3 × V3} (hL : Lvlh lv) {sph : V3 → Sph} {rsta rMoon rSun : V3} (hs : Placed (sph rsta) rsta)
    (hm : Placed (sph rMoon) rMoon) (hS : Placed (sph rSun) rSun) {Re : ℝ} (hR : 0 < Re) (h0 : 0 < rsta.norm) (hvm : Re ≤ rMoon.norm) (hvs : Re ≤ rSun.norm)
    (sr mr : ℝ) :
    let F := Re * |pull Re ⟨sr, rSun⟩| + Re * |pull Re ⟨mr, rMoon⟩|
    let v' := step1 fl fsin fcos cube sq dot sph lv Re (fl sr) (fl mr) rsta rSun rMoon
    let v := SolidTide.dispStep1 Re sr mr rsta rSun rMoon
    Sc 128.3 (9.7 * F) v'.x v.x ∧ Sc 128.3 (9.7 * F) v'.y v.y ∧ Sc 128.3 (9.7 * F) v'.z v.z := by
  intro F v' v
  have F0 : 0 ≤ F := by positivity
  have fs := siteFac_sc hf hq hc hR hvs sr
  have fm := siteFac_sc hf hq hc hR hvm mr
  obtain ⟨i1, i2, i3⟩ := inPhase_sc hf hq hD hR h0 hvs
  obtain ⟨j1, j2, j3⟩ := inPhase_sc hf hq hD hR h0 hvm
  obtain ⟨o1, o2, o3⟩ := outPhase_sc hf hT hs hS
  obtain ⟨p1, p2, p3⟩ := outPhase_sc hf hT hs hm
  obtain ⟨⟨a1, a2, a3⟩, ⟨b1, b2, b3⟩, ⟨c1, c2, c3⟩⟩ := frame_sc hL hs
  have d1 := pair_sc hf i1 j1 fs fm
  have d2 := pair_sc hf i2 j2 fs fm
  have d3 := pair_sc hf i3 j3 fs fm
  have e1 := (pair_out hf o1 p1 fs fm).shift (l := 31.4) (N := 0.1 * F) (by linarith) (by simp only [F]; linarith)
  have e2 := (pair_out hf o2 p2 fs fm).shift (l := 31.4) (N := 0.1 * F) (by linarith) (by simp only [F]; linarith)
  have e3 := (pair_out hf o3 p3 fs fm).shift (l := 31.4) (N := 0.1 * F) (by linarith) (by simp only [F]; linarith)
  have comb : ∀ {r' r g' g : V3} {x' x : ℝ}, Sc 21 1 r'.x r.x → Sc 21 1 r'.y r.y → Sc 21 1 r'.z r.z → Sc 102.1 (3.2 * F) g'.x g.x → Sc 102.1 (3.2 * F) g'.y g.y →
      Sc 102.1 (3.2 * F) g'.z g.z → Sc 31.4 (0.1 * F) x' x → Sc 128.3 (9.7 * F) (fl (x' + dot r' g')) (x + (r.x * g.x + r.y * g.y + r.z * g.z)) := by
    intro r' r g' g x' x h1 h2 h3 k1 k2 k3 hx
    have q := RoundedTides.dot_sc hD (by norm_num) (by norm_num) (by norm_num) (by norm_num) h1 h2 h3 k1 k2 k3
    exact ((Sc.addf hf 127.2 hx q).mono (by norm_num)).le (by norm_num) (by linarith)
  simp only [v, SolidTide.dispStep1, lvlhMulT_eq]
  let g : V3 := ((sr * (Re / rSun.norm) ^ 3 * Re : ℝ) * SolidTide.inPhase Re rsta rSun + (mr * (Re / rMoon.norm) ^ 3 * Re : ℝ) * SolidTide.inPhase Re rsta rMoon : V3)
  exact ⟨comb (g := g) a1 a2 a3 d1 d2 d3 e1, comb (g := g) b1 b2 b3 d1 d2 d3 e2, comb (g := g) c1 c2 c3 d1 d2 d3 e3⟩

end

end Verif.RoundedSite
