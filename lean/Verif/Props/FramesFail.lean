import Verif.Proof.OrientSmall
import Verif.Props.Frames
import Mathlib.Topology.Order.IntermediateValue
import Mathlib.Topology.Algebra.Polynomial
import Mathlib.Analysis.Complex.ExponentialBounds
/-
C99: what check_c2i gets wrong.
-/
namespace Verif.Orient
open Verif Verif.Eop Verif.EopTides Verif.EarthRot Verif.Angle Verif.Harmonic

/-! ### The frame is determined by the Earth orientation -/

/-- The celestial motion in terms of the unit vector of the pole (IERS Conventions, Equation 5.10). -/
noncomputable def poleMatrix (X Y Z : ℝ) : M3 :=
  ⟨1 - X ^ 2 / (1 + Z), -(X * Y) / (1 + Z), X, -(X * Y) / (1 + Z), 1 - Y ^ 2 / (1 + Z), Y, -X, -Y, Z⟩

theorem celestial_pole (d e s : ℝ) (h : 0 ≤ Real.cos d) :
    celestial d e s = poleMatrix (Real.sin d * Real.cos e) (Real.sin d * Real.sin e) (Real.cos d) * R3 s := by
  unfold celestial
  have hz : (1 + Real.cos d) ≠ 0 := by positivity
  have h1 := Real.sin_sq_add_cos_sq d
  have h2 := Real.sin_sq_add_cos_sq e
  have k : Real.sin d ^ 2 = (1 - Real.cos d) * (1 + Real.cos d) := by linear_combination h1
  have : R3 (-e) * R2 (-d) * R3 e = poleMatrix (Real.sin d * Real.cos e) (Real.sin d * Real.sin e) (Real.cos d) := by
    have a1 : (Real.sin d * Real.cos e) ^ 2 / (1 + Real.cos d) = (1 - Real.cos d) * Real.cos e ^ 2 := by
      rw [mul_pow, k]; field_simp
    have a2 : (Real.sin d * Real.sin e) ^ 2 / (1 + Real.cos d) = (1 - Real.cos d) * Real.sin e ^ 2 := by
      rw [mul_pow, k]; field_simp
    have a3 : -(Real.sin d * Real.cos e * (Real.sin d * Real.sin e)) / (1 + Real.cos d) = -((1 - Real.cos d) * (Real.cos e * Real.sin e)) := by
      rw [show Real.sin d * Real.cos e * (Real.sin d * Real.sin e) = Real.sin d ^ 2 * (Real.cos e * Real.sin e) from by ring, k]; field_simp
    unfold poleMatrix R3 R2
    simp only [M3.mul_def, Real.cos_neg, Real.sin_neg, a1, a2, a3]
    ext <;> simp only <;> first | ring1 | linear_combination h2 | linear_combination (Real.cos d) * h2
  rw [this]

/-- C99: the frame is determined by the Earth orientation. -/
theorem frame_unique {t : ℝ} {e : Eops} {M M' : ℝ → M3} (h : Frame t e M) (h' : Frame t e M') : M = M' := by
  obtain ⟨d, ε, a1, a2, a3, a4, a5⟩ := h
  obtain ⟨d', ε', b1, b2, b3, b4, b5⟩ := h'
  have hc : 0 ≤ Real.cos d := Real.cos_nonneg_of_neg_pi_div_two_le_of_le (by linarith) a4
  have hc' : 0 ≤ Real.cos d' := Real.cos_nonneg_of_neg_pi_div_two_le_of_le (by linarith) b4
  have hs : Real.sin d ^ 2 = Real.sin d' ^ 2 := by
    have e1 := Real.sin_sq_add_cos_sq ε
    have e2 := Real.sin_sq_add_cos_sq ε'
    have f1 : Real.sin d * Real.cos ε = Real.sin d' * Real.cos ε' := a1.trans b1.symm
    have f2 : Real.sin d * Real.sin ε = Real.sin d' * Real.sin ε' := a2.trans b2.symm
    have g1 : (Real.sin d * Real.cos ε) ^ 2 = (Real.sin d' * Real.cos ε') ^ 2 := by rw [f1]
    have g2 : (Real.sin d * Real.sin ε) ^ 2 = (Real.sin d' * Real.sin ε') ^ 2 := by rw [f2]
    linear_combination g1 + g2 - Real.sin d ^ 2 * e1 + Real.sin d' ^ 2 * e2
  have hcc : Real.cos d = Real.cos d' := by
    have : Real.cos d ^ 2 = Real.cos d' ^ 2 := by
      have := Real.sin_sq_add_cos_sq d
      have := Real.sin_sq_add_cos_sq d'
      linarith
    exact (pow_left_inj₀ hc hc' two_ne_zero).mp this
  funext x
  rw [a5, b5, celestial_pole d ε _ hc, celestial_pole d' ε' _ hc', a1, a2, b1, b2, hcc]

/-- C99: so are the celestial position and velocity. -/
theorem celestial_unique {t : ℝ} {e : Eops} {r v rc vc rc' vc' : V3} (h : ToCelestial t e r v rc vc) (h' : ToCelestial t e r v rc' vc') :
    rc = rc' ∧ vc = vc' := by
  obtain ⟨M, m1, rfl, m3⟩ := h
  obtain ⟨M', n1, rfl, n3⟩ := h'
  obtain rfl := frame_unique m1 n1
  refine ⟨rfl, ?_⟩
  obtain ⟨x1, x2, x3⟩ := m3
  obtain ⟨y1, y2, y3⟩ := n3
  ext
  · exact x1.unique y1
  · exact x2.unique y2
  · exact x3.unique y3

/-! ### The missing zonal tides -/

/-- Sum of the absolute amplitudes in UT1, 1e-8 s. -/
def ampSum : List ZEntry → ℕ
  | [] => 0
  | e :: l => e.dut1B.natAbs + e.dut1C.natAbs + ampSum l

theorem zonal_le (T : ℝ) : ∀ l : List ZEntry,
    |(l.map fun e => e.dut1B / 1e8 * Real.sin (zonalPhase e T) + e.dut1C / 1e8 * Real.cos (zonalPhase e T)).sum| ≤ ampSum l / 1e8
  | [] => by simp [ampSum]
  | e :: l => by
    have ih := zonal_le T l
    rw [List.map_cons, List.sum_cons]
    refine (abs_add_le _ _).trans ?_
    have a1 := Real.abs_sin_le_one (zonalPhase e T)
    have a2 := Real.abs_cos_le_one (zonalPhase e T)
    have b1 : |(e.dut1B : ℝ)| = (e.dut1B.natAbs : ℝ) := by rw [Nat.cast_natAbs]; simp
    have b2 : |(e.dut1C : ℝ)| = (e.dut1C.natAbs : ℝ) := by rw [Nat.cast_natAbs]; simp
    have c : |(e.dut1B : ℝ) / 1e8 * Real.sin (zonalPhase e T) + e.dut1C / 1e8 * Real.cos (zonalPhase e T)| ≤
        (e.dut1B.natAbs : ℝ) / 1e8 + (e.dut1C.natAbs : ℝ) / 1e8 := by
      refine (abs_add_le _ _).trans ?_
      rw [abs_mul, abs_mul, abs_div, abs_div, b1, b2, abs_of_pos (by norm_num : (0 : ℝ) < 1e8)]
      have c1 : (e.dut1B.natAbs : ℝ) / 1e8 * |Real.sin (zonalPhase e T)| ≤ (e.dut1B.natAbs : ℝ) / 1e8 * 1 :=
        mul_le_mul_of_nonneg_left a1 (by positivity)
      have c2 : (e.dut1C.natAbs : ℝ) / 1e8 * |Real.cos (zonalPhase e T)| ≤ (e.dut1C.natAbs : ℝ) / 1e8 * 1 :=
        mul_le_mul_of_nonneg_left a2 (by positivity)
      linarith
    have d : (ampSum (e :: l) : ℝ) / 1e8 = (e.dut1B.natAbs : ℝ) / 1e8 + (e.dut1C.natAbs : ℝ) / 1e8 + ampSum l / 1e8 := by
      simp only [ampSum]; push_cast; ring
    rw [d]
    linarith

/-- C99: between 2000 and 2020 there is an epoch at which the zonal tides in UT1 are beyond 0.15 s (the node of the Moon at 90 degrees). They are
never beyond 0.18 s. -/
theorem zonal_large : ∃ t : ℝ, 51544.5 ≤ t ∧ t ≤ 58849.5 ∧ zonalUT1 (centuries t) ≤ -0.15 ∧ -0.18 ≤ zonalUT1 (centuries t) := by
  obtain ⟨T, ⟨hT0, hT1⟩, hT⟩ : ∃ T ∈ Set.Icc (0 : ℝ) 0.2, Fundarg.omPoly T = 324000 := by
    have hc : ContinuousOn Fundarg.omPoly (Set.Icc 0 0.2) := by
      unfold Fundarg.omPoly
      fun_prop
    refine intermediate_value_Icc' (by norm_num) hc ⟨?_, ?_⟩
    · unfold Fundarg.omPoly; norm_num
    · unfold Fundarg.omPoly; norm_num
  refine ⟨51544.5 + 36525 * T, by linarith, by linarith, ?_⟩
  have hcT : centuries (51544.5 + 36525 * T) = T := by unfold centuries; ring
  rw [hcT]
  have hom : argOm T = Real.pi / 2 := by
    unfold argOm PoleTide.rad
    rw [hT]; ring
  have hsplit : table81 = table81.dropLast ++ [z 0 0 0 0 1 (-16172681) 0 (-149471) 0 126153 0] := by decide +kernel
  have hrest : ampSum table81.dropLast ≤ 1170000 := by decide +kernel
  have hr : (ampSum table81.dropLast : ℝ) ≤ 1170000 := by exact_mod_cast hrest
  have hb := abs_le.mp (zonal_le T table81.dropLast)
  unfold zonalUT1
  rw [hsplit, List.map_append, List.sum_append, List.map_singleton, List.sum_singleton]
  have hph : zonalPhase (z 0 0 0 0 1 (-16172681) 0 (-149471) 0 126153 0) T = Real.pi / 2 := by
    unfold zonalPhase z
    simp only [Int.cast_zero, Int.cast_one, hom]
    ring
  rw [hph, Real.sin_pi_div_two, Real.cos_pi_div_two]
  simp only [z]
  push_cast
  constructor <;> norm_num at hb ⊢ <;> linarith [hb.1, hb.2]

/-- Rotations keep lengths. -/
theorem norm_rot {A : M3} (h : A.transpose * A = 1) (v : V3) : (A * v).norm = v.norm := by
  unfold V3.norm
  congr 1
  rw [M3.mul_def, M3.one_def] at h
  simp only [M3.transpose, M3.mk.injEq] at h
  obtain ⟨h1, h2, h3, h4, h5, h6, h7, h8, h9⟩ := h
  simp only [M3.mulVec_def, V3.dot]
  linear_combination v.x ^ 2 * h1 + 2 * v.x * v.y * h2 + 2 * v.x * v.z * h3 + v.y ^ 2 * h5 + 2 * v.y * v.z * h6 + v.z ^ 2 * h9

theorem norm_ge_y (v : V3) : |v.y| ≤ v.norm := by
  unfold V3.norm V3.dot
  refine Real.abs_le_sqrt ?_
  nlinarith [sq_nonneg v.x, sq_nonneg v.z]

theorem mulVec_sub (A : M3) (x y : V3) : A * (x - y) = A * x - A * y := by
  simp only [M3.mulVec_def]
  ext <;> simp only [V3.sub_x, V3.sub_y, V3.sub_z] <;> ring

/-- C99: check_c2i transforms with UT1 from which the zonal tides were removed. Between 2000 and 2020 there is an epoch at which this moves a point
at the distance of the surface of the Earth by more than 60 metres in the terrestrial frame, for every Earth orientation. -/
theorem check_c2i_ut1_fails : ∃ t : ℝ, 51544.5 ≤ t ∧ t ≤ 58849.5 ∧ ∀ (e : Eops) (M M' : ℝ → M3), Frame t e M →
    Frame t { e with ut1Tai := e.ut1Tai - zonalUT1 (centuries t), lod := e.lod - zonalLod (centuries t) } M' →
    ∃ r : V3, r.norm = 6378137 ∧ 60 ≤ ((M' 0).transpose * r - (M 0).transpose * r).norm := by
  obtain ⟨t, h0, h1, h2, h3⟩ := zonal_large
  refine ⟨t, h0, h1, fun e M M' hM hM' => ?_⟩
  obtain ⟨d, ε, a1, a2, a3, a4, a5⟩ := hM
  have hM2 : Frame t { e with ut1Tai := e.ut1Tai - zonalUT1 (centuries t), lod := e.lod - zonalLod (centuries t) } fun x =>
      celestial d ε (locator (centuries t)) * spin (Iau.eraIers (t - 51544.5 + (e.ut1Tai - zonalUT1 (centuries t) - 32.184) / 86400) +
        earthRate (e.lod - zonalLod (centuries t)) * x) * polarMotion (tioLocator (centuries t)) (arcsec e.xp) (arcsec e.yp) :=
    ⟨d, ε, a1, a2, a3, a4, fun x => rfl⟩
  obtain rfl := frame_unique hM' hM2
  rw [a5]
  simp only [mul_zero, add_zero]
  set zt := zonalUT1 (centuries t)
  set a := Iau.eraIers (t - 51544.5 + (e.ut1Tai - 32.184) / 86400) with ha
  set δ := -(2 * Real.pi * (1.00273781191135448 * (zt / 86400))) with hδ
  have ha' : Iau.eraIers (t - 51544.5 + (e.ut1Tai - zt - 32.184) / 86400) = a + δ := by
    rw [ha, hδ]; unfold Iau.eraIers; ring
  rw [ha']
  set Q := celestial d ε (locator (centuries t))
  set W := polarMotion (tioLocator (centuries t)) (arcsec e.xp) (arcsec e.yp) with hW
  have rQ : IsRotation Q := (((rot_R3 _).mul (rot_R2 _)).mul (rot_R3 _)).mul (rot_R3 _)
  have rW : IsRotation W := ((rot_R3 _).mul (rot_R2 _)).mul (rot_R1 _)
  have rS : ∀ x, IsRotation (spin x) := fun x => rot_R3 _
  have hp := Real.pi_gt_d2
  have hp2 := Real.pi_lt_d2
  have d1 : 1.07e-5 ≤ δ := by
    rw [hδ]
    nlinarith
  have d2 : δ ≤ 2e-5 := by
    rw [hδ]
    nlinarith
  refine ⟨Q * (spin a * (⟨6378137, 0, 0⟩ : V3)), ?_, ?_⟩
  · rw [norm_rot rQ.2.1, norm_rot (rS a).2.1]
    unfold V3.norm V3.dot
    simp only [mul_zero, add_zero]
    exact Real.sqrt_mul_self (by norm_num)
  · have e1 : (Q * spin a * W).transpose * (Q * (spin a * (⟨6378137, 0, 0⟩ : V3))) = W.transpose * (⟨6378137, 0, 0⟩ : V3) := by
      simp only [M3.transpose_mul, M3.mulVec_mul]
      rw [← M3.mulVec_mul Q.transpose, rQ.2.1, M3.one_mulVec, ← M3.mulVec_mul (spin a).transpose, (rS a).2.1, M3.one_mulVec]
    have e2 : (Q * spin (a + δ) * W).transpose * (Q * (spin a * (⟨6378137, 0, 0⟩ : V3))) =
        W.transpose * (⟨6378137 * Real.cos δ, -(6378137 * Real.sin δ), 0⟩ : V3) := by
      simp only [M3.transpose_mul, M3.mulVec_mul]
      rw [← M3.mulVec_mul Q.transpose, rQ.2.1, M3.one_mulVec, ← M3.mulVec_mul (spin (a + δ)).transpose]
      have : (spin (a + δ)).transpose * spin a = R3 δ := by
        unfold spin
        rw [R3_transpose, R3_mul]
        congr 1
        ring
      rw [this]
      have hv : R3 δ * (⟨6378137, 0, 0⟩ : V3) = ⟨6378137 * Real.cos δ, -(6378137 * Real.sin δ), 0⟩ := by
        simp only [R3, M3.mulVec_def]
        ext <;> simp only <;> ring
      rw [hv]
    rw [e1, e2, ← mulVec_sub, norm_rot (by rw [M3.transpose_transpose]; exact rW.1)]
    refine le_trans ?_ (norm_ge_y _)
    simp only [V3.sub_y, sub_zero, abs_neg]
    have hs : δ - δ ^ 3 / 6 < Real.sin δ := Real.sin_gt_sub_cube (by linarith)
    have hcube : δ ^ 3 ≤ 1e-9 * δ := by
      have : δ ^ 2 ≤ 1e-9 := by nlinarith
      nlinarith
    have : 1e-5 ≤ Real.sin δ := by linarith
    rw [abs_of_nonneg (by linarith)]
    linarith

/-! ### The velocity -/

/-- C99: check_c2i adds the velocity of the rotating Earth where it has to be subtracted: for a point at rest on the equator, seen from the celestial
frame, the position comes out right but the velocity, which should be zero, is more than 900 m/s. -/
theorem check_c2i_velocity_fails (dat : ℝ → ℝ) (tt : Iau.Epoch) (e : Rec ℝ) (ht : |centuries (mjd tt)| ≤ 10) (hX : |e.dX| ≤ 3600) (hY : |e.dY| ≤ 3600)
    (hx : |e.xp| ≤ 60) (hy : |e.yp| ≤ 60) (hl : |e.lod| ≤ 1) (epoch : Costg.Epoch) (a : V3) :
    ∃ q M vc, c2i06aAt (tt2ut1 dat) tt (eopRec e) = .ok (some q) ∧ Frame (mjd tt) ⟨e.xp, e.yp, e.dut - dat (mjd tt), e.lod, e.dX, e.dY⟩ M ∧
      Moves (fun x => M x * (⟨6378137, 0, 0⟩ : V3)) vc 0 ∧
      ∀ d, d = diffOf q e.lod ⟨epoch, M 0 * (⟨6378137, 0, 0⟩ : V3), vc, a⟩ ⟨epoch, ⟨6378137, 0, 0⟩, 0, a⟩ → d.dP = 0 ∧ 900 ≤ d.dV.y := by
  obtain ⟨q, qa, p, dM, N, b1, b2, b3, b4, b5, b6, b7, b8, b9, b10, b11, b12⟩ := transforms dat tt e ht hX hY
  have hm := (moves_frame b8 ⟨6378137, 0, 0⟩ 0).1
  have hzero : ∀ x : ℝ, (⟨6378137, 0, 0⟩ : V3) + x * (0 : V3) = ⟨6378137, 0, 0⟩ := by
    intro x
    ext <;> simp
  simp only [hzero] at hm
  refine ⟨q, N, _, b1, b5, hm, ?_⟩
  rintro d rfl
  have hN : q.mat * N 0 = 1 := by
    have : N 0 = q.mat.transpose := by rw [b6, M3.transpose_transpose]
    rw [this]; exact b7.1
  have hpos : q.mat * (N 0 * (⟨6378137, 0, 0⟩ : V3)) = ⟨6378137, 0, 0⟩ := by rw [← M3.mulVec_mul, hN, M3.one_mulVec]
  have hvel : q.mat * ((N 0) * (0 : V3) + dM.transpose * (⟨6378137, 0, 0⟩ : V3)) = p.mat * V3.cross (axis e.lod) (p.mat.transpose * (⟨6378137, 0, 0⟩ : V3)) := by
    have h0 : (N 0) * (0 : V3) + dM.transpose * (⟨6378137, 0, 0⟩ : V3) = dM.transpose * (⟨6378137, 0, 0⟩ : V3) := by
      simp only [M3.mulVec_def]
      ext <;> simp only [V3.add_x, V3.add_y, V3.add_z, V3.zero_x, V3.zero_y, V3.zero_z] <;> ring
    rw [h0, b10, b9, M3.mulVec_mul, ← M3.mulVec_mul qa.mat, b12.1, M3.one_mulVec]
  constructor
  · unfold diffOf
    simp only [hpos]
    ext <;> simp
  · unfold diffOf
    simp only [hpos, hvel]
    have hcos : ∀ v : ℝ, |v| ≤ 60 → 0.99 ≤ Real.cos (sec2rad v) := by
      intro v hv
      have h1 := Real.one_sub_sq_div_two_le_cos (x := sec2rad v)
      have h2 : |sec2rad v| ≤ 0.01 := by
        unfold sec2rad
        rw [abs_mul, abs_of_pos (show (0 : ℝ) < 2 * Real.pi / 1296000 by positivity)]
        have hp := Real.pi_lt_d2
        have hp0 := Real.pi_pos
        calc |v| * (2 * Real.pi / 1296000) ≤ 60 * (2 * Real.pi / 1296000) := mul_le_mul_of_nonneg_right hv (by positivity)
          _ ≤ 0.01 := by linarith
      have h3 : sec2rad v ^ 2 ≤ 0.0001 := by
        rw [← sq_abs]
        nlinarith [abs_nonneg (sec2rad v)]
      linarith
    have cx := hcos _ hx
    have cy := hcos _ hy
    have hrate : 7.29e-5 ≤ rate e.lod := by
      unfold rate omegaEarth
      have := (abs_le.mp hl).2
      nlinarith
    set c := tioLocator (centuries (mjd tt))
    have hsc := Real.sin_sq_add_cos_sq c
    have hy1 : (p.mat * V3.cross (axis e.lod) (p.mat.transpose * (⟨6378137, 0, 0⟩ : V3))).y =
        6378137 * rate e.lod * (Real.cos (sec2rad e.xp) * Real.cos (sec2rad e.yp)) := by
      rw [b11]
      unfold axis V3.cross R1 R2 R3
      simp only [M3.mulVec_def, M3.mul_def, M3.transpose, Real.cos_neg, Real.sin_neg]
      linear_combination (6378137 * rate e.lod * (Real.cos (sec2rad e.xp) * Real.cos (sec2rad e.yp))) * hsc
    have hy2 : (V3.cross (axis e.lod) (⟨6378137, 0, 0⟩ : V3)).y = 6378137 * rate e.lod := by
      unfold axis V3.cross
      simp only
      ring
    simp only [V3.add_y, V3.sub_y, V3.zero_y, hy1, hy2]
    have hcc : 0.98 ≤ Real.cos (sec2rad e.xp) * Real.cos (sec2rad e.yp) := by nlinarith
    nlinarith [mul_le_mul_of_nonneg_left hcc (by linarith : 0 ≤ rate e.lod)]

/-! ### A long line -/

theorem long_stops {max : Nat} {post : List (List Char)} {l text : List Char} (hl : Costg.IsLines (l :: post) text) (hlong : max ≤ l.length)
    (junk : List ℚ) : ∃ f, Costg.rowsLoop max junk ⟨text, false, false⟩ = .ok ([], f) := by
  have hnl := hl.1 l (by simp)
  have hp : ∀ c ∈ l, (decide (c ≠ '\n')) = true := fun c hc => decide_eq_true (fun he => hnl (he ▸ hc))
  have hz : text.takeWhile (· ≠ '\n') = l := by
    rcases hl.2 with h | ⟨init, last, h, _, h2⟩
    · rw [h]
      simp only [List.flatMap_cons, List.append_assoc]
      rw [List.takeWhile_append_of_pos hp]; simp
    · cases init with
      | nil =>
        simp only [List.nil_append, List.cons.injEq] at h
        rw [h2, ← h.1]
        have := List.takeWhile_append_of_pos (l₂ := []) hp
        simpa using this
      | cons i init =>
        simp only [List.cons_append, List.cons.injEq] at h
        rw [h2, ← h.1]
        simp only [List.flatMap_cons, List.append_assoc]
        rw [List.takeWhile_append_of_pos hp]; simp
  have hg : ∃ b r, In.getline max ⟨text, false, false⟩ = (b, false, ⟨r, false, true⟩) := by
    unfold In.getline
    simp only [Bool.or_self, Bool.false_eq_true, if_false, hz]
    rw [if_neg (by omega)]
    exact ⟨_, _, rfl⟩
  obtain ⟨b, r, hg⟩ := hg
  rw [Costg.rowsLoop]
  split
  · exact ⟨_, rfl⟩
  · rename_i h
    rw [hg] at h
    simp at h

theorem lines_cons {x : List Char} {ls : List (List Char)} {text : List Char} (hne : ls ≠ []) (hl : Costg.IsLines (x :: ls) text) :
    ∃ t, text = x ++ '\n' :: t ∧ Costg.IsLines ls t := by
  rcases hl.2 with h | ⟨init, last, h, hn, h2⟩
  · exact ⟨ls.flatMap (· ++ ['\n']), by rw [h]; simp, fun y hy => hl.1 y (by simp [hy]), Or.inl rfl⟩
  · cases init with
    | nil => simp only [List.nil_append, List.cons.injEq] at h; exact absurd h.2 hne
    | cons i init =>
      simp only [List.cons_append, List.cons.injEq] at h
      exact ⟨init.flatMap (· ++ ['\n']) ++ last, by rw [h2, h.1]; simp, fun y hy => hl.1 y (by simp [hy]), Or.inr ⟨init, last, h.2, hn, rfl⟩⟩

theorem rows_long {max k : Nat} {junk : List ℚ} (hk : junk.length = k + 1) {pre post : List (List Char)} {l : List Char} {rs : List (ℚ × List ℚ)}
    (h : Costg.Rows k pre rs) (hlong : max ≤ l.length) : ∀ t, Costg.IsLines (pre ++ l :: post) t → (∀ x ∈ pre, x.length < max) →
    (∀ r ∈ rs, 0 ≤ r.1 ∧ r.1 < 2147483648) →
    ∃ f, Costg.rowsLoop max junk ⟨t, false, false⟩ = .ok (rs.map fun r => (Costg.epochAt r.1, r.2), f) := by
  induction h with
  | nil => exact fun t hl _ _ => long_stops hl hlong junk
  | @row x ls e v rs hrow hv hrs ih =>
    intro t hl hlen hd
    have hd0 := hd _ (List.mem_cons_self ..)
    have hnl := hl.1 x (by simp)
    obtain ⟨t', ht, hl'⟩ := lines_cons (by simp) hl
    obtain ⟨f, hf⟩ := ih t' hl' (fun y hy => hlen y (by simp [hy])) fun r hr => hd r (by simp [hr])
    rw [ht]
    exact ⟨f, Costg.step_row (Costg.getline_full hnl (hlen x (by simp))) hrow (by rw [hk, hv]) hd0.1 hd0.2 hf⟩
  | @skip x ls rs hrow hrs ih =>
    intro t hl hlen hd
    have hnl := hl.1 x (by simp)
    obtain ⟨t', ht, hl'⟩ := lines_cons (by simp) hl
    obtain ⟨f, hf⟩ := ih t' hl' (fun y hy => hlen y (by simp [hy])) hd
    rw [ht]
    exact ⟨f, by rw [Costg.step_skip (Costg.getline_full hnl (hlen x (by simp))) hrow hk, hf]⟩

/-- C99: i2c_astropy does not look at why reading stopped: with a line of 512 characters or more in the reference orbit it gives the result of the file
cut before that line. The rows after it are not compared, and nothing tells. -/
theorem check_ref_long_fails (tt dat : ℚ → ℚ) (datTT : ℝ → ℝ) (junk : Fin 13 → ℚ) (junkE : List ℚ) (old : Rec ℝ) (eop : Option (List (List Char)))
    {pre post : List (List Char)} {l text : List Char} {rs : List (ℚ × List ℚ)} (hl : Costg.IsLines (pre ++ l :: post) text)
    (hpre : ∀ x ∈ pre, x.length < 512) (hlong : 512 ≤ l.length) (hr : Costg.Rows 12 pre rs) (hd : ∀ r ∈ rs, 0 ≤ r.1 ∧ r.1 < 2147483648) :
    checkRef tt dat datTT junk junkE old (some text) eop =
      checkRef tt dat datTT junk junkE old (some (pre.flatMap (· ++ ['\n']))) eop := by
  have h1 : parseRef junk (some text) = .ok (rs.map fun r => (Costg.epochAt r.1, r.2)) := by
    obtain ⟨f, hf⟩ := rows_long (junk := List.ofFn junk) (by simp) hr hlong text hl hpre hd
    unfold parseRef In.start
    simp only [hf]
    rfl
  have h2 := ref_rows (text := pre.flatMap (· ++ ['\n'])) ⟨⟨pre, ⟨fun x hx => hl.1 x (by simp [hx]), Or.inl rfl⟩, hpre, hr⟩, hd⟩ junk
  unfold checkRef
  rw [h1, h2]

/-! ### Daily records and examples -/

/-- C99: i2c_astropy on daily records whose corrections of the CIP are at most 0.1 arcseconds, at epochs within ten centuries of J2000. -/
theorem check_ref_daily_partial (tt dat : ℚ → ℚ) (datTT : ℝ → ℝ) (junk : Fin 13 → ℚ) {junkE : List ℚ} (hj : 8 ≤ junkE.length) (old : Rec ℝ) {ref : List Char}
    {eop : List (List Char)} {xs : List (ℚ × List ℚ)} {x1 xn : ℚ × List ℚ} {rs : List (Rec ℚ)} (hx : Costg.Table 512 12 ref xs) (h1 : xs.head? = some x1)
    (hn : xs.getLast? = some xn) (hle : x1.1 ≤ xn.1) (he : Costg.Recorded tt dat eop rs) (hd : Daily rs)
    (hC : ∀ r ∈ rs, |r.dX| ≤ 0.1 ∧ |r.dY| ≤ 0.1) (ht : ∀ x ∈ xs, |centuries (ttTai x.1 : ℚ)| ≤ 10)
    (hc : ∀ x ∈ xs, (∃ r ∈ rs, x1.1 - 2 ≤ r.t ∧ r.t < xn.1 + 2 ∧ r.t ≤ ttTai x.1) ∧ ∃ r ∈ rs, x1.1 - 2 ≤ r.t ∧ r.t < xn.1 + 2 ∧ ttTai x.1 < r.t) :
    ∃ Ss, List.Forall₂ (fun x S => ∃ e, OrientedAt (rs.filter fun r => x1.1 - 2 ≤ r.t ∧ r.t < xn.1 + 2) (ttTai x.1 : ℚ) e ∧
        ToCelestial (ttTai x.1 : ℚ) e (Costg.three x.2 0) (Costg.three x.2 3) S.1 S.2) xs Ss ∧
      (List.Forall₂ (fun x S => Agrees x.2 S) xs Ss → checkRef tt dat datTT junk junkE old (some ref) (some eop) = .ok 0) ∧
      (¬ List.Forall₂ (fun x S => Agrees x.2 S) xs Ss → checkRef tt dat datTT junk junkE old (some ref) (some eop) = .abort) :=
  check_ref_partial tt dat datTT junk hj old hx h1 hn hle he hc fun x hx' =>
    small_of_daily (hd.filter _ _) (fun r hr => (hC r (List.mem_of_mem_filter hr)).1) (fun r hr => (hC r (List.mem_of_mem_filter hr)).2) (ht x hx')

theorem exRecs_daily : Daily Costg.exRecs := by
  refine List.isChain_cons_cons.mpr ⟨?_, .singleton _⟩
  decide +kernel

theorem exRecs_small : ∀ r ∈ Costg.exRecs, |r.dX| ≤ 0.1 ∧ |r.dY| ≤ 0.1 := by decide +kernel

/-- check_c2i on an orbit in both frames and a file of Earth orientation: two lines. -/
example (old : Rec ℝ) : ∃ ds : List Diff, checkC2i Costg.exTT (fun _ => 37) (fun _ => 37) (fun _ => 1) (fun _ => 2) (List.replicate 8 2) old
    (some Costg.exOrbit) (some Costg.exOrbit) (some Costg.exC04) = .ok (0, ds.map some) ∧ ds.length = 2 := by
  obtain ⟨ds, h1, h2, -⟩ := check_c2i_partial Costg.exTT (fun _ => 37) (fun _ => 37) (fun _ => 1) (fun _ => 2) (junkE := List.replicate 8 2) (by simp) old
    Costg.exOrbit_table Costg.exOrbit_table Costg.exRecorded (List.prefix_rfl) (by decide +kernel) (by
      intro c hc
      refine small_of_daily (exRecs_daily.filter _ _) (fun r hr => (exRecs_small r (List.mem_of_mem_filter hr)).1)
        (fun r hr => (exRecs_small r (List.mem_of_mem_filter hr)).2) ?_
      simp only [List.mem_cons, List.not_mem_nil, or_false] at hc
      unfold centuries
      have hm : ∀ t : ℚ, t ∈ [(Costg.rowOf Costg.dOrbit1).1, (Costg.rowOf Costg.dOrbit2).1] → |(Costg.mjdTT t - 51544.5) / 36525| ≤ 10 := by decide +kernel
      have := hm c.1 (by rcases hc with rfl | rfl <;> simp)
      have := (Rat.cast_le (K := ℝ)).mpr this
      push_cast at this
      exact this)
  exact ⟨ds, h1, h2⟩

open Verif.Chars

/-- A row of a reference orbit. -/
def dRef1 : List Dec := [Costg.num "58119" "25", Costg.num "7000000" "", Costg.num "0" "", Costg.num "0" "", Costg.num "0" "", Costg.num "7500" "5", Costg.num "0" "", Costg.num "0" "", Costg.num "7000000" "0",
  Costg.num "0" "0", Costg.num "1" "0", Costg.num "2" "0", Costg.num "3" "0"]
def exRef : List Char := Costg.joined dRef1 ++ ['\n']

theorem dRef1_is : LineIs (Costg.joined dRef1) (dRef1.map Dec.value) := by
  refine Costg.joined_is _ fun d hd => ?_
  simp only [dRef1, List.mem_cons, List.not_mem_nil, or_false] at hd
  rcases hd with rfl | rfl | rfl | rfl | rfl | rfl | rfl | rfl | rfl | rfl | rfl | rfl | rfl <;> exact Dec.ok_of (by decide)

theorem exRef_rows : Costg.Rows 12 [Costg.joined dRef1] [Costg.rowOf dRef1] :=
  .row (t := (Costg.rowOf dRef1).1) (v := (Costg.rowOf dRef1).2) dRef1_is rfl .nil

theorem exRef_table : Costg.Table 512 12 exRef [Costg.rowOf dRef1] where
  lines := ⟨[Costg.joined dRef1], ⟨by decide +kernel, Or.inl (by decide +kernel)⟩, by decide +kernel, exRef_rows⟩
  dates := by
    intro r hr
    simp only [List.mem_cons, List.not_mem_nil, or_false] at hr
    subst hr
    exact ⟨by decide +kernel, by decide +kernel⟩

/-- i2c_astropy on a reference orbit and a file of Earth orientation. -/
example (old : Rec ℝ) : ∃ S : V3 × V3, (∃ e, OrientedAt Costg.exRecs (ttTai (Costg.rowOf dRef1).1 : ℚ) e ∧
      ToCelestial (ttTai (Costg.rowOf dRef1).1 : ℚ) e (Costg.three (Costg.rowOf dRef1).2 0) (Costg.three (Costg.rowOf dRef1).2 3) S.1 S.2) ∧
    (¬ Agrees (Costg.rowOf dRef1).2 S →
      checkRef Costg.exTT (fun _ => 37) (fun _ => 37) (fun _ => 1) (List.replicate 8 2) old (some exRef) (some Costg.exC04) = .abort) := by
  obtain ⟨Ss, h1, -, h3⟩ := check_ref_daily_partial Costg.exTT (fun _ => 37) (fun _ => 37) (fun _ => 1) (junkE := List.replicate 8 2) (by simp) old exRef_table
    (x1 := Costg.rowOf dRef1) (xn := Costg.rowOf dRef1) rfl rfl le_rfl Costg.exRecorded exRecs_daily exRecs_small (by
      intro x hx
      simp only [List.mem_cons, List.not_mem_nil, or_false] at hx
      subst hx
      unfold centuries
      have hm : |(ttTai (Costg.rowOf dRef1).1 - 51544.5) / 36525| ≤ 10 := by decide +kernel
      have := (Rat.cast_le (K := ℝ)).mpr hm
      push_cast at this
      exact this) (by decide +kernel)
  have hf : (Costg.exRecs.filter fun r => (Costg.rowOf dRef1).1 - 2 ≤ r.t ∧ r.t < (Costg.rowOf dRef1).1 + 2) = Costg.exRecs := by
    refine List.filter_eq_self.mpr ?_
    decide +kernel
  rw [hf] at h1
  cases h1 with
  | cons a b =>
    cases b
    refine ⟨_, a, fun hna => h3 fun h => hna ?_⟩
    cases h with
    | cons a b => exact a

/-- A reference orbit of two rows of which the second has a long comment at its end. -/
example (old : Rec ℝ) (eop : Option (List (List Char))) :
    checkRef Costg.exTT (fun _ => 37) (fun _ => 37) (fun _ => 1) (List.replicate 8 2) old
      (some (exRef ++ (Costg.joined dRef1 ++ List.replicate 512 ' ' ++ ['\n']))) eop =
    checkRef Costg.exTT (fun _ => 37) (fun _ => 37) (fun _ => 1) (List.replicate 8 2) old (some exRef) eop := by
  have h := check_ref_long_fails Costg.exTT (fun _ => 37) (fun _ => 37) (fun _ => 1) (List.replicate 8 2) old eop (pre := [Costg.joined dRef1])
    (l := Costg.joined dRef1 ++ List.replicate 512 ' ') (post := []) (text := exRef ++ (Costg.joined dRef1 ++ List.replicate 512 ' ' ++ ['\n']))
    ⟨by decide +kernel, Or.inl (by decide +kernel)⟩ (by decide +kernel) (by decide +kernel) exRef_rows exRef_table.dates
  have e : [Costg.joined dRef1].flatMap (· ++ ['\n']) = exRef := by decide +kernel
  rwa [e] at h

/-- A row after the last record: exit status 1. -/
def dRef2 : List Dec := [Costg.num "58121" "25", Costg.num "7000000" "", Costg.num "0" "", Costg.num "0" "", Costg.num "0" "", Costg.num "7500" "5", Costg.num "0" "", Costg.num "0" "", Costg.num "7000000" "0",
  Costg.num "0" "0", Costg.num "1" "0", Costg.num "2" "0", Costg.num "3" "0"]

theorem exRef2_table : Costg.Table 512 12 (Costg.joined dRef2 ++ ['\n']) [Costg.rowOf dRef2] where
  lines := ⟨[Costg.joined dRef2], ⟨by decide +kernel, Or.inl (by decide +kernel)⟩, by decide +kernel,
    .row (t := (Costg.rowOf dRef2).1) (v := (Costg.rowOf dRef2).2) (by
      refine Costg.joined_is _ fun d hd => ?_
      simp only [dRef2, List.mem_cons, List.not_mem_nil, or_false] at hd
      rcases hd with rfl | rfl | rfl | rfl | rfl | rfl | rfl | rfl | rfl | rfl | rfl | rfl | rfl <;> exact Dec.ok_of (by decide)) rfl .nil⟩
  dates := by
    intro r hr
    simp only [List.mem_cons, List.not_mem_nil, or_false] at hr
    subst hr
    exact ⟨by decide +kernel, by decide +kernel⟩

example (old : Rec ℝ) : checkRef Costg.exTT (fun _ => 37) (fun _ => 37) (fun _ => 1) (List.replicate 8 2) old (some (Costg.joined dRef2 ++ ['\n']))
    (some Costg.exC04) = .ok 1 :=
  check_ref_outside Costg.exTT (fun _ => 37) (fun _ => 37) (fun _ => 1) (by simp) old exRef2_table (x1 := Costg.rowOf dRef2) (xn := Costg.rowOf dRef2) rfl rfl
    le_rfl Costg.exRecorded (by decide +kernel) (.inr (by decide +kernel))

/-- What success of check_c2i means for the orbit above. -/
example (old : Rec ℝ) (ls : List (Option Diff)) (h : checkC2i Costg.exTT (fun _ => 37) (fun _ => 37) (fun _ => 1) (fun _ => 2) (List.replicate 8 2) old
    (some Costg.exOrbit) (some Costg.exOrbit) (some Costg.exC04) = .ok (0, ls)) : ls.length = 2 :=
  (check_c2i_success Costg.exTT (fun _ => 37) (fun _ => 37) (fun _ => 1) (fun _ => 2) (by simp) old Costg.exOrbit_table Costg.exOrbit_table Costg.exRecorded
    (by decide +kernel) h).2.2

/-- The velocity of check_c2i without corrections at J2000. -/
example : ∃ q M vc, c2i06aAt (tt2ut1 fun _ => 32) ⟨51544, 0.5, by norm_num, by norm_num⟩ (eopRec ⟨0, 0, 0, 0, 0, 0, 0, 0, 0, 0⟩) = .ok (some q) ∧
    Frame (mjd ⟨51544, 0.5, by norm_num, by norm_num⟩) ⟨0, 0, 0 - 32, 0, 0, 0⟩ M ∧ Moves (fun x => M x * (⟨6378137, 0, 0⟩ : V3)) vc 0 ∧
    900 ≤ (diffOf q 0 ⟨(51544, 0), M 0 * (⟨6378137, 0, 0⟩ : V3), vc, 0⟩ ⟨(51544, 0), ⟨6378137, 0, 0⟩, 0, 0⟩).dV.y := by
  obtain ⟨q, M, vc, h1, h2, h3, h4⟩ := check_c2i_velocity_fails (fun _ => 32) ⟨51544, 0.5, by norm_num, by norm_num⟩ ⟨0, 0, 0, 0, 0, 0, 0, 0, 0, 0⟩
    (by unfold mjd centuries; norm_num) (by norm_num) (by norm_num) (by norm_num) (by norm_num) (by norm_num) (51544, 0) 0
  exact ⟨q, M, vc, h1, h2, h3, (h4 _ rfl).2⟩

end Verif.Orient
