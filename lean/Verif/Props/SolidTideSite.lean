import Verif.Spec.SolidTideSite
import Verif.Props.SolidTide
/-
Property C75: displacement of a site due to the solid Earth tide.
-/
namespace Verif.SolidTide
open Verif Verif.Doodson Verif.Iau Verif.Angle Verif.PoleTide

theorem lvlh_enu (lat lon : ℝ) (v : V3) : lvlhMul lat lon v = enu lon lat v.x v.y v.z := by
  unfold lvlhMul enu north south east up
  ext <;> simp <;> ring

/-- The rotation to the local frame and back is the identity. -/
theorem lvlh_back (lat lon : ℝ) (v : V3) : lvlhMul lat lon (lvlhMulT lat lon v) = v := by
  unfold lvlhMul lvlhMulT
  have h1 := Real.sin_sq_add_cos_sq lon
  have h2 := Real.sin_sq_add_cos_sq lat
  generalize Real.sin lon = sl at *
  generalize Real.cos lon = cl at *
  generalize Real.sin lat = sf at *
  generalize Real.cos lat = cf at *
  ext <;> simp only
  · linear_combination (cl ^ 2 * v.x + cl * sl * v.y) * h2 + v.x * h1
  · linear_combination (cl * sl * v.x + sl ^ 2 * v.y) * h2 + v.y * h1
  · linear_combination v.z * h2

theorem lvlh_add (lat lon : ℝ) (v w : V3) : lvlhMul lat lon (v + w) = lvlhMul lat lon v + lvlhMul lat lon w := by
  unfold lvlhMul
  ext <;> simp <;> ring

theorem lvlh_smul (lat lon s : ℝ) (v : V3) : lvlhMul lat lon (s * v) = s * lvlhMul lat lon v := by
  unfold lvlhMul
  ext <;> simp <;> ring

theorem norm_sq (v : V3) : v.norm ^ 2 = v.x ^ 2 + v.y ^ 2 + v.z ^ 2 := by
  unfold V3.norm
  rw [Real.sq_sqrt (by unfold V3.dot; nlinarith [sq_nonneg v.x, sq_nonneg v.y, sq_nonneg v.z])]
  unfold V3.dot
  ring

theorem norm_nonneg' (v : V3) : 0 ≤ v.norm := Real.sqrt_nonneg _

/-- The spherical coordinates give back the direction. -/
theorem unit_eq_up (v : V3) (h : v.norm ≠ 0) : unit v = up (cart2sph v).lon (cart2sph v).lat := by
  have hn : 0 < v.norm := lt_of_le_of_ne (norm_nonneg' v) (Ne.symm h)
  have hs := sin_lat v
  have hc : Real.cos (cart2sph v).lat = Real.sqrt (v.x ^ 2 + v.y ^ 2) / v.norm := by
    rw [cos_lat]
    have : 1 - (v.z / v.norm) ^ 2 = (v.x ^ 2 + v.y ^ 2) / v.norm ^ 2 := by
      field_simp
      rw [norm_sq]; ring
    rw [this, Real.sqrt_div (by positivity), Real.sqrt_sq hn.le]
  have ha : ‖(⟨v.x, v.y⟩ : ℂ)‖ = Real.sqrt (v.x ^ 2 + v.y ^ 2) := by
    rw [Complex.norm_def, Complex.normSq_mk]
    ring_nf
  have key : Real.sqrt (v.x ^ 2 + v.y ^ 2) * Real.cos (cart2sph v).lon = v.x ∧ Real.sqrt (v.x ^ 2 + v.y ^ 2) * Real.sin (cart2sph v).lon = v.y := by
    rw [← ha]
    exact ⟨Complex.norm_mul_cos_arg _, Complex.norm_mul_sin_arg _⟩
  unfold up unit
  rw [hs, hc]
  ext <;> simp only [V3.smul_x, V3.smul_y, V3.smul_z]
  · linear_combination (-(1 / v.norm)) * key.1
  · linear_combination (-(1 / v.norm)) * key.2
  · field_simp

theorem inPhase_eq (Re rt : ℝ) (rsta rtb : V3) (h : rsta.norm ≠ 0) :
    (rt * (Re / rtb.norm) ^ 3 * Re) * inPhase Re rsta rtb = inPhaseOf Re ⟨rt, rtb⟩ (cart2sph rsta).lon (cart2sph rsta).lat := by
  unfold inPhase inPhaseOf
  simp only
  rw [unit_eq_up rsta h, ← sin_lat, ← show unit rtb = (1 / rtb.norm) * rtb from rfl]
  generalize up _ _ = us
  generalize unit rtb = ur
  generalize ur.dot us = c
  generalize Real.sin _ = sf
  generalize rtb.norm = n
  ext <;> simp only [V3.add_x, V3.add_y, V3.add_z, V3.sub_x, V3.sub_y, V3.sub_z, V3.smul_x, V3.smul_y, V3.smul_z]
  all_goals
    have e3 : (Re / n) ^ 3 * Re = Re ^ 4 / n ^ 3 := by ring
    have e4 : Re ^ 5 / n ^ 4 = (Re ^ 4 / n ^ 3) * (Re / n) := by ring
    rw [mul_div_assoc rt, mul_div_assoc rt, e4, mul_assoc rt, e3]
    generalize Re ^ 4 / n ^ 3 = A
    generalize Re / n = B
    ring

theorem outPhase_eq (Re rt : ℝ) (sta : Sph) (rtb : V3) :
    (rt * (Re / rtb.norm) ^ 3 * Re) * lvlhMul sta.lat sta.lon (outPhase sta (cart2sph rtb)) = outPhaseOf Re ⟨rt, rtb⟩ sta.lon sta.lat := by
  rw [lvlh_enu]
  unfold outPhase outPhaseOf
  simp only [show Real.arcsin (rtb.z / rtb.norm) = (cart2sph rtb).lat from rfl, show Complex.arg ⟨rtb.x, rtb.y⟩ = (cart2sph rtb).lon from rfl]
  generalize (cart2sph rtb).lat = Φ
  generalize sta.lon - (cart2sph rtb).lon = D
  have e3 : rt * (Re / rtb.norm) ^ 3 * Re = rt * Re ^ 4 / rtb.norm ^ 3 := by ring
  rw [e3]
  generalize rt * Re ^ 4 / rtb.norm ^ 3 = A
  simp only [Real.sin_two_mul, Real.cos_two_mul']
  generalize Real.sin D = sD
  generalize Real.cos D = cD
  generalize Real.sin Φ = sP
  generalize Real.cos Φ = cP
  unfold enu
  generalize east _ _ = e
  generalize north _ _ = n
  generalize up _ _ = u
  generalize Real.sin sta.lat = sf
  generalize Real.cos sta.lat = cf
  ext <;> simp only [V3.add_x, V3.add_y, V3.add_z, V3.smul_x, V3.smul_y, V3.smul_z] <;> ring

/-- C75, step 1: the rotated first-step vector is the sum, over Sun and Moon, of the in-phase vectors (which do not depend on a frame) and of the
out-of-phase and latitude-dependent components along east, north and up. -/
theorem site_step1 (Re rs rm : ℝ) (rsta rSun rMoon : V3) (h : rsta.norm ≠ 0) :
    let s := cart2sph rsta
    lvlhMul s.lat s.lon (dispStep1 Re rs rm rsta rSun rMoon) =
      vsum ([⟨rs, rSun⟩, ⟨rm, rMoon⟩].map fun b : Body => inPhaseOf Re b s.lon s.lat + outPhaseOf Re b s.lon s.lat) := by
  intro s
  unfold dispStep1
  simp only [List.map_cons, List.map_nil, vsum]
  rw [lvlh_add, lvlh_back, lvlh_add, lvlh_smul, lvlh_smul, outPhase_eq, outPhase_eq, inPhase_eq _ _ _ _ h, inPhase_eq _ _ _ _ h]
  ext <;> simp <;> ring

theorem row_eq (g : ℝ) (a : Fin 5 → ℝ) (sta : Sph) (v : V3) (c : Row7) :
    lvlhMul sta.lat sta.lon (addRow7 (delaunay2doodson a g) sta v c) = lvlhMul sta.lat sta.lon v + rowOf g a sta.lon sta.lat c := by
  obtain ⟨h1, h2⟩ := cong_trig (argument_theta c.d g a)
  obtain ⟨h3, h4⟩ := cong_trig ((anp_cong (c.d.argument (delaunay2doodson a g) + sta.lon)).trans ((argument_theta c.d g a).add (Cong.refl sta.lon)))
  rw [lvlh_enu, lvlh_enu]
  unfold addRow7 rowOf
  simp only [h1, h2, h3, h4, Real.sin_two_mul, Real.cos_two_mul']
  unfold enu
  split_ifs <;> ext <;> simp only [V3.add_x, V3.add_y, V3.add_z, V3.smul_x, V3.smul_y, V3.smul_z] <;> ring

/-- C75, step 2: the sum of the frequency-dependent corrections, in metres, for every list of constituents. -/
theorem site_step2 (tt ut1 : Epoch) (sta : Sph) (a : Fin 5 → ℝ) :
    lvlhMul sta.lat sta.lon (dispStep2 tt ut1 sta a) = (1e-3 : ℝ) * vsum (table7.map (rowOf (gmst tt ut1) a sta.lon sta.lat)) := by
  unfold dispStep2
  rw [lvlh_smul]
  congr 1
  have gen : ∀ (l : List Row7) (v : V3), lvlhMul sta.lat sta.lon (l.foldl (addRow7 (delaunay2doodson a (gmst tt ut1)) sta) v) =
      lvlhMul sta.lat sta.lon v + vsum (l.map (rowOf (gmst tt ut1) a sta.lon sta.lat)) := by
    intro l
    induction l with
    | nil => intro v; ext <;> simp [vsum]
    | cons c l ih =>
      intro v
      rw [List.foldl_cons, ih, row_eq]
      ext <;> simp [vsum] <;> ring
  rw [gen]
  have : lvlhMul sta.lat sta.lon 0 = 0 := by unfold lvlhMul; ext <;> simp
  rw [this]
  ext <;> simp

/-- The constituents are diurnal or of long period, and none occurs twice. -/
theorem site_bands : (∀ r ∈ table7, r.d.i0 = 0 ∨ r.d.i0 = 1) ∧ (table7.map (·.d)).Nodup := ⟨by decide +kernel, by decide +kernel⟩

/-- C75: the displacement a user gets, for any site that is not the geocentre, in the Earth-fixed frame; it does not depend on, and does not
change, what the object holds besides the mass ratios and the Earth radius. -/
theorem displacement_formula (o : Tide) (tt ut1 : Epoch) (rsta rMoon rSun : V3) (a : Fin 5 → ℝ) (h : rsta.norm ≠ 0) :
    let s := cart2sph rsta
    o.displacement tt ut1 rsta rMoon rSun a =
      vsum ([⟨o.sunRatio, rSun⟩, ⟨o.moonRatio, rMoon⟩].map fun b : Body => inPhaseOf o.mcs.re b s.lon s.lat + outPhaseOf o.mcs.re b s.lon s.lat) +
      (1e-3 : ℝ) * vsum (table7.map (rowOf (gmst tt ut1) a s.lon s.lat)) := by
  intro s
  unfold Tide.displacement
  simp only
  rw [lvlh_add, site_step1 _ _ _ _ _ _ h, site_step2]

example : (⟨1, 2, 2⟩ : V3).norm ≠ 0 := by
  unfold V3.norm V3.dot
  norm_num

end Verif.SolidTide
