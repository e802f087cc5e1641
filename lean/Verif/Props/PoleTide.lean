import Verif.Spec.PoleTide
import Verif.Proof.Chars
import Mathlib.Tactic.Ring
import Mathlib.Tactic.Linarith
import Mathlib.Tactic.NormNum
import Mathlib.Tactic.FieldSimp
import Mathlib.Tactic.SplitIfs
import Mathlib.Data.Complex.Basic
/-
Properties C45, C46, C47: pole tide and ocean pole tide.
-/
namespace Verif.PoleTide
open Verif Verif.Chars

/-! ### C45 -/

theorem mcoeffs_eq (dt xp yp : ℝ) : mcoeffs dt xp yp = (xp - poleX dt, poleY dt - yp) := by
  unfold mcoeffs secularPole poleX poleY
  ext <;> norm_num <;> ring

/-- C45 (solid Earth): with m = m1 - i m2, the deviation from the secular pole, dC21 - i dS21 = -1.333e-9 (1 + 0.0115 i) m. -/
theorem solid_formula (dt xp yp : ℝ) :
    (⟨(solid21 dt xp yp).1, -(solid21 dt xp yp).2⟩ : ℂ) =
      ⟨-1.333e-9, 0⟩ * (⟨1, 0.0115⟩ * ⟨xp - poleX dt, -(poleY dt - yp)⟩) := by
  unfold solid21
  rw [mcoeffs_eq]
  apply Complex.ext
  · simp only [Complex.mul_re, Complex.mul_im]; ring
  · simp only [Complex.mul_re, Complex.mul_im]; ring

/-- C45 (ocean, degree two): the linear functions of the deviation. -/
theorem ocean_formula (dt xp yp : ℝ) :
    ocean21 dt xp yp = (-2.1778e-10 * ((xp - poleX dt) - 0.01724 * (poleY dt - yp)),
      -1.7232e-10 * ((poleY dt - yp) - 0.03365 * (xp - poleX dt))) := by
  unfold ocean21
  rw [mcoeffs_eq]

/-- C45: no correction if, and for the solid Earth only if, the pole is at the secular pole. -/
theorem solid_zero_iff (dt xp yp : ℝ) : solid21 dt xp yp = (0, 0) ↔ xp = poleX dt ∧ yp = poleY dt := by
  unfold solid21
  rw [mcoeffs_eq]
  simp only [Prod.mk.injEq]
  constructor
  · rintro ⟨h1, h2⟩
    norm_num at h1 h2
    constructor <;> linarith
  · rintro ⟨rfl, rfl⟩
    constructor <;> ring

theorem ocean_zero_iff (dt xp yp : ℝ) : ocean21 dt xp yp = (0, 0) ↔ xp = poleX dt ∧ yp = poleY dt := by
  unfold ocean21
  rw [mcoeffs_eq]
  simp only [Prod.mk.injEq]
  constructor
  · rintro ⟨h1, h2⟩
    norm_num at h1 h2
    constructor <;> linarith
  · rintro ⟨rfl, rfl⟩
    constructor <;> ring

/-- C45: corrections superpose: those of the sum of two deviations are the sums of the corrections, also for different epochs. -/
theorem superpose (dt dt' dt'' x y x' y' : ℝ) :
    (solid21 dt (poleX dt + (x + x')) (poleY dt + (y + y'))).1 =
      (solid21 dt' (poleX dt' + x) (poleY dt' + y)).1 + (solid21 dt'' (poleX dt'' + x') (poleY dt'' + y')).1 ∧
    (solid21 dt (poleX dt + (x + x')) (poleY dt + (y + y'))).2 =
      (solid21 dt' (poleX dt' + x) (poleY dt' + y)).2 + (solid21 dt'' (poleX dt'' + x') (poleY dt'' + y')).2 ∧
    (ocean21 dt (poleX dt + (x + x')) (poleY dt + (y + y'))).1 =
      (ocean21 dt' (poleX dt' + x) (poleY dt' + y)).1 + (ocean21 dt'' (poleX dt'' + x') (poleY dt'' + y')).1 ∧
    (ocean21 dt (poleX dt + (x + x')) (poleY dt + (y + y'))).2 =
      (ocean21 dt' (poleX dt' + x) (poleY dt' + y)).2 + (ocean21 dt'' (poleX dt'' + x') (poleY dt'' + y')).2 := by
  unfold solid21 ocean21
  simp only [mcoeffs_eq]
  refine ⟨?_, ?_, ?_, ?_⟩ <;> ring

/-- A value: the pole 0.1 arcseconds from the secular pole along x, at J2000. -/
example : solid21 0 0.155 0.3205 = (-1.333e-10, 1.53295e-12) := by
  unfold solid21
  rw [mcoeffs_eq]
  unfold poleX poleY
  norm_num

/-! ### C47 -/

/-- C47 (solid Earth): the components of the displacement in metres along the colatitude, the longitude and the radius are those of
the Conventions (eq. 26 of section 7.1.4), with m1 and m2 in arcseconds and the colatitude θ. -/
theorem deformation_components (dt xp yp lon lat : ℝ) :
    let θ := Real.pi / 2 - lat
    let m1 := xp - poleX dt
    let m2 := -(yp - poleY dt)
    (deformation dt xp yp lon lat).dot (south lon lat) = -0.009 * Real.cos (2 * θ) * (m1 * Real.cos lon + m2 * Real.sin lon) ∧
    (deformation dt xp yp lon lat).dot (east lon lat) = 0.009 * Real.cos θ * (m1 * Real.sin lon - m2 * Real.cos lon) ∧
    (deformation dt xp yp lon lat).dot (up lon lat) = -0.033 * Real.sin (2 * θ) * (m1 * Real.cos lon + m2 * Real.sin lon) := by
  intro θ m1 m2
  have e1 : m1 = (mcoeffs dt xp yp).1 := by rw [mcoeffs_eq]
  have e2 : m2 = (mcoeffs dt xp yp).2 := by rw [mcoeffs_eq]; show -(yp - poleY dt) = poleY dt - yp; ring
  rw [Real.cos_two_mul, Real.sin_two_mul]
  have ht : Real.sin θ = Real.cos lat := Real.sin_pi_div_two_sub lat
  have ht' : Real.cos θ = Real.sin lat := Real.cos_pi_div_two_sub lat
  unfold deformation V3.dot south east up
  simp only
  rw [← e1, ← e2, ht', ht]
  have h1 := Real.sin_sq_add_cos_sq lon
  have h2 := Real.sin_sq_add_cos_sq lat
  generalize Real.sin lon = sl at *
  generalize Real.cos lon = cl at *
  generalize Real.sin lat = sf at *
  generalize Real.cos lat = cf at *
  refine ⟨?_, ?_, ?_⟩
  · linear_combination 1e-3 * (-9 * (2 * sf * sf - 1) * (m1 * cl + m2 * sl)) * (sf ^ 2 * h1 + h2) +
      1e-3 * (-33 * (2 * cf * sf) * (m1 * cl + m2 * sl)) * cf * sf * h1
  · linear_combination 1e-3 * (9 * sf * (m1 * sl - m2 * cl)) * h1
  · linear_combination 1e-3 * (-33 * (2 * cf * sf) * (m1 * cl + m2 * sl)) * (cf ^ 2 * h1 + h2) +
      1e-3 * (-9 * (2 * sf * sf - 1) * (m1 * cl + m2 * sl)) * cf * sf * h1

/-- The three directions are orthonormal, so that the length of a vector is that of its components. -/
theorem frame_norm (v : V3) (lon lat : ℝ) :
    v.dot v = v.dot (south lon lat) ^ 2 + v.dot (east lon lat) ^ 2 + v.dot (up lon lat) ^ 2 := by
  unfold V3.dot south east up
  have h1 := Real.sin_sq_add_cos_sq lon
  have h2 := Real.sin_sq_add_cos_sq lat
  generalize Real.sin lon = sl at *
  generalize Real.cos lon = cl at *
  generalize Real.sin lat = sf at *
  generalize Real.cos lat = cf at *
  simp only
  linear_combination (-(v.x * cl + v.y * sl) ^ 2) * h2 - v.z ^ 2 * h2 - (v.x ^ 2 + v.y ^ 2) * h1

/-- C47: the displacement is as long as the local vector. -/
theorem deformation_norm (dt xp yp lon lat : ℝ) :
    let θ := Real.pi / 2 - lat
    let m1 := xp - poleX dt
    let m2 := -(yp - poleY dt)
    (deformation dt xp yp lon lat).dot (deformation dt xp yp lon lat) =
      (0.009 * Real.cos (2 * θ) * (m1 * Real.cos lon + m2 * Real.sin lon)) ^ 2 +
      (0.009 * Real.cos θ * (m1 * Real.sin lon - m2 * Real.cos lon)) ^ 2 +
      (0.033 * Real.sin (2 * θ) * (m1 * Real.cos lon + m2 * Real.sin lon)) ^ 2 := by
  intro θ m1 m2
  obtain ⟨h1, h2, h3⟩ := deformation_components dt xp yp lon lat
  rw [frame_norm _ lon lat, h1, h2, h3]
  ring

/-- C47 (ocean): the components of the displacement along east, north and up are those of the Conventions (eq. 29 of section 7.1.5),
with K = 4πG a ρw Hp / (3 ge), Hp = sqrt(8π/15) Ω² a⁴ / GM, and m1, m2 in radians. -/
theorem ocean_components (dt xp yp lon lat : ℝ) (c : SiteCoeffs ℝ) (a GM Om G ge : ℝ) :
    let m1 := rad (xp - poleX dt)
    let m2 := rad (-(yp - poleY dt))
    let K := 4 * Real.pi * G * a * 1025 * (Real.sqrt (8 * Real.pi / 15) * (Om ^ 2 * a ^ 4 / GM)) / (3 * ge)
    let f (x y : ℝ) := K * ((m1 * 0.6870 + m2 * 0.0036) * x + (m2 * 0.6870 - m1 * 0.0036) * y)
    (oceanDeformation dt xp yp lon lat c a GM Om G ge).dot (east lon lat) = f c.eR c.eI ∧
    (oceanDeformation dt xp yp lon lat c a GM Om G ge).dot (-south lon lat) = f c.nR c.nI ∧
    (oceanDeformation dt xp yp lon lat c a GM Om G ge).dot (up lon lat) = f c.rR c.rI := by
  intro m1 m2 K f
  have e1 : m1 = sec2rad (mcoeffs dt xp yp).1 := by rw [mcoeffs_eq]; show rad _ = sec2rad _; unfold rad sec2rad; ring
  have e2 : m2 = sec2rad (mcoeffs dt xp yp).2 := by
    rw [mcoeffs_eq]; show rad _ = sec2rad _; unfold rad sec2rad; ring
  have eK : 2 * (2 * Real.pi) * G * a * 1025 * (Real.sqrt (4 * (2 * Real.pi) / 15) * (Om * Om) * a ^ 4 / GM) / 3 / ge = K := by
    show _ = 4 * Real.pi * G * a * 1025 * (Real.sqrt (8 * Real.pi / 15) * (Om ^ 2 * a ^ 4 / GM)) / (3 * ge)
    rw [show 4 * (2 * Real.pi) / 15 = 8 * Real.pi / 15 from by ring]
    rw [div_div]
    ring
  unfold oceanDeformation lvlhMul V3.dot south east up
  simp only [V3.smul_x, V3.smul_y, V3.smul_z, V3.neg_x, V3.neg_y, V3.neg_z]
  rw [← e1, ← e2, eK]
  have h1 := Real.sin_sq_add_cos_sq lon
  have h2 := Real.sin_sq_add_cos_sq lat
  show _ = K * _ ∧ _ = K * _ ∧ _ = K * _
  generalize Real.sin lon = sl at *
  generalize Real.cos lon = cl at *
  generalize Real.sin lat = sf at *
  generalize Real.cos lat = cf at *
  generalize (m1 * 0.6870 + m2 * 0.0036) * c.eR + (m2 * 0.6870 - m1 * 0.0036) * c.eI = s0
  generalize (m1 * 0.6870 + m2 * 0.0036) * c.nR + (m2 * 0.6870 - m1 * 0.0036) * c.nI = s1
  generalize (m1 * 0.6870 + m2 * 0.0036) * c.rR + (m2 * 0.6870 - m1 * 0.0036) * c.rI = s2
  refine ⟨?_, ?_, ?_⟩
  · linear_combination K * s0 * h1
  · linear_combination K * s1 * (sf ^ 2 * h1 + h2) - K * s2 * cf * sf * h1
  · linear_combination K * s2 * (cf ^ 2 * h1 + h2) - K * s1 * cf * sf * h1

end Verif.PoleTide
