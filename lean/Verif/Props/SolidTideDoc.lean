import Verif.Spec.SolidTideDoc
import Verif.Props.SolidTideSite
import Verif.Props.SolidTide
/-
Property C101: the solid Earth tide of an object made from gravitational parameters.
-/
namespace Verif.SolidTide
open Verif Verif.Iau Verif.PoleTide

/-- C101, with the parameters of the Sun and the Moon in the order of the declaration: the displacement of the Conventions. Missing: the order of the
documentation (`documented_order_fails`). -/
theorem declared_order_partial (jC jS : Nat → Nat → ℝ) (GMearth Rearth GMsun GMmoon : ℝ) (tt ut1 : Epoch) (rsta rMoon rSun : V3) (a : Fin 5 → ℝ)
    (h : rsta.norm ≠ 0) :
    (Tide.make jC jS GMearth Rearth GMsun GMmoon).displacement tt ut1 rsta rMoon rSun a =
      conventional GMearth Rearth GMsun GMmoon rSun rMoon (gmst tt ut1) a (cart2sph rsta).lon (cart2sph rsta).lat :=
  displacement_formula _ tt ut1 rsta rMoon rSun a h

/-- C101, with the parameters in the order of the documentation (Moon before Sun): the displacement is the one for a Sun and a Moon that have exchanged
their places. -/
theorem documented_order (jC jS : Nat → Nat → ℝ) (GMearth Rearth GMsun GMmoon : ℝ) (tt ut1 : Epoch) (rsta rMoon rSun : V3) (a : Fin 5 → ℝ)
    (h : rsta.norm ≠ 0) :
    (Tide.make jC jS GMearth Rearth GMmoon GMsun).displacement tt ut1 rsta rMoon rSun a =
      conventional GMearth Rearth GMsun GMmoon rMoon rSun (gmst tt ut1) a (cart2sph rsta).lon (cart2sph rsta).lat := by
  rw [declared_order_partial jC jS GMearth Rearth GMmoon GMsun tt ut1 rsta rMoon rSun a h]
  unfold conventional
  congr 1
  ext <;> simp [vsum] <;> ring

/-- C101, likewise for the coefficients of the potential, after any history of calls. -/
theorem documented_order_stokes (jC jS : Nat → Nat → ℝ) (GMe Re GMs GMm : ℝ) (l : List Call) (c : Call) :
    ∃ o, calls (l ++ [c]) (Tide.make jC jS GMe Re GMm GMs) = .ok o ∧ ∀ n m : ℕ, (o.mcs.C n m : ℂ) - Complex.I * (o.mcs.S n m : ℂ) =
      total Re [⟨GMm / GMe, c.rSun⟩, ⟨GMs / GMe, c.rMoon⟩] (gmst c.tt c.ut1) c.args n m := by
  obtain ⟨o, h1, -, -, -, -, h2⟩ := stokes_last jC jS GMe Re GMm GMs l c
  exact ⟨o, h1, h2⟩

theorem norm_polar {r : ℝ} (h : 0 < r) : (⟨0, 0, r⟩ : V3).norm = r := by
  unfold V3.norm V3.dot
  simp only [mul_zero, zero_add]
  exact Real.sqrt_mul_self h.le

theorem cart_polar {r : ℝ} (h : 0 < r) : (cart2sph ⟨0, 0, r⟩).lat = Real.pi / 2 := by
  show Real.arcsin ((⟨0, 0, r⟩ : V3).z / (⟨0, 0, r⟩ : V3).norm) = _
  rw [norm_polar h, div_self h.ne', Real.arcsin_one]

/-- At the pole, with a body above it. -/
theorem polar_z (Re m lon : ℝ) {r : ℝ} (h : 0 < r) :
    (inPhaseOf Re ⟨m, ⟨0, 0, r⟩⟩ lon (Real.pi / 2) + outPhaseOf Re ⟨m, ⟨0, 0, r⟩⟩ lon (Real.pi / 2)).z =
      m * (Re ^ 4 / r ^ 3 * 0.6072 + Re ^ 5 / r ^ 4 * 0.292) := by
  unfold inPhaseOf outPhaseOf enu north south east up V3.dot
  simp only [norm_polar h, div_self h.ne', Real.arcsin_one, Real.sin_pi_div_two, Real.cos_pi_div_two, V3.add_z, V3.smul_z, V3.sub_z, V3.neg_z,
    V3.smul_x, V3.smul_y, one_div, inv_mul_cancel₀ h.ne']
  have : Real.sin (2 * (Real.pi / 2)) = 0 := by rw [mul_div_cancel₀ _ two_ne_zero]; exact Real.sin_pi
  simp only [this]
  ring

theorem conventional_polar (GMe Re GMs GMm g : ℝ) (a : Fin 5 → ℝ) (lon : ℝ) {rs rm : ℝ} (hs : 0 < rs) (hm : 0 < rm) :
    (conventional GMe Re GMs GMm ⟨0, 0, rs⟩ ⟨0, 0, rm⟩ g a lon (Real.pi / 2)).z =
      GMs / GMe * (Re ^ 4 / rs ^ 3 * 0.6072 + Re ^ 5 / rs ^ 4 * 0.292) + GMm / GMe * (Re ^ 4 / rm ^ 3 * 0.6072 + Re ^ 5 / rm ^ 4 * 0.292) +
        ((1e-3 : ℝ) * vsum (table7.map (rowOf g a lon (Real.pi / 2)))).z := by
  have h1 := polar_z Re (GMs / GMe) lon hs
  have h2 := polar_z Re (GMm / GMe) lon hm
  unfold conventional
  rw [V3.add_z]
  congr 1
  rw [← h1, ← h2]
  show (_ + (_ + (0 : V3)) : V3).z = _
  rw [V3.add_z, V3.add_z]
  simp

/-- C101 fails: with the parameters in the order of the documentation (the Earth, its radius, the Moon, the Sun), and those numbers that the example program
passes in this order, a site at the pole, with Moon and Sun above it at their distances, is displaced by more than a thousand kilometres beyond the
displacement of the Conventions. -/
theorem documented_order_fails : ∃ rsta rMoon rSun : V3, rsta.norm ≠ 0 ∧ ∀ (jC jS : Nat → Nat → ℝ) (tt ut1 : Epoch) (a : Fin 5 → ℝ),
    (conventional 3.986004418e14 6378136.6 1.32712442099e20 4.9048695e12 rSun rMoon (gmst tt ut1) a (cart2sph rsta).lon (cart2sph rsta).lat).z + 1e6 <
      ((Tide.make jC jS 3.986004418e14 6378136.6 4.9048695e12 1.32712442099e20).displacement tt ut1 rsta rMoon rSun a).z := by
  have hn : (⟨0, 0, 6356752⟩ : V3).norm ≠ 0 := by rw [norm_polar (by norm_num)]; norm_num
  refine ⟨⟨0, 0, 6356752⟩, ⟨0, 0, 3.844e8⟩, ⟨0, 0, 1.496e11⟩, hn, fun jC jS tt ut1 a => ?_⟩
  rw [documented_order jC jS 3.986004418e14 6378136.6 1.32712442099e20 4.9048695e12 tt ut1 _ _ _ a hn, cart_polar (by norm_num)]
  rw [conventional_polar _ _ _ _ _ _ _ (by norm_num) (by norm_num), conventional_polar _ _ _ _ _ _ _ (by norm_num) (by norm_num)]
  have e : (1e6 : ℝ) + (1.32712442099e20 / 3.986004418e14 * (6378136.6 ^ 4 / 1.496e11 ^ 3 * 0.6072 + 6378136.6 ^ 5 / 1.496e11 ^ 4 * 0.292) +
      4.9048695e12 / 3.986004418e14 * (6378136.6 ^ 4 / 3.844e8 ^ 3 * 0.6072 + 6378136.6 ^ 5 / 3.844e8 ^ 4 * 0.292)) <
      1.32712442099e20 / 3.986004418e14 * (6378136.6 ^ 4 / 3.844e8 ^ 3 * 0.6072 + 6378136.6 ^ 5 / 3.844e8 ^ 4 * 0.292) +
      4.9048695e12 / 3.986004418e14 * (6378136.6 ^ 4 / 1.496e11 ^ 3 * 0.6072 + 6378136.6 ^ 5 / 1.496e11 ^ 4 * 0.292) := by norm_num
  linarith

/-- The hypothesis of the theorems above. -/
example : (⟨4595212.468, 2039473.691, 3912617.891⟩ : V3).norm ≠ 0 := by
  unfold V3.norm V3.dot
  exact (Real.sqrt_pos.mpr (by norm_num)).ne'

end Verif.SolidTide
