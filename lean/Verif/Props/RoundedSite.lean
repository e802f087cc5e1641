import Verif.Proof.RoundedSite2
import Verif.Props.RoundedTides
/-
C112: displacement of a site by the solid Earth tide, in double precision.
-/
namespace Verif.RoundedSite
open Verif Verif.Rounded Verif.Rounding Verif.RoundedCip Verif.RoundedTides Verif.Iau Verif.Fundarg
open Verif.SolidTide (Sph Tide Body cart2sph)
open Verif.PoleTide (lvlhMul)
open Verif.Angle (sec2rad)
open Verif.EopTides (dargs)

theorem lvlhMul_eq (lat lon : ℝ) (v : V3) :
    lvlhMul lat lon v = ⟨(PoleTide.east lon lat).x * v.x + (SolidTide.north lon lat).x * v.y + (PoleTide.up lon lat).x * v.z,
      (PoleTide.east lon lat).y * v.x + (SolidTide.north lon lat).y * v.y + (PoleTide.up lon lat).y * v.z,
      (PoleTide.east lon lat).z * v.x + (SolidTide.north lon lat).z * v.y + (PoleTide.up lon lat).z * v.z⟩ := by
  rw [SolidTide.lvlh_enu]
  unfold SolidTide.enu
  ext <;> simp <;> ring

/-- C112: the displacement of any site that is not the geocentre, from the epochs TT and UT1 and the positions of site, Sun and Moon to the three
components in double precision, is the sum of both steps of the Conventions up to 4550 u Re Σ (GM_j/GM)(Re/r_j)^3 (u = 2^-53) and 5e-12 m more.
The epochs lie within a century of J2000, Sun and Moon outside the Earth. -/
theorem displacement_rounded {fl : Rounded.Arith} {fsin fcos s2r cube : ℝ → ℝ} {sq : V3 → ℝ} {dot : V3 → V3 → ℝ} {lv : ℝ → ℝ → V3 × V3 × V3}
    (hf : Faithful fl) (hT : Trig fsin fcos) (hs : SecToRad s2r) (hc : Cube cube) (hq : SumOfSquares sq) (hD : DotProduct dot) (hL : Lvlh lv)
    (tt ut1 : Epoch) {f tu t f' tu' t' : ℝ} (hut : Sees ut1 f tu t) (htt : Sees tt f' tu' t') (hr : |ut1.daysSinceJ2000| ≤ 36525) (hr' : |tt.jcenturies| ≤ 1)
    {sph : V3 → Sph} {rsta rMoon rSun : V3} (hp : Placed (sph rsta) rsta) (hm : Placed (sph rMoon) rMoon) (hS : Placed (sph rSun) rSun)
    (o : Tide) {GMe GMs GMm : ℝ} (h1 : o.sunRatio = fl (GMs / GMe)) (h2 : o.moonRatio = fl (GMm / GMe)) (hR : 0 < o.mcs.re) (h0 : 0 < rsta.norm)
    (hvm : o.mcs.re ≤ rMoon.norm) (hvs : o.mcs.re ≤ rSun.norm) :
    let sun : Body := ⟨GMs / GMe, rSun⟩
    let moon : Body := ⟨GMm / GMe, rMoon⟩
    Close3 (4550 * u * o.mcs.re * (|pull o.mcs.re sun| + |pull o.mcs.re moon|) + 5e-12)
      (displacement fl fsin fcos cube sq dot sph lv o (Rounded.gmst fl s2r t' f tu) rsta rMoon rSun (Rounded.fundarg fl s2r t'))
      (siteShift o.mcs.re [sun, moon] (eraIers ut1.daysSinceJ2000 + sec2rad (gmstPoly tt.jcenturies)) (dargs tt.jcenturies) rsta) := by
  intro sun moon
  have hu := u_pos
  have hul := u_lt
  obtain ⟨b, be, b1, b2, b3⟩ := siteStep2_app hf hT hs tt ut1 hut htt hr hr' hp
  obtain ⟨a1, a2, a3⟩ := siteStep1_sc hf hT hc hq hD hL hp hm hS hR h0 hvm hvs (GMs / GMe) (GMm / GMe)
  rw [← h1, ← h2] at a1 a2 a3
  have F0 : 0 ≤ o.mcs.re * |pull o.mcs.re sun| + o.mcs.re * |pull o.mcs.re moon| := by positivity
  have e0 : 4550 * u * o.mcs.re * (|pull o.mcs.re sun| + |pull o.mcs.re moon|) = 4550 * (u * (o.mcs.re * |pull o.mcs.re sun| + o.mcs.re * |pull o.mcs.re moon|)) := by
    ring
  rw [e0]
  generalize hF : o.mcs.re * |pull o.mcs.re sun| + o.mcs.re * |pull o.mcs.re moon| = F at a1 a2 a3 F0 ⊢
  have uF : 0 ≤ u * F := mul_nonneg hu.le F0
  have uuF := mul_le_mul_of_nonneg_right hul.le uF
  have sum : ∀ {M e a' a b' b : ℝ}, Sc 128.3 (9.7 * F) a' a → App M e b' b → 0 ≤ M → M ≤ 1 → 0 ≤ e → e ≤ 1 →
      App (9.7 * F + M) (1256 * (u * F) + 1.000001 * e + u * M) (fl (a' + b')) (a + b) := by
    intro M e a' a b' b ha hb M0 M1 h0 h1
    have ha' : App (9.7 * F) (1244.6 * (u * F)) a' a := ⟨ha.1, ha.2.trans (by linarith)⟩
    refine ((ha'.add hb).fl hf).mono le_rfl ?_
    have := mul_le_mul_of_nonneg_right hul.le h0
    nlinarith
  have c1 := sum a1 b1 (by norm_num) (by norm_num) (by norm_num) (by norm_num)
  have c2 := sum a2 b2 (by norm_num) (by norm_num) (by norm_num) (by norm_num)
  have c3 := sum a3 b3 (by norm_num) (by norm_num) (by norm_num) (by norm_num)
  obtain ⟨⟨x1, y1, z1⟩, ⟨x2, y2, z2⟩, ⟨x3, y3, z3⟩⟩ := frame_sc hL hp
  have ex : siteShift o.mcs.re [sun, moon] (eraIers ut1.daysSinceJ2000 + sec2rad (gmstPoly tt.jcenturies)) (dargs tt.jcenturies) rsta =
      lvlhMul (cart2sph rsta).lat (cart2sph rsta).lon (SolidTide.dispStep1 o.mcs.re (GMs / GMe) (GMm / GMe) rsta rSun rMoon + b) := by
    rw [SolidTide.lvlh_add, be, SolidTide.site_step1 _ _ _ _ _ _ h0.ne']
    rfl
  rw [ex, lvlhMul_eq]
  have last : 1.001 * (1256 * (u * F) + 1.000001 * 4e-13 + u * 0.00186 + (1256 * (u * F) + 1.000001 * 4e-13 + u * 0.00186) +
      (1256 * (u * F) + 1.000001 * 3.62e-12 + u * 0.01951)) + 25.1 * u * (9.7 * F + 0.00186 + (9.7 * F + 0.00186) + (9.7 * F + 0.01951)) ≤
      4550 * (u * F) + 5e-12 := by
    nlinarith
  generalize SolidTide.dispStep1 o.mcs.re (GMs / GMe) (GMm / GMe) rsta rSun rMoon = A at *
  have fin := fun {p' q' r' p q r : ℝ} (hp : Sc 21 1 p' p) (hq : Sc 21 1 q' q) (hr : Sc 21 1 r' r) =>
    (dot_app hD (a' := ⟨p', q', r'⟩) (a := ⟨p, q, r⟩) (b' := ⟨_, _, _⟩) (b := A + b) hp hq hr c1 c2 c3).trans last
  exact ⟨fin x1 x2 x3, fin y1 y2 y3, fin z1 z2 z3⟩

/-- C112: an object constructed with the constants of Earth, Sun and Moon, whatever its memory held before, the Sun at least 1.47e11 m and the Moon at
least 3.56e8 m away: each component is that of the Conventions to 6e-12 m. -/
theorem site_rounded {fl : Rounded.Arith} {fsin fcos s2r cube : ℝ → ℝ} {sq : V3 → ℝ} {dot : V3 → V3 → ℝ} {lv : ℝ → ℝ → V3 × V3 × V3}
    (hf : Faithful fl) (hT : Trig fsin fcos) (hs : SecToRad s2r) (hc : Cube cube) (hq : SumOfSquares sq) (hD : DotProduct dot) (hL : Lvlh lv)
    (tt ut1 : Epoch) {f tu t f' tu' t' : ℝ} (hut : Sees ut1 f tu t) (htt : Sees tt f' tu' t') (hr : |ut1.daysSinceJ2000| ≤ 36525) (hr' : |tt.jcenturies| ≤ 1)
    {sph : V3 → Sph} {rsta rMoon rSun : V3} (hp : Placed (sph rsta) rsta) (hm : Placed (sph rMoon) rMoon) (hS : Placed (sph rSun) rSun)
    (h0 : 0 < rsta.norm) (hvm : 3.56e8 ≤ rMoon.norm) (hvs : 1.47e11 ≤ rSun.norm) (junkC junkS : ℕ → ℕ → ℝ) :
    Close3 6e-12
      (displacement fl fsin fcos cube sq dot sph lv (make fl junkC junkS 3.986004418e14 6378136.6 1.32712442099e20 4.902800238e12)
        (Rounded.gmst fl s2r t' f tu) rsta rMoon rSun (Rounded.fundarg fl s2r t'))
      (siteShift 6378136.6 [⟨1.32712442099e20 / 3.986004418e14, rSun⟩, ⟨4.902800238e12 / 3.986004418e14, rMoon⟩]
        (eraIers ut1.daysSinceJ2000 + sec2rad (gmstPoly tt.jcenturies)) (dargs tt.jcenturies) rsta) := by
  have hul := u_lt
  have hu := u_pos
  have e := displacement_rounded hf hT hs hc hq hD hL tt ut1 hut htt hr hr' hp hm hS
    (make fl junkC junkS 3.986004418e14 6378136.6 1.32712442099e20 4.902800238e12)
    (GMe := 3.986004418e14) (GMs := 1.32712442099e20) (GMm := 4.902800238e12) rfl rfl (by show (0 : ℝ) < 6378136.6; norm_num) h0
    (by show (6378136.6 : ℝ) ≤ _; linarith) (by show (6378136.6 : ℝ) ≤ _; linarith)
  have R : (make fl junkC junkS 3.986004418e14 6378136.6 1.32712442099e20 4.902800238e12).mcs.re = 6378136.6 := rfl
  rw [R] at e
  have ps : |pull 6378136.6 ⟨1.32712442099e20 / 3.986004418e14, rSun⟩| ≤ 2.8e-8 :=
    pull_le (by norm_num) (by norm_num) hvs (k := 332947) (by norm_num [abs_of_pos]) (by norm_num)
  have pm : |pull 6378136.6 ⟨4.902800238e12 / 3.986004418e14, rMoon⟩| ≤ 7.1e-8 :=
    pull_le (by norm_num) (by norm_num) hvm (k := 0.0123001) (by norm_num [abs_of_pos]) (by norm_num)
  have P := mul_le_mul_of_nonneg_left (add_le_add ps pm) (by positivity : 0 ≤ 4550 * u * 6378136.6)
  exact ⟨e.1.trans (by linarith), e.2.1.trans (by linarith), e.2.2.trans (by linarith)⟩

/-! ### A concrete case -/

theorem cart2sph_placed (v : V3) : Placed (cart2sph v) v := by
  refine ⟨cart2sph_spherical v, ?_⟩
  have := Complex.abs_arg_le_pi ⟨v.x, v.y⟩
  exact this.trans (by linarith [Real.pi_lt_four])

/-- Rounding to nearest, products fused or not; 2012-06-06 12h, a site on the z axis, the Sun on the x axis and the Moon on the y axis. -/
example (s : ℕ → Bool) :
    let s2r := fun x : ℝ => x * (2 * Real.pi / 1296000)
    let d : ℝ := 56084 + 0.5 - 51544.5
    Close3 6e-12
      (displacement (rnArith s) Real.sin Real.cos (fun x => x ^ 3) (fun v => v.x * v.x + v.y * v.y + v.z * v.z) (fun a b => a.x * b.x + a.y * b.y + a.z * b.z) cart2sph
        (fun lat lon => (PoleTide.east lon lat, SolidTide.north lon lat, PoleTide.up lon lat))
        (make (rnArith s) (fun _ _ => 7) (fun _ _ => -1) 3.986004418e14 6378136.6 1.32712442099e20 4.902800238e12)
        (Rounded.gmst (rnArith s) s2r (d / 36525) 0.5 d) ⟨0, 0, 6356752⟩ ⟨0, 3.8e8, 0⟩ ⟨1.5e11, 0, 0⟩ (Rounded.fundarg (rnArith s) s2r (d / 36525)))
      (siteShift 6378136.6 [⟨1.32712442099e20 / 3.986004418e14, ⟨1.5e11, 0, 0⟩⟩, ⟨4.902800238e12 / 3.986004418e14, ⟨0, 3.8e8, 0⟩⟩]
        (eraIers d + sec2rad (gmstPoly (d / 36525))) (dargs (d / 36525)) ⟨0, 0, 6356752⟩) := by
  intro s2r d
  have hu := u_pos
  have hT : Trig Real.sin Real.cos := ⟨fun x => by simp [hu.le], fun x => by simp [hu.le]⟩
  have hc : Cube fun x => x ^ 3 := fun x => by rw [sub_self, abs_zero]; positivity
  have hD : DotProduct (fun a b => a.x * b.x + a.y * b.y + a.z * b.z) := fun a b => by rw [sub_self, abs_zero]; positivity
  have hq : SumOfSquares (fun v => v.x * v.x + v.y * v.y + v.z * v.z) := fun v => by
    have e : v.x * v.x + v.y * v.y + v.z * v.z - (v.x ^ 2 + v.y ^ 2 + v.z ^ 2) = 0 := by ring
    rw [e, abs_zero]; positivity
  have hL : Lvlh fun lat lon => (PoleTide.east lon lat, SolidTide.north lon lat, PoleTide.up lon lat) := fun lat lon => by
    unfold Close3; simp [hu.le]
  let e : Epoch := ⟨56084, 0.5, by norm_num, by norm_num⟩
  have hd : e.daysSinceJ2000 = d := by show ((56084 : ℤ) : ℝ) + 0.5 - 51544.5 = _; simp only [d]; norm_num
  have hj : e.jcenturies = d / 36525 := by unfold Epoch.jcenturies; rw [hd]
  have hs : Sees e 0.5 d (d / 36525) :=
    ⟨by simp [e, hu.le], by rw [hd, sub_self, abs_zero]; positivity, by rw [hj, sub_self, abs_zero]; positivity⟩
  have nm : (⟨0, 3.8e8, 0⟩ : V3).norm = 3.8e8 := by
    unfold V3.norm V3.dot; rw [show (0 : ℝ) * 0 + 3.8e8 * 3.8e8 + 0 * 0 = 3.8e8 ^ 2 by ring]; exact Real.sqrt_sq (by norm_num)
  have ns : (⟨1.5e11, 0, 0⟩ : V3).norm = 1.5e11 := by
    unfold V3.norm V3.dot; rw [show (1.5e11 : ℝ) * 1.5e11 + 0 * 0 + 0 * 0 = 1.5e11 ^ 2 by ring]; exact Real.sqrt_sq (by norm_num)
  have np : (⟨0, 0, 6356752⟩ : V3).norm = 6356752 := by
    unfold V3.norm V3.dot; rw [show (0 : ℝ) * 0 + 0 * 0 + 6356752 * 6356752 = 6356752 ^ 2 by ring]; exact Real.sqrt_sq (by norm_num)
  have h := site_rounded (rn_faithful s) hT s2r_exact hc hq hD hL e e hs hs (by rw [hd]; simp only [d]; norm_num [abs_of_pos])
    (by rw [hj]; simp only [d]; norm_num [abs_of_pos]) (cart2sph_placed ⟨0, 0, 6356752⟩) (cart2sph_placed ⟨0, 3.8e8, 0⟩) (cart2sph_placed ⟨1.5e11, 0, 0⟩)
    (by rw [np]; norm_num) (by rw [nm]; norm_num) (by rw [ns]; norm_num) (fun _ _ => 7) (fun _ _ => -1)
  rw [hj, hd] at h
  exact h

end Verif.RoundedSite
