import Verif.Proof.RoundedOceanPole
/-
C114: the ocean pole tide in double precision.
-/
namespace Verif.RoundedOceanPole
open Verif Verif.Rounded Verif.Rounding Verif.RoundedTides
open Verif.PoleTide (Desai Ocean SiteCoeffs kn rad poleX poleY oceanFormula east up newSet)
open Verif.SolidTide (north)
open Verif.RoundedSite (Lvlh Close3)

theorem u_le : u ≤ 1.111e-16 := by unfold u; norm_num

theorem prod_le {a b : ℝ} (h : |a| ≤ 1) (g : |b| ≤ 1) : |a * b| ≤ 1 := by rw [abs_mul]; exact mul_le_one₀ h (abs_nonneg _) g

/-- The directions are unit vectors. -/
theorem directions_le (lon lat : ℝ) : (|(east lon lat).x| ≤ 1 ∧ |(east lon lat).y| ≤ 1 ∧ |(east lon lat).z| ≤ 1) ∧
    (|(north lon lat).x| ≤ 1 ∧ |(north lon lat).y| ≤ 1 ∧ |(north lon lat).z| ≤ 1) ∧ (|(up lon lat).x| ≤ 1 ∧ |(up lon lat).y| ≤ 1 ∧ |(up lon lat).z| ≤ 1) := by
  have s1 := Real.abs_sin_le_one lon
  have c1 := Real.abs_cos_le_one lon
  have s2 := Real.abs_sin_le_one lat
  have c2 := Real.abs_cos_le_one lat
  unfold east north PoleTide.south up
  simp only [V3.neg_x, V3.neg_y, V3.neg_z, abs_neg, abs_zero]
  exact ⟨⟨s1, c1, by norm_num⟩, ⟨prod_le s2 c1, prod_le s2 s1, c2⟩, prod_le c2 c1, prod_le c2 s1, s2⟩

/-- C114: after an accepted call of degree below 360 every coefficient up to its degree and order is that of section 6.5 of the Conventions, up to 2.1e-20 of
the factor of its degree times the coefficients of the Desai model. -/
theorem ocean_rounded {fl : Rounded.Arith} (hf : Faithful fl) {s2r quart : ℝ → ℝ} (hs : SecToRad s2r) (hq : Quart quart) {o : Ocean} (hw : o.WF) (hpos : 0 < o.deg)
    {dt' dt xp yp : ℝ} (hd : |dt' - dt| ≤ 4 * u * 100) (hr : |dt| ≤ 100) (hx : |xp| ≤ 1) (hy : |yp| ≤ 1) (n m : Int) (Om G : ℝ) {ge : ℝ}
    (hg : o.cs.gm ≠ 0) (he : ge ≠ 0) (h0 : 0 ≤ n) (h1 : 0 ≤ m) (hm : m ≤ n) (hn : n ≤ o.deg) (ho : m ≤ o.ord) (hn' : n < 360) :
    let F := oceanFormula Om o.cs.re o.cs.gm G ge (rad (xp - poleX dt)) (rad (-(yp - poleY dt)))
    let bound (l : ℕ) (x y : ℝ) := 2.1e-20 * (|loadOf Om o.cs.re o.cs.gm G ge| / (2 * l + 1)) * (|x| + |y|)
    ∃ cs, stokes fl s2r quart o dt' xp yp n m Om G ge = .ok (0, { o with cs := cs }) ∧ Ocean.WF { o with cs := cs } ∧
      ∀ l k : Nat, k ≤ l → (l : Int) ≤ n → (k : Int) ≤ m →
        |cs.C l k - F l (o.desai.ar l k) (o.desai.ai l k)| ≤ bound l (o.desai.ar l k) (o.desai.ai l k) ∧
        |cs.S l k - F l (o.desai.br l k) (o.desai.bi l k)| ≤ bound l (o.desai.br l k) (o.desai.bi l k) := by
  intro F bound
  have hu := u_pos
  have hul := u_lt
  obtain ⟨p1, p2⟩ := pole_sc hf hs hd hr hx hy
  have fr := freal_sc hf 4 p1 p2
  have fi := fimag_sc hf 6 p1 p2
  have fac := Sc.of_rel (fac_rel hf hq Om o.cs.re G hg he)
  unfold stokes
  simp only
  rw [if_neg (by omega : ¬ n < 0), if_neg (by omega : ¬ m < 0), if_neg (by omega)]
  have hr1 := hw.desai
  have hr2 := hw.rows
  obtain ⟨cs, g1, g2, g3, g4, g5, g6, g7⟩ := columns_ok (fl := fl) (d := o.desai) (fr := freal fl 4 (s2r (mcoeffs fl dt' xp yp).1) (s2r (mcoeffs fl dt' xp yp).2))
    (fi := fimag fl 6 (s2r (mcoeffs fl dt' xp yp).1) (s2r (mcoeffs fl dt' xp yp).2)) (n := n) hn' (by omega) (List.range (m.toNat + 1)) o.cs (by omega)
  rw [g1]
  simp only [Res.bind]
  have hdeg := hw.csdeg
  have hz : cs.deg ≠ 0 := by omega
  have one : ∀ (i l : ℕ) (x y : ℝ), l < 360 →
      |fl (element fl i l x y (freal fl 4 (s2r (mcoeffs fl dt' xp yp).1) (s2r (mcoeffs fl dt' xp yp).2))
          (fimag fl 6 (s2r (mcoeffs fl dt' xp yp).1) (s2r (mcoeffs fl dt' xp yp).2)) * facOf fl quart Om o.cs.re o.cs.gm G ge) - F l x y| ≤ bound l x y := by
    intro i l x y hl
    have h := Sc.mulf hf (element_sc hf i hl x y fr fi) fac
    have e : (1 + kn l) / (2 * l + 1) * (x * (rad (xp - poleX dt) * 0.6870 + rad (-(yp - poleY dt)) * 0.0036) +
        y * (rad (-(yp - poleY dt)) * 0.6870 - rad (xp - poleX dt) * 0.0036)) * loadOf Om o.cs.re o.cs.gm G ge = F l x y := by
      simp only [F, oceanFormula, loadOf]; ring
    rw [e] at h
    refine h.2.trans ?_
    have p : (0 : ℝ) ≤ |loadOf Om o.cs.re o.cs.gm G ge| / (2 * l + 1) * (|x| + |y|) := by positivity
    have e2 : 1 / (2 * (l : ℝ) + 1) * (|x| * 5.7e-6 + |y| * 5.7e-6) * |loadOf Om o.cs.re o.cs.gm G ge| =
        5.7e-6 * (|loadOf Om o.cs.re o.cs.gm G ge| / (2 * l + 1) * (|x| + |y|)) := by ring
    rw [e2]
    simp only [bound]
    rw [mul_assoc (2.1e-20 : ℝ)]
    generalize |loadOf Om o.cs.re o.cs.gm G ge| / (2 * (l : ℝ) + 1) * (|x| + |y|) = Z at *
    have := mul_le_mul_of_nonneg_right u_le p
    nlinarith
  refine ⟨_, rfl, ?_, ?_⟩
  · have : (scale fl cs (facOf fl quart Om cs.re cs.gm G ge)).rows = cs.rows ∧ (scale fl cs (facOf fl quart Om cs.re cs.gm G ge)).deg = cs.deg := by
      unfold scale
      rw [if_pos hz]
      exact ⟨rfl, rfl⟩
    exact ⟨hw.deg, hw.ord, this.1.trans (g2.trans hw.rows), this.2.trans (g3.trans hw.csdeg), hw.desai⟩
  · intro l k hkl hln hkm
    obtain ⟨f1, f2⟩ := (g7 l k).1 ⟨by rw [List.mem_range]; omega, hkl, hln⟩
    unfold scale
    rw [if_pos hz]
    simp only [f1, f2, g5, g6]
    exact ⟨one 10 l _ _ (by omega), one 12 l _ _ (by omega)⟩

/-- Calls that are not accepted change nothing. -/
theorem ocean_rejected (fl : Rounded.Arith) (s2r quart : ℝ → ℝ) (o : Ocean) (dt xp yp : ℝ) (n m : Int) (Om G ge : ℝ) (h0 : 0 ≤ n) (h1 : 0 ≤ m)
    (h : n < m ∨ o.deg < n ∨ o.ord < m) : stokes fl s2r quart o dt xp yp n m Om G ge = .ok (1, o) := by
  unfold stokes
  simp only
  rw [if_neg (by omega : ¬ n < 0), if_neg (by omega : ¬ m < 0), if_pos (by omega)]

/-- C114: the displacement of a site is that of section 7.1.5 of the Conventions, up to 2.8e-20 of the factor times the coefficients of the site. -/
theorem deformation_rounded {fl : Rounded.Arith} (hf : Faithful fl) {s2r quart : ℝ → ℝ} (hs : SecToRad s2r) (hq : Quart quart) {dot : V3 → V3 → ℝ} (hD : DotProduct dot)
    {lv : ℝ → ℝ → V3 × V3 × V3} (hl : Lvlh lv) {dt' dt xp yp : ℝ} (hd : |dt' - dt| ≤ 4 * u * 100) (hr : |dt| ≤ 100) (hx : |xp| ≤ 1) (hy : |yp| ≤ 1)
    (lon lat : ℝ) (c : SiteCoeffs ℝ) (Re : ℝ) {GM : ℝ} (Om G : ℝ) {ge : ℝ} (hg : GM ≠ 0) (he : ge ≠ 0) :
    let K := siteFactor Om Re GM G ge
    Close3 (2.8e-20 * |K| * siteSize c) (deformation fl s2r quart dot lv dt' xp yp lon lat c Re GM Om G ge)
      (oceanShift K (rad (xp - poleX dt)) (rad (-(yp - poleY dt))) lon lat c) := by
  intro K
  have hu := u_pos
  have hul := u_lt
  obtain ⟨p1, p2⟩ := pole_sc hf hs hd hr hx hy
  have k := Sc.of_rel (load_rel hf hq Re Om G hg he)
  have c1 := component_sc hf 4 c.eR c.eI p1 p2
  have c2 := component_sc hf 10 c.nR c.nI p1 p2
  have c3 := component_sc hf 16 c.rR c.rI p1 p2
  obtain ⟨l1, l2, l3⟩ := hl lat lon
  have dir : ∀ {x' x : ℝ}, |x| ≤ 1 → |x' - x| ≤ 4 * u → Sc 4 1 x' x := fun h1 h2 => ⟨h1, by rw [mul_one]; exact h2⟩
  have S0 : 0 ≤ siteSize c := by unfold siteSize; positivity
  have fin : ∀ {a' a : V3} {y : ℝ}, Sc 4 1 a'.x a.x → Sc 4 1 a'.y a.y → Sc 4 1 a'.z a.z →
      y = K * (a.x * ((rad (xp - poleX dt) * 0.6870 + rad (-(yp - poleY dt)) * 0.0036) * c.eR + (rad (-(yp - poleY dt)) * 0.6870 - rad (xp - poleX dt) * 0.0036) * c.eI) +
        a.y * ((rad (xp - poleX dt) * 0.6870 + rad (-(yp - poleY dt)) * 0.0036) * c.nR + (rad (-(yp - poleY dt)) * 0.6870 - rad (xp - poleX dt) * 0.0036) * c.nI) +
        a.z * ((rad (xp - poleX dt) * 0.6870 + rad (-(yp - poleY dt)) * 0.0036) * c.rR + (rad (-(yp - poleY dt)) * 0.6870 - rad (xp - poleX dt) * 0.0036) * c.rI)) →
      |fl (loadFactor fl quart Re GM Om G ge * dot a' ⟨component fl 4 (s2r (mcoeffs fl dt' xp yp).1) (s2r (mcoeffs fl dt' xp yp).2) c.eR c.eI,
        component fl 10 (s2r (mcoeffs fl dt' xp yp).1) (s2r (mcoeffs fl dt' xp yp).2) c.nR c.nI,
        component fl 16 (s2r (mcoeffs fl dt' xp yp).1) (s2r (mcoeffs fl dt' xp yp).2) c.rR c.rI⟩) - y| ≤ 2.8e-20 * |K| * siteSize c := by
    intro a' a y h1 h2 h3 e
    have d := row_sc hf hD (a' := a') (a := a) (b' := ⟨component fl 4 (s2r (mcoeffs fl dt' xp yp).1) (s2r (mcoeffs fl dt' xp yp).2) c.eR c.eI,
        component fl 10 (s2r (mcoeffs fl dt' xp yp).1) (s2r (mcoeffs fl dt' xp yp).2) c.nR c.nI,
        component fl 16 (s2r (mcoeffs fl dt' xp yp).1) (s2r (mcoeffs fl dt' xp yp).2) c.rR c.rI⟩) (b := ⟨_, _, _⟩) h1 h2 h3 c1 c2 c3
    have h := (Sc.mulf hf k d).2
    rw [e]
    refine h.trans ?_
    have e2 : |siteFactor Om Re GM G ge| * (5.7e-6 * |c.eR| + 5.7e-6 * |c.eI| + (5.7e-6 * |c.nR| + 5.7e-6 * |c.nI|) + (5.7e-6 * |c.rR| + 5.7e-6 * |c.rI|)) =
        5.7e-6 * (|K| * siteSize c) := by unfold siteSize; ring
    rw [e2, mul_assoc (2.8e-20 : ℝ)]
    have p : 0 ≤ |K| * siteSize c := mul_nonneg (abs_nonneg _) S0
    generalize |K| * siteSize c = Z at *
    have := mul_le_mul_of_nonneg_right u_le p
    nlinarith
  obtain ⟨b1, b2, b3⟩ := directions_le lon lat
  refine ⟨fin (a := ⟨(east lon lat).x, (north lon lat).x, (up lon lat).x⟩) (dir b1.1 l1.1) (dir b2.1 l2.1) (dir b3.1 l3.1) ?_, fin (a := ⟨(east lon lat).y, (north lon lat).y, (up lon lat).y⟩) (dir b1.2.1 l1.2.1) (dir b2.2.1 l2.2.1) (dir b3.2.1 l3.2.1) ?_,
    fin (a := ⟨(east lon lat).z, (north lon lat).z, (up lon lat).z⟩) (dir b1.2.2 l1.2.2) (dir b2.2.2 l2.2.2) (dir b3.2.2 l3.2.2) ?_⟩ <;>
  · simp only [oceanShift, V3.add_x, V3.add_y, V3.add_z, V3.smul_x, V3.smul_y, V3.smul_z]
    ring

/-! ### Concrete cases: rounding to nearest, products fused or not; the Earth, polar motion 0.1" and 0.4" in 2012 -/

/-- An exact local frame. -/
theorem exact_lvlh : Lvlh fun lat lon => (east lon lat, north lon lat, up lon lat) := by
  have hu := u_pos
  intro lat lon
  simp [Close3, hu.le]

/-- Degree 3 of a model with coefficients at degree 3. -/
example (s : ℕ → Bool) :
    ∃ cs, stokes (rnArith s) (fun x => x * (2 * Real.pi / 1296000)) (fun x => x ^ 4)
        ⟨3, 3, newSet (fun _ _ => 1) 3 3, ⟨4, fun l _ => if l = 3 then 0.01 else 0, fun _ _ => 0, fun _ _ => 0.02, fun _ _ => 0.03⟩⟩ 12.43 0.1 0.4 3 3 7.2921151467064e-5
        6.67428e-11 9.7803278 = .ok (0, ⟨3, 3, cs, ⟨4, fun l _ => if l = 3 then 0.01 else 0, fun _ _ => 0, fun _ _ => 0.02, fun _ _ => 0.03⟩⟩) ∧
      |cs.C 2 1| ≤ 0 ∧
      |cs.S 3 2 - oceanFormula 7.2921151467064e-5 6378136.6 3.986004418e14 6.67428e-11 9.7803278 (rad (0.1 - poleX 12.43)) (rad (-(0.4 - poleY 12.43))) 3 0.02 0.03| ≤ 3.2e-25 := by
  have hu := u_pos
  have d0 : |(12.43 : ℝ) - 12.43| ≤ 4 * u * 100 := by simp [hu.le]
  obtain ⟨cs, e, -, h⟩ := ocean_rounded (rn_faithful s) s2r_exact (quart := fun x => x ^ 4) (fun x => by rw [sub_self, abs_zero]; positivity)
    (o := ⟨3, 3, newSet (fun _ _ => 1) 3 3, ⟨4, fun l _ => if l = 3 then 0.01 else 0, fun _ _ => 0, fun _ _ => 0.02, fun _ _ => 0.03⟩⟩)
    ⟨by norm_num, by norm_num, rfl, rfl, rfl⟩ (by norm_num) d0 (by norm_num [abs_of_pos]) (xp := 0.1) (yp := 0.4) (by norm_num [abs_of_pos]) (by norm_num [abs_of_pos]) 3 3
    7.2921151467064e-5 6.67428e-11 (ge := 9.7803278) (by norm_num [newSet, PoleTide.cGM]) (by norm_num) (by norm_num) (by norm_num) (by norm_num) (by norm_num) (by norm_num) (by norm_num)
  have L : |loadOf 7.2921151467064e-5 6378136.6 3.986004418e14 6.67428e-11 9.7803278| ≤ 2e-3 := by
    have h1 := Real.pi_pos
    have h2 := Real.pi_lt_d4
    unfold loadOf
    rw [abs_of_pos (by positivity)]
    norm_num
    linarith
  refine ⟨cs, e, ?_, ?_⟩
  · have q := (h 2 1 (by norm_num) (by norm_num) (by norm_num)).1
    norm_num [oceanFormula] at q
    rw [q, abs_zero]
  · refine (h 3 2 (by norm_num) (by norm_num) (by norm_num)).2.trans ?_
    simp only [newSet, PoleTide.cRe, PoleTide.cGM]
    norm_num [abs_of_pos] at L ⊢
    linarith

/-- A site. -/
example (s : ℕ → Bool) (lon lat : ℝ) :
    |(deformation (rnArith s) (fun x => x * (2 * Real.pi / 1296000)) (fun x => x ^ 4) (fun a b => a.x * b.x + a.y * b.y + a.z * b.z)
        (fun lat lon => (east lon lat, north lon lat, up lon lat)) 12.43 0.1 0.4 lon lat ⟨0.05, 0.04, 0.01, -0.02, 0.03, 0⟩ 6378136.6 3.986004418e14 7.2921151467064e-5 6.67428e-11
        9.7803278).z -
      (oceanShift (siteFactor 7.2921151467064e-5 6378136.6 3.986004418e14 6.67428e-11 9.7803278) (rad (0.1 - poleX 12.43)) (rad (-(0.4 - poleY 12.43))) lon lat
        ⟨0.05, 0.04, 0.01, -0.02, 0.03, 0⟩).z| ≤ 3e-17 := by
  have hu := u_pos
  have hD : DotProduct (fun a b => a.x * b.x + a.y * b.y + a.z * b.z) := fun a b => by rw [sub_self, abs_zero]; positivity
  have d0 : |(12.43 : ℝ) - 12.43| ≤ 4 * u * 100 := by simp [hu.le]
  have h := deformation_rounded (rn_faithful s) s2r_exact (quart := fun x => x ^ 4) (fun x => by rw [sub_self, abs_zero]; positivity) hD exact_lvlh d0
    (by norm_num [abs_of_pos]) (xp := 0.1) (yp := 0.4) (by norm_num [abs_of_pos]) (by norm_num [abs_of_pos]) lon lat ⟨0.05, 0.04, 0.01, -0.02, 0.03, 0⟩ 6378136.6
    (GM := 3.986004418e14) 7.2921151467064e-5 6.67428e-11 (ge := 9.7803278) (by norm_num) (by norm_num)
  refine h.2.2.trans ?_
  have K : |siteFactor 7.2921151467064e-5 6378136.6 3.986004418e14 6.67428e-11 9.7803278| ≤ 6000 := by
    have h1 := Real.pi_pos
    have h2 := Real.pi_lt_d4
    have h3 : Real.sqrt (8 * Real.pi / 15) ≤ 1.3 := Real.sqrt_le_iff.mpr ⟨by norm_num, by norm_num; linarith⟩
    have h4 := Real.sqrt_nonneg (8 * Real.pi / 15)
    unfold siteFactor
    rw [abs_of_nonneg (by positivity)]
    have h5 := mul_le_mul h2.le h3 h4 (by norm_num)
    rw [div_le_iff₀ (by norm_num)]
    clear h
    generalize Real.sqrt (8 * Real.pi / 15) = q at *
    generalize Real.pi = p at *
    have e : 4 * p * 6.67428e-11 * 6378136.6 * 1025 * (q * (7.2921151467064e-5 ^ 2 * 6378136.6 ^ 4 / 3.986004418e14)) =
        (p * q) * (4 * 6.67428e-11 * 6378136.6 * 1025 * (7.2921151467064e-5 ^ 2 * 6378136.6 ^ 4 / 3.986004418e14)) := by ring
    rw [e]
    refine le_trans (mul_le_mul_of_nonneg_right h5 (by norm_num)) ?_
    norm_num
  have z : siteSize ⟨0.05, 0.04, 0.01, -0.02, 0.03, 0⟩ = 0.15 := by unfold siteSize; norm_num [abs_of_pos, abs_of_neg]
  rw [z]
  linarith

end Verif.RoundedOceanPole
