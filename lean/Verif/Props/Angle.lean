import Verif.Proof.Angle
import Mathlib.Analysis.Calculus.Deriv.Pow
import Mathlib.Analysis.Calculus.Deriv.Add
import Mathlib.Analysis.Calculus.Deriv.Mul
import Mathlib.Analysis.Real.Pi.Bounds
/-
C15, C25, C26: angular arguments, sidereal time, rates.
-/
namespace Verif.Angle
open Verif Doodson Iau Fundarg

/-! ### C15 -/

/-- C15: the argument of a constituent lies in [0, 2π) and equals, modulo 2π, the combination of the
Doodson arguments with the multipliers. It is the only such angle. -/
theorem doodson_argument (d : DC) (f : Fin 6 → ℝ) :
    InCircle (d.argument f) ∧ Cong (d.argument f) (d.combine (f 0) (f 1) (f 2) (f 3) (f 4) (f 5)) ∧
    ∀ x, InCircle x → Cong x (d.combine (f 0) (f 1) (f 2) (f 3) (f 4) (f 5)) → x = d.argument f := by
  have e : f 0 * d.i0 + f 1 * d.i1 + f 2 * d.i2 + f 3 * d.i3 + f 4 * d.i4 + f 5 * d.i5 =
      d.combine (f 0) (f 1) (f 2) (f 3) (f 4) (f 5) := by unfold DC.combine; ring
  unfold DC.argument
  rw [e]
  exact ⟨anp_inCircle _, anp_cong _, fun x h1 h2 => (anp_unique h1 h2).symm⟩

/-- C15: the Doodson arguments are in [0, 2π) and satisfy, modulo 2π, their definitions
τ = GMST + π - s, s = F + Ω, h = s - D, p = s - l, N' = -Ω, ps = s - D - l'. -/
theorem delaunay_relations (l l' F D Om gmst : ℝ) :
    let f := delaunay2doodson ![l, l', F, D, Om] gmst
    (∀ i, InCircle (f i)) ∧ Cong (f 0) (gmst + Real.pi - f 1) ∧ Cong (f 1) (F + Om) ∧
      Cong (f 2) (f 1 - D) ∧ Cong (f 3) (f 1 - l) ∧ Cong (f 4) (-Om) ∧ Cong (f 5) (f 1 - D - l') := by
  intro f
  have h1 : Cong (F + Om) (f 1) := (anp_cong _).symm
  refine ⟨?_, anp_cong _, h1.symm, ?_, ?_, anp_cong _, ?_⟩
  · intro i
    fin_cases i <;> exact anp_inCircle _
  · exact (anp_cong _).trans (h1.sub (Cong.refl D))
  · exact (anp_cong _).trans (h1.sub (Cong.refl l))
  · exact (anp_cong _).trans ((h1.sub (Cong.refl D)).sub (Cong.refl l'))

/-- C15: the argument computed through the Doodson arguments equals, modulo 2π, the combination of
Delaunay arguments and GMST. -/
theorem argument_either_basis (d : DC) (l l' F D Om gmst : ℝ) :
    Cong (d.argument (delaunay2doodson ![l, l', F, D, Om] gmst))
      (d.i0 * (gmst + Real.pi) + (-d.i0 + d.i1 + d.i2 + d.i3 + d.i5) * (F + Om) - (d.i2 + d.i5) * D -
        d.i3 * l - d.i4 * Om - d.i5 * l') := by
  refine (anp_cong _).trans ?_
  obtain ⟨_, h0, h1, h2, h3, h4, h5⟩ := delaunay_relations l l' F D Om gmst
  have h0' := h0.trans ((Cong.refl (gmst + Real.pi)).sub h1)
  have h2' := h2.trans (h1.sub (Cong.refl D))
  have h3' := h3.trans (h1.sub (Cong.refl l))
  have h5' := h5.trans ((h1.sub (Cong.refl D)).sub (Cong.refl l'))
  have := ((((h0'.mul_int d.i0).add (h1.mul_int d.i1)).add (h2'.mul_int d.i2)).add (h3'.mul_int d.i3)).add
    (h4.mul_int d.i4) |>.add (h5'.mul_int d.i5)
  refine (Cong.of_eq ?_).trans (this.trans (Cong.of_eq ?_))
  · ring
  · ring

/-- A concrete case of C15: for the M2 constituent (255.555) with τ = 3π the argument is 0. -/
example : (⟨2, 0, 0, 0, 0, 0, 0⟩ : DC).argument ![3 * Real.pi, 0, 0, 0, 0, 0] = 0 := by
  have hp := Real.pi_pos
  refine anp_unique ⟨le_refl _, by positivity⟩ ⟨-3, ?_⟩
  simp; ring

/-! ### C25 -/

/-- C25: the Earth rotation angle is in [0, 2π) and congruent to the IERS formula in days since J2000. -/
theorem era00_correct (ut1 : Epoch) :
    InCircle (era00 ut1) ∧ Cong (era00 ut1) (eraIers ut1.daysSinceJ2000) := by
  refine ⟨anp_inCircle _, (anp_cong _).trans ⟨51545 - ut1.mjd, ?_⟩⟩
  unfold eraIers Epoch.daysSinceJ2000 D2PI
  push_cast
  ring

/-- C25: Greenwich mean sidereal time (IAU 2006). -/
theorem gmst_correct (tt ut1 : Epoch) :
    InCircle (gmst tt ut1) ∧
      Cong (gmst tt ut1) (eraIers ut1.daysSinceJ2000 + sec2rad (gmstPoly tt.jcenturies)) := by
  refine ⟨anp_inCircle _, (anp_cong _).trans ((era00_correct ut1).2.add (Cong.of_eq ?_))⟩
  unfold gmstPoly
  congr 1
  ring

/-- C25: Greenwich mean sidereal time (IAU 1982). -/
theorem gmst82_correct (ut1 : Epoch) :
    InCircle (gmst82 ut1) ∧
      Cong (gmst82 ut1) (2 * Real.pi * (gmst82Poly ut1.jcenturies (ut1.f * 86400) / 86400)) := by
  refine ⟨anp_inCircle _, (anp_cong _).trans (Cong.of_eq ?_)⟩
  unfold gmst82Poly hsec2rad
  ring

/-- C25 (partial): the Delaunay arguments are congruent to the IERS polynomials, and lie in [0, 2π) when
the polynomial is not negative. Missing: the range for negative polynomials, where it is false
(`faom03_range_fails`). -/
theorem delaunay_correct_partial (t : ℝ) :
    (Cong (fal03 t) (sec2rad (lPoly t)) ∧ (0 ≤ lPoly t → InCircle (fal03 t))) ∧
    (Cong (falp03 t) (sec2rad (lpPoly t)) ∧ (0 ≤ lpPoly t → InCircle (falp03 t))) ∧
    (Cong (faf03 t) (sec2rad (fPoly t)) ∧ (0 ≤ fPoly t → InCircle (faf03 t))) ∧
    (Cong (fad03 t) (sec2rad (dPoly t)) ∧ (0 ≤ dPoly t → InCircle (fad03 t))) ∧
    (Cong (faom03 t) (sec2rad (omPoly t)) ∧ (0 ≤ omPoly t → InCircle (faom03 t))) := by
  have key : ∀ x y : ℝ, x = y → Cong (sec2rad (fmod x TURNAS)) (sec2rad y) ∧
      (0 ≤ y → InCircle (sec2rad (fmod x TURNAS))) := by
    rintro x y rfl
    exact ⟨sec2rad_fmod_cong x, (sec2rad_fmod_range x).1⟩
  refine ⟨key _ _ ?_, key _ _ ?_, key _ _ ?_, key _ _ ?_, key _ _ ?_⟩
  · unfold lPoly; ring
  · unfold lpPoly; ring
  · unfold fPoly; ring
  · unfold dPoly; ring
  · unfold omPoly; ring

/-- At J2000 each is in the circle. -/
example : InCircle (fal03 0) ∧ InCircle (falp03 0) ∧ InCircle (faf03 0) ∧ InCircle (fad03 0) ∧ InCircle (faom03 0) := by
  obtain ⟨h1, h2, h3, h4, h5⟩ := delaunay_correct_partial 0
  exact ⟨h1.2 (by norm_num [lPoly]), h2.2 (by norm_num [lpPoly]), h3.2 (by norm_num [fPoly]), h4.2 (by norm_num [dPoly]), h5.2 (by norm_num [omPoly])⟩

/-- C25: all of them lie within one turn of zero. -/
theorem delaunay_range (t : ℝ) : ∀ x ∈ fundarg t, -(2 * Real.pi) < x ∧ x < 2 * Real.pi := by
  intro x hx
  simp only [fundarg, List.mem_cons, List.not_mem_nil, or_false] at hx
  rcases hx with rfl | rfl | rfl | rfl | rfl <;> exact (sec2rad_fmod_range _).2

/-- C25 (partial): mean longitudes of the planets: congruent to their linear expressions, in [0, 2π) when
these are not negative. -/
theorem planet_longitudes_partial (t : ℝ) :
    (Cong (fame03 t) (4.402608842 + 2608.7903141574 * t) ∧ (0 ≤ t → InCircle (fame03 t))) ∧
    (Cong (fave03 t) (3.176146697 + 1021.3285546211 * t) ∧ (0 ≤ t → InCircle (fave03 t))) ∧
    (Cong (fae03 t) (1.753470314 + 628.3075849991 * t) ∧ (0 ≤ t → InCircle (fae03 t))) ∧
    (Cong (fama03 t) (6.203480913 + 334.0612426700 * t) ∧ (0 ≤ t → InCircle (fama03 t))) ∧
    (Cong (faju03 t) (0.599546497 + 52.9690962641 * t) ∧ (0 ≤ t → InCircle (faju03 t))) ∧
    (Cong (fasa03 t) (0.874016757 + 21.3299104960 * t) ∧ (0 ≤ t → InCircle (fasa03 t))) ∧
    (Cong (faur03 t) (5.481293872 + 7.4781598567 * t) ∧ (0 ≤ t → InCircle (faur03 t))) ∧
    (Cong (fane03 t) (5.311886287 + 3.8133035638 * t) ∧ (0 ≤ t → InCircle (fane03 t))) := by
  refine ⟨⟨fmod_D2PI_cong _, fun h => (fmod_D2PI_range _).1 ?_⟩, ⟨fmod_D2PI_cong _, fun h => (fmod_D2PI_range _).1 ?_⟩,
    ⟨fmod_D2PI_cong _, fun h => (fmod_D2PI_range _).1 ?_⟩, ⟨fmod_D2PI_cong _, fun h => (fmod_D2PI_range _).1 ?_⟩,
    ⟨fmod_D2PI_cong _, fun h => (fmod_D2PI_range _).1 ?_⟩, ⟨fmod_D2PI_cong _, fun h => (fmod_D2PI_range _).1 ?_⟩,
    ⟨fmod_D2PI_cong _, fun h => (fmod_D2PI_range _).1 ?_⟩, ⟨fmod_D2PI_cong _, fun h => (fmod_D2PI_range _).1 ?_⟩⟩ <;>
  positivity

/-- A quarter of a century after J2000. -/
example : InCircle (fame03 (1 / 4)) ∧ InCircle (fave03 (1 / 4)) :=
  ⟨(planet_longitudes_partial (1 / 4)).1.2 (by norm_num), (planet_longitudes_partial (1 / 4)).2.1.2 (by norm_num)⟩

/-- C25 fails: Ω is documented to be in [0, 2π), but one century after J2000 it is negative. -/
theorem faom03_range_fails : faom03 1 < 0 := by
  have hT : (0 : ℝ) < TURNAS := by unfold TURNAS; norm_num
  have hp := Real.pi_pos
  unfold faom03 sec2rad fmod trunc
  have h0 : ¬ (0 : ℝ) ≤ (450160.398036 + 1 * (-6962890.5431 + 1 * (7.4722 + 1 * (0.007702 + 1 * (-0.00005939))))) /
      TURNAS := by unfold TURNAS; norm_num
  rw [if_neg h0]
  have hc : ⌈(450160.398036 + 1 * (-6962890.5431 + 1 * (7.4722 + 1 * (0.007702 + 1 * (-0.00005939))))) /
      TURNAS⌉ = (-5 : ℤ) := by
    rw [Int.ceil_eq_iff]; unfold TURNAS; norm_num
  rw [hc]
  apply mul_neg_of_neg_of_pos
  · unfold TURNAS; norm_num
  · positivity

example : ∃ e : Epoch, e.mjd = 51544 ∧ e.f = 0.5 ∧ Cong (era00 e) (2 * Real.pi * 0.7790572732640) := by
  refine ⟨⟨51544, 0.5, by norm_num, by norm_num⟩, rfl, rfl, ?_⟩
  refine ((era00_correct _).2).trans (Cong.of_eq ?_)
  unfold eraIers Epoch.daysSinceJ2000
  norm_num

/-! ### C26 -/

/-- C26 (partial): each rate function is the derivative of its polynomial at J2000, and at any other
epoch the mean rate since J2000 (increase since J2000 divided by the elapsed time). Missing: being the
derivative at every epoch, which is false (`fundarg_rate_fails`). -/
theorem fundarg_rates_partial (t : ℝ) :
    (dfal03 t * t = sec2rad (lPoly t) - sec2rad (lPoly 0) ∧
      HasDerivAt (fun x => sec2rad (lPoly x)) (dfal03 0) 0) ∧
    (dfalp03 t * t = sec2rad (lpPoly t) - sec2rad (lpPoly 0) ∧
      HasDerivAt (fun x => sec2rad (lpPoly x)) (dfalp03 0) 0) ∧
    (dfaf03 t * t = sec2rad (fPoly t) - sec2rad (fPoly 0) ∧
      HasDerivAt (fun x => sec2rad (fPoly x)) (dfaf03 0) 0) ∧
    (dfad03 t * t = sec2rad (dPoly t) - sec2rad (dPoly 0) ∧
      HasDerivAt (fun x => sec2rad (dPoly x)) (dfad03 0) 0) ∧
    (dfaom03 t * t = sec2rad (omPoly t) - sec2rad (omPoly 0) ∧
      HasDerivAt (fun x => sec2rad (omPoly x)) (dfaom03 0) 0) := by
  have D : ∀ (a b c d e x : ℝ), HasDerivAt (fun x : ℝ => sec2rad (a + b * x + c * x ^ 2 + d * x ^ 3 + e * x ^ 4))
      (sec2rad (b + 2 * c * x + 3 * d * x ^ 2 + 4 * e * x ^ 3)) x := by
    intro a b c d e x
    have h1 : HasDerivAt (fun x : ℝ => x) 1 x := hasDerivAt_id x
    have := ((((h1.const_mul b).const_add a).add ((h1.pow 2).const_mul c)).add ((h1.pow 3).const_mul d)).add
      ((h1.pow 4).const_mul e) |>.mul_const (2 * Real.pi / 1296000)
    unfold sec2rad
    refine this.congr_deriv ?_
    simp
    ring
  refine ⟨⟨?_, ?_⟩, ⟨?_, ?_⟩, ⟨?_, ?_⟩, ⟨?_, ?_⟩, ⟨?_, ?_⟩⟩
  · unfold dfal03 lPoly sec2rad; ring
  · refine ((D 485868.249036 1717915923.2178 31.8792 0.051635 (-0.00024470) 0).congr_deriv ?_).congr_of_eventuallyEq ?_
    · unfold dfal03; congr 1; ring
    · exact Filter.Eventually.of_forall fun x => by unfold lPoly; congr 1; ring
  · unfold dfalp03 lpPoly sec2rad; ring
  · refine ((D 1287104.793048 129596581.0481 (-0.5532) 0.000136 (-0.00001149) 0).congr_deriv ?_).congr_of_eventuallyEq ?_
    · unfold dfalp03; congr 1; ring
    · exact Filter.Eventually.of_forall fun x => by unfold lpPoly; congr 1; ring
  · unfold dfaf03 fPoly sec2rad; ring
  · refine ((D 335779.526232 1739527262.8478 (-12.7512) (-0.001037) 0.00000417 0).congr_deriv ?_).congr_of_eventuallyEq ?_
    · unfold dfaf03; congr 1; ring
    · exact Filter.Eventually.of_forall fun x => by unfold fPoly; congr 1; ring
  · unfold dfad03 dPoly sec2rad; ring
  · refine ((D 1072260.703692 1602961601.2090 (-6.3706) 0.006593 (-0.00003169) 0).congr_deriv ?_).congr_of_eventuallyEq ?_
    · unfold dfad03; congr 1; ring
    · exact Filter.Eventually.of_forall fun x => by unfold dPoly; congr 1; ring
  · unfold dfaom03 omPoly sec2rad; ring
  · refine ((D 450160.398036 (-6962890.5431) 7.4722 0.007702 (-0.00005939) 0).congr_deriv ?_).congr_of_eventuallyEq ?_
    · unfold dfaom03; congr 1; ring
    · exact Filter.Eventually.of_forall fun x => by unfold omPoly; congr 1; ring

/-- C26 fails: one century after J2000 `dfal03` is not the derivative of the mean anomaly of the Moon. -/
theorem fundarg_rate_fails : ¬ HasDerivAt (fun x => sec2rad (lPoly x)) (dfal03 1) 1 := by
  have h1 : HasDerivAt (fun x : ℝ => x) 1 (1 : ℝ) := hasDerivAt_id 1
  have D := ((((h1.const_mul 1717915923.2178).const_add 485868.249036).add ((h1.pow 2).const_mul 31.8792)).add
    ((h1.pow 3).const_mul 0.051635)).sub ((h1.pow 4).const_mul 0.00024470) |>.mul_const (2 * Real.pi / 1296000)
  intro h
  have hu := h.unique D
  have hp := Real.pi_pos
  unfold dfal03 sec2rad at hu
  norm_num at hu

/-- C26 fails: the overload of `dfaf03` for epochs returns the angle, not its rate. -/
theorem dfaf03_epoch_fails : dfaf03Epoch 0 ≠ dfaf03 0 := by
  have hp := Real.pi_pos
  have h := (sec2rad_fmod_range
    (335779.526232 + 0 * (1739527262.8478 + 0 * (-12.7512 + 0 * (-0.001037 + 0 * (0.00000417)))))).2.2
  intro he
  have e1 : dfaf03Epoch 0 < 2 * Real.pi := h
  rw [he] at e1
  unfold dfaf03 sec2rad at e1
  norm_num at e1
  nlinarith

/-- C26: how far `dgmst` is from the derivative (per day) of GMST, at every epoch. The derivative is what remains after taking from the
returned value one revolution of the Earth rotation angle, and adding the terms lost by not multiplying each
coefficient of the polynomial with its exponent. `T` is days since J2000 for both UT1 and TT. -/
theorem dgmst_value (e : Epoch) :
    HasDerivAt (fun T => eraIers T + sec2rad (gmstPoly (T / 36525)))
      (dgmst e - 2 * Real.pi * 1.00273781191135448 +
        sec2rad (1.3915817 * e.jcenturies - 2 * 0.00000044 * e.jcenturies ^ 2 - 3 * 0.000029956 * e.jcenturies ^ 3 -
          4 * 0.0000000368 * e.jcenturies ^ 4) / 36525) e.daysSinceJ2000 := by
  have h1 : HasDerivAt (fun x : ℝ => x) 1 e.daysSinceJ2000 := hasDerivAt_id _
  have hd : HasDerivAt (fun x : ℝ => x / 36525) (1 / 36525) e.daysSinceJ2000 := h1.div_const 36525
  have D := ((((((hd.const_mul 4612.156534).const_add 0.014506).add ((hd.pow 2).const_mul 1.3915817)).sub
    ((hd.pow 3).const_mul 0.00000044)).sub ((hd.pow 4).const_mul 0.000029956)).sub
    ((hd.pow 5).const_mul 0.0000000368)) |>.mul_const (2 * Real.pi / 1296000)
  have E := (((h1.const_mul 1.00273781191135448).const_add 0.7790572732640).const_mul (2 * Real.pi)).add D
  unfold eraIers gmstPoly sec2rad
  refine E.congr_deriv ?_
  have ht : e.daysSinceJ2000 = e.jcenturies * 36525 := by unfold Epoch.jcenturies; ring
  unfold dgmst D2PI sec2rad
  rw [ht]
  generalize e.jcenturies = t
  norm_num
  ring

/-- C26 fails: `dgmst` at J2000 is not the derivative (per day) of GMST; it counts one revolution per day
too many. `T` is days since J2000 for both UT1 and TT. -/
theorem dgmst_fails : ∃ e : Epoch, e.daysSinceJ2000 = 0 ∧
    ¬ HasDerivAt (fun T => eraIers T + sec2rad (gmstPoly (T / 36525))) (dgmst e) 0 := by
  have hp := Real.pi_pos
  let e : Epoch := ⟨51544, 0.5, by norm_num, by norm_num⟩
  have h0 : e.daysSinceJ2000 = 0 := by simp [e, Epoch.daysSinceJ2000]; norm_num
  have ht : e.jcenturies = 0 := by unfold Epoch.jcenturies; rw [h0]; simp
  have key := dgmst_value e
  rw [h0, ht] at key
  refine ⟨e, h0, ?_⟩
  intro h
  have := h.unique key
  unfold sec2rad at this
  norm_num at this
  linarith

end Verif.Angle
