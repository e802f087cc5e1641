import Verif.Proof.RoundedAtlas
/-
C113: the coefficients of an ocean or atmospheric tide model in double precision.
-/
namespace Verif.RoundedAtlas
open Verif Verif.Rounded Verif.Rounding Verif.RoundedCip Verif.RoundedEopTides Verif.Iau Verif.Fundarg Verif.Doodson
open Verif.Tide (Constituent Atlas Admittance SameSize angle potential waveAt setOf)
open Verif.Angle (sec2rad Cong)
open Verif.EopTides (dargs)

theorem forEach_map {α β γ : Type} (f : α → β) (g : β → γ → Res γ) (l : List α) (x : γ) : forEach (l.map f) g x = forEach l (fun a => g (f a)) x := by
  induction l generalizing x with
  | nil => rfl
  | cons a l ih =>
    simp only [List.map_cons, forEach]
    congr 1
    exact funext ih

/-- The sum over the items, all coefficients. -/
theorem items_ok {fl : Rounded.Arith} (hf : Faithful fl) {ε : ℝ} (e0 : 0 ≤ ε) (e1 : ε ≤ 0.001) (l : List Item) (hn : l.length ≤ 1000000)
    (h : ∀ p ∈ l, App p.α (p.α * ε) p.c' p.c ∧ App p.α (p.α * ε) p.s' p.s) (m : Coeffs ℝ) (hr : ∀ p ∈ l, p.w.cos.rows = m.rows ∧ p.w.sin.rows = m.rows) :
    ∃ m', forEach l (fun p m => accum fl m p.w.cos p.w.sin p.c' p.s') m.clear = .ok m' ∧ m'.deg = m.deg ∧ m'.ord = m.ord ∧ m'.rows = m.rows ∧ ∀ i j,
      |m'.C i j - (l.map fun p => p.w.cos.C i j * p.c + p.w.sin.C i j * p.s).sum| ≤
        (ε + (2 * l.length + 3) * u) * (l.map fun p => p.α * (|p.w.cos.C i j| + |p.w.sin.C i j|)).sum ∧
      |m'.S i j - (l.map fun p => p.w.cos.S i j * p.c + p.w.sin.S i j * p.s).sum| ≤
        (ε + (2 * l.length + 3) * u) * (l.map fun p => p.α * (|p.w.cos.S i j| + |p.w.sin.S i j|)).sum := by
  obtain ⟨m', e, d1, d2, d3, hv⟩ := accum_all (fl := fl) l m.clear hr
  refine ⟨m', e, d1, d2, d3, fun i j => ?_⟩
  rw [(hv i j).1, (hv i j).2]
  exact ⟨items_app hf e0 e1 l hn h 0 1 (fun w => w.cos.C i j) (fun w => w.sin.C i j), items_app hf e0 e1 l hn h 2 3 (fun w => w.cos.S i j) (fun w => w.sin.S i j)⟩

theorem bound_le {ε n S x : ℝ} (S0 : 0 ≤ S) (h : x ≤ (ε + 2 * u + (2 * n + 3) * u) * S) : x ≤ (ε + (2 * n + 5) * u) * S :=
  h.trans (mul_le_mul_of_nonneg_right (by linarith) S0)

theorem strength_nonneg (a : Atlas) (v : Coeffs ℝ → Nat → Nat → ℝ) (i j : Nat) : 0 ≤ strength a v i j := by
  unfold strength
  apply List.sum_nonneg
  intro x hx
  obtain ⟨w, -, rfl⟩ := List.mem_map.mp hx
  positivity

/-- C113, ocean: every coefficient is the sum over the constituents of in-phase coefficient times cosine plus quadrature coefficient times sine of
the astronomical angle, up to the error of the angles and `2 n + 5` roundings relative to the sum of the absolute values. -/
theorem ocean_rounded {fl : Rounded.Arith} (hf : Faithful fl) {fsin fcos s2r : ℝ → ℝ} (hT : Trig fsin fcos) (hs : SecToRad s2r) (tt ut1 : Epoch)
    {f tu t f' tu' t' : ℝ} (hut : Sees ut1 f tu t) (htt : Sees tt f' tu' t') (hr : |ut1.daysSinceJ2000| ≤ 36525) (hr' : |tt.jcenturies| ≤ 1)
    (a : Atlas) (hn : a.length ≤ 1000000) {w : ℝ} (w1 : 1 ≤ w) (w2 : w ≤ 1000000) (hd : ∀ x ∈ a, Multipliers w x.d) (mcs : Coeffs ℝ) (hz : SameSize a mcs.rows) :
    let A := dargs tt.jcenturies
    let θ := fun d => angle d (eraIers ut1.daysSinceJ2000 + sec2rad (gmstPoly tt.jcenturies)) (A 0) (A 1) (A 2) (A 3) (A 4)
    ∃ m', oceanCoeffs fl fsin fcos a mcs (Rounded.gmst fl s2r t' f tu) (Rounded.fundarg fl s2r t') = .ok m' ∧
      m'.deg = mcs.deg ∧ m'.ord = mcs.ord ∧ m'.rows = mcs.rows ∧ ∀ i j,
      |m'.C i j - potential a θ Coeffs.C i j| ≤ (w * 1.6e-10 + (2 * a.length + 5) * u) * strength a Coeffs.C i j ∧
      |m'.S i j - potential a θ Coeffs.S i j| ≤ (w * 1.6e-10 + (2 * a.length + 5) * u) * strength a Coeffs.S i j := by
  intro A θ
  have hu := u_pos
  have hul := u_lt
  let g := Rounded.delaunay2doodson fl (Rounded.fundarg fl s2r t') (Rounded.gmst fl s2r t' f tu)
  let it : Constituent → Item := fun x => ⟨x, fcos (Rounded.argument fl x.d g), fsin (Rounded.argument fl x.d g), Real.cos (θ x.d), Real.sin (θ x.d), 1⟩
  have hi : ∀ p ∈ a.map it, App p.α (p.α * (w * 1.6e-10 + 2 * u)) p.c' p.c ∧ App p.α (p.α * (w * 1.6e-10 + 2 * u)) p.s' p.s := by
    intro p hp
    obtain ⟨x, hx, rfl⟩ := List.mem_map.mp hp
    have N := wave_near hf hs tt ut1 hut htt hr hr' w1 (hd x hx)
    simp only [it, one_mul]
    exact ⟨app_cos hT N, app_sin hT N⟩
  obtain ⟨m', e, d1, d2, d3, hv⟩ := items_ok hf (by positivity) (by linarith) (a.map it) (by simpa using hn) hi mcs (by
    intro p hp
    obtain ⟨x, hx, rfl⟩ := List.mem_map.mp hp
    exact hz x hx)
  rw [forEach_map] at e
  refine ⟨m', e, d1, d2, d3, fun i j => ?_⟩
  obtain ⟨v1, v2⟩ := hv i j
  simp only [List.length_map, List.map_map, Function.comp_def, it, one_mul] at v1 v2
  exact ⟨bound_le (strength_nonneg a _ i j) v1, bound_le (strength_nonneg a _ i j) v2⟩

/-- C113, atmosphere: the angle has the phase of the constituent added. -/
theorem atm_rounded {fl : Rounded.Arith} (hf : Faithful fl) {fsin fcos s2r : ℝ → ℝ} (hT : Trig fsin fcos) (hs : SecToRad s2r) (tt ut1 : Epoch)
    {f tu t f' tu' t' : ℝ} (hut : Sees ut1 f tu t) (htt : Sees tt f' tu' t') (hr : |ut1.daysSinceJ2000| ≤ 36525) (hr' : |tt.jcenturies| ≤ 1)
    (a : Atlas) (hn : a.length ≤ 1000000) {w : ℝ} (w1 : 1 ≤ w) (w2 : w ≤ 1000000) (hd : ∀ x ∈ a, Multipliers w x.d ∧ |(x.d.pifac : ℝ)| ≤ 4) (mcs : Coeffs ℝ)
    (hz : SameSize a mcs.rows) :
    let A := dargs tt.jcenturies
    let θ := fun d => angle d (eraIers ut1.daysSinceJ2000 + sec2rad (gmstPoly tt.jcenturies)) (A 0) (A 1) (A 2) (A 3) (A 4) + d.pifac * (Real.pi / 2)
    ∃ m', atmCoeffs fl fsin fcos a mcs (Rounded.gmst fl s2r t' f tu) (Rounded.fundarg fl s2r t') = .ok m' ∧
      m'.deg = mcs.deg ∧ m'.ord = mcs.ord ∧ m'.rows = mcs.rows ∧ ∀ i j,
      |m'.C i j - potential a θ Coeffs.C i j| ≤ (w * 1.61e-10 + (2 * a.length + 5) * u) * strength a Coeffs.C i j ∧
      |m'.S i j - potential a θ Coeffs.S i j| ≤ (w * 1.61e-10 + (2 * a.length + 5) * u) * strength a Coeffs.S i j := by
  intro A θ
  have hu := u_pos
  have hul := u_lt
  let g := Rounded.delaunay2doodson fl (Rounded.fundarg fl s2r t') (Rounded.gmst fl s2r t' f tu)
  let ar : DC → ℝ := fun d => fl (Rounded.argument fl d g + fl (fl (d.pifac * DPI fl) / 2))
  let it : Constituent → Item := fun x => ⟨x, fcos (ar x.d), fsin (ar x.d), Real.cos (θ x.d), Real.sin (θ x.d), 1⟩
  have hi : ∀ p ∈ a.map it, App p.α (p.α * (w * 1.61e-10 + 2 * u)) p.c' p.c ∧ App p.α (p.α * (w * 1.61e-10 + 2 * u)) p.s' p.s := by
    intro p hp
    obtain ⟨x, hx, rfl⟩ := List.mem_map.mp hp
    have N := phase_near hf w1 (wave_near hf hs tt ut1 hut htt hr hr' w1 (hd x hx).1) (argument_range hf x.d _) (hd x hx).2
    simp only [it, one_mul]
    exact ⟨app_cos hT N, app_sin hT N⟩
  obtain ⟨m', e, d1, d2, d3, hv⟩ := items_ok hf (by positivity) (by linarith) (a.map it) (by simpa using hn) hi mcs (by
    intro p hp
    obtain ⟨x, hx, rfl⟩ := List.mem_map.mp hp
    exact hz x hx)
  rw [forEach_map] at e
  refine ⟨m', e, d1, d2, d3, fun i j => ?_⟩
  obtain ⟨v1, v2⟩ := hv i j
  simp only [List.length_map, List.map_map, Function.comp_def, it, one_mul] at v1 v2
  exact ⟨bound_le (strength_nonneg a _ i j) v1, bound_le (strength_nonneg a _ i j) v2⟩

/-- Constituents of different sizes still stop in an assertion. -/
theorem sizes_rounded (fl : Rounded.Arith) (fsin fcos : ℝ → ℝ) (a : Atlas) (mcs : Coeffs ℝ) (hz : ¬ SameSize a mcs.rows) (g : ℝ) (A : Fin 5 → ℝ) :
    oceanCoeffs fl fsin fcos a mcs g A = .abort ∧ atmCoeffs fl fsin fcos a mcs g A = .abort := by
  have key : ∀ (c s : Constituent → ℝ) (a : Atlas) (m : Coeffs ℝ), ¬ SameSize a m.rows →
      forEach a (fun w m => accum fl m w.cos w.sin (c w) (s w)) m = .abort := by
    intro c s a
    induction a with
    | nil => intro m h; exact absurd (by simp [SameSize]) h
    | cons w ws ih =>
      intro m h
      rw [forEach]
      by_cases h1 : w.cos.rows = m.rows ∧ w.sin.rows = m.rows
      · rw [accum_ok h1.1 h1.2]
        refine ih _ fun hs => h fun x hx => ?_
        rcases List.mem_cons.mp hx with rfl | hx
        · exact h1
        · exact hs x hx
      · have : accum fl m w.cos w.sin (c w) (s w) = .abort := by
          unfold accum
          split_ifs with h2 h3
          · rfl
          · rfl
          · exact absurd ⟨by simpa using Eq.symm (not_not.mp h3), (not_not.mp h2).symm.trans (not_not.mp h3).symm⟩ h1
        rw [this]
        rfl
  exact ⟨key _ _ a mcs.clear hz, key _ _ a mcs.clear hz⟩

/-- The items of the loop over the waves. -/
noncomputable def admItems (fsin fcos : ℝ → ℝ) (mv : (n : ℕ) → (Fin n → ℝ) → (Fin n → ℝ) → ℝ) (g : Admittance) (θ' θ : DC → ℝ) : ℕ → Atlas → List Item
  | _, [] => []
  | k, w :: ws => ⟨w, factor mv g θ' fcos k, factor mv g θ' fsin k, ∑ f : Fin g.dood.length, g.A k f * Real.cos (θ g.dood[f]),
      ∑ f : Fin g.dood.length, g.A k f * Real.sin (θ g.dood[f]), ∑ f : Fin g.dood.length, |g.A k f|⟩ :: admItems fsin fcos mv g θ' θ (k + 1) ws

theorem admItems_length (fsin fcos : ℝ → ℝ) (mv) (g : Admittance) (θ' θ : DC → ℝ) : ∀ (a : Atlas) (k : ℕ), (admItems fsin fcos mv g θ' θ k a).length = a.length
  | [], _ => rfl
  | _ :: ws, k => by simp [admItems, admItems_length fsin fcos mv g θ' θ ws (k + 1)]

theorem admItems_mem {fsin fcos : ℝ → ℝ} {mv} {g : Admittance} {θ' θ : DC → ℝ} : ∀ {a : Atlas} {k : ℕ} {p : Item}, p ∈ admItems fsin fcos mv g θ' θ k a →
    ∃ n, ∃ w ∈ a, p = ⟨w, factor mv g θ' fcos n, factor mv g θ' fsin n, ∑ f : Fin g.dood.length, g.A n f * Real.cos (θ g.dood[f]),
      ∑ f : Fin g.dood.length, g.A n f * Real.sin (θ g.dood[f]), ∑ f : Fin g.dood.length, |g.A n f|⟩
  | [], _, _, h => by simp [admItems] at h
  | w :: ws, k, p, h => by
    rw [admItems, List.mem_cons] at h
    rcases h with h | h
    · exact ⟨k, w, by simp, h⟩
    · obtain ⟨n, w', hw, e⟩ := admItems_mem h
      exact ⟨n, w', by simp [hw], e⟩

theorem admItems_sum (fsin fcos : ℝ → ℝ) (mv) (g : Admittance) (θ' θ : DC → ℝ) (F : Item → ℝ) (G : ℕ → Constituent → ℝ)
    (hFG : ∀ k w, F ⟨w, factor mv g θ' fcos k, factor mv g θ' fsin k, ∑ f : Fin g.dood.length, g.A k f * Real.cos (θ g.dood[f]),
      ∑ f : Fin g.dood.length, g.A k f * Real.sin (θ g.dood[f]), ∑ f : Fin g.dood.length, |g.A k f|⟩ = G k w) :
    ∀ (a : Atlas) (k : ℕ), ((admItems fsin fcos mv g θ' θ k a).map F).sum = ∑ i : Fin a.length, G (k + i) a[i]
  | [], _ => by simp [admItems]
  | w :: ws, k => by
    rw [admItems, List.map_cons, List.sum_cons, hFG, admItems_sum fsin fcos mv g θ' θ F G hFG ws (k + 1)]
    have e := Fin.sum_univ_succ (n := ws.length) fun i => G (k + i) ((w :: ws)[i]'(by simpa using i.2))
    refine Eq.trans ?_ e.symm
    simp only [Fin.val_zero, add_zero, Fin.val_succ, List.getElem_cons_succ, Fin.getElem_fin, List.getElem_cons_zero]
    congr 1
    refine Finset.sum_congr rfl fun i _ => ?_
    rw [show k + 1 + (i : ℕ) = k + ((i : ℕ) + 1) by omega]

theorem admLoop_items (fl : Rounded.Arith) (fsin fcos : ℝ → ℝ) (mv) (g : Admittance) (θ' θ : DC → ℝ) : ∀ (a : Atlas) (k : ℕ) (m : Coeffs ℝ), k + a.length ≤ g.rows →
    admLoop fl fsin fcos mv g θ' k a m = forEach (admItems fsin fcos mv g θ' θ k a) (fun p m => accum fl m p.w.cos p.w.sin p.c' p.s') m
  | [], _, _, _ => rfl
  | w :: ws, k, m, h => by
    have h' : k + 1 + ws.length ≤ g.rows := by simp only [List.length_cons] at h; omega
    rw [admLoop, if_pos (by omega), admItems, forEach]
    congr 1
    exact funext fun m => admLoop_items fl fsin fcos mv g θ' θ ws (k + 1) m h'

/-- C113, admittance: every coefficient is the sum over the waves of the matrix and the major waves of matrix element times major wave at the angle of
the wave. -/
theorem admittance_rounded {fl : Rounded.Arith} (hf : Faithful fl) {fsin fcos s2r : ℝ → ℝ} (hT : Trig fsin fcos) (hs : SecToRad s2r)
    {mv : (n : ℕ) → (Fin n → ℝ) → (Fin n → ℝ) → ℝ} (hm : InnerProduct mv) (tt ut1 : Epoch)
    {f tu t f' tu' t' : ℝ} (hut : Sees ut1 f tu t) (htt : Sees tt f' tu' t') (hr : |ut1.daysSinceJ2000| ≤ 36525) (hr' : |tt.jcenturies| ≤ 1)
    (a : Atlas) (hn : a.length ≤ 1000000) (g : Admittance) (hg : g.dood.length ≤ 1000000) (hrows : a.length ≤ g.rows) (hcols : g.cols = g.dood.length)
    {w : ℝ} (w1 : 1 ≤ w) (w2 : w ≤ 100000) (hd : ∀ d ∈ g.dood, Multipliers w d) (mcs : Coeffs ℝ) (hz : SameSize a mcs.rows) :
    let A := dargs tt.jcenturies
    let θ := fun d => angle d (eraIers ut1.daysSinceJ2000 + sec2rad (gmstPoly tt.jcenturies)) (A 0) (A 1) (A 2) (A 3) (A 4)
    let bound := w * 1.6e-10 + (2.1 * g.dood.length + 2 * a.length + 7) * u
    ∃ m', oceanCoeffsAdm fl fsin fcos mv a g mcs (Rounded.gmst fl s2r t' f tu) (Rounded.fundarg fl s2r t') = .ok m' ∧
      m'.deg = mcs.deg ∧ m'.ord = mcs.ord ∧ m'.rows = mcs.rows ∧ ∀ i j,
      |m'.C i j - ∑ f : Fin g.dood.length, ∑ k : Fin a.length, g.A k f * waveAt a[k] (θ g.dood[f]) Coeffs.C i j| ≤ bound * admStrength a g Coeffs.C i j ∧
      |m'.S i j - ∑ f : Fin g.dood.length, ∑ k : Fin a.length, g.A k f * waveAt a[k] (θ g.dood[f]) Coeffs.S i j| ≤ bound * admStrength a g Coeffs.S i j := by
  intro A θ bound
  have hu := u_pos
  have hul := u_lt
  have hg' : (g.dood.length : ℝ) ≤ 1000000 := by exact_mod_cast hg
  let fd := Rounded.delaunay2doodson fl (Rounded.fundarg fl s2r t') (Rounded.gmst fl s2r t' f tu)
  let its := admItems fsin fcos mv g (fun d => Rounded.argument fl d fd) θ 0 a
  let ε := w * 1.6e-10 + 2 * u + (2.1 * g.dood.length + 1.1) * u
  have near : ∀ k : Fin g.dood.length, Near (w * 1.6e-10) (Rounded.argument fl g.dood[k] fd) (θ g.dood[k]) := fun k =>
    wave_near hf hs tt ut1 hut htt hr hr' w1 (hd _ (List.getElem_mem _))
  have hi : ∀ p ∈ its, App p.α (p.α * ε) p.c' p.c ∧ App p.α (p.α * ε) p.s' p.s := by
    intro p hp
    obtain ⟨n, x, hx, rfl⟩ := admItems_mem hp
    exact ⟨factor_app hm hg _ _ _ (by linarith) fun k => app_cos hT (near k), factor_app hm hg _ _ _ (by linarith) fun k => app_sin hT (near k)⟩
  have hu2 : (g.dood.length : ℝ) * u ≤ 1000000 * u := mul_le_mul_of_nonneg_right hg' hu.le
  have g0 : (0 : ℝ) ≤ g.dood.length := Nat.cast_nonneg _
  obtain ⟨m', e, d1, d2, d3, hv⟩ := items_ok hf (ε := ε) (by positivity) (by simp only [ε]; linarith) its (by simpa only [its, admItems_length] using hn) hi mcs (by
    intro p hp
    obtain ⟨n, x, hx, rfl⟩ := admItems_mem hp
    exact hz x hx)
  refine ⟨m', ?_, d1, d2, d3, fun i j => ?_⟩
  · unfold oceanCoeffsAdm
    simp only []
    rw [if_neg (by simp [hcols]), admLoop_items fl fsin fcos mv g _ θ a 0 _ (by omega)]
    exact e
  have fin : ∀ (v : Coeffs ℝ → Nat → Nat → ℝ) (x : ℝ), |x - (its.map fun p => v p.w.cos i j * p.c + v p.w.sin i j * p.s).sum| ≤
      (ε + (2 * its.length + 3) * u) * (its.map fun p => p.α * (|v p.w.cos i j| + |v p.w.sin i j|)).sum →
      |x - ∑ f : Fin g.dood.length, ∑ k : Fin a.length, g.A k f * waveAt a[k] (θ g.dood[f]) v i j| ≤ bound * admStrength a g v i j := by
    intro v x h
    have e1 : (its.map fun p => v p.w.cos i j * p.c + v p.w.sin i j * p.s).sum =
        ∑ f : Fin g.dood.length, ∑ k : Fin a.length, g.A k f * waveAt a[k] (θ g.dood[f]) v i j := by
      refine (admItems_sum fsin fcos mv g _ θ _ (fun k w => v w.cos i j * (∑ f : Fin g.dood.length, g.A k f * Real.cos (θ g.dood[f])) +
        v w.sin i j * ∑ f : Fin g.dood.length, g.A k f * Real.sin (θ g.dood[f])) (fun _ _ => rfl) a 0).trans ?_
      rw [Finset.sum_comm]
      refine Finset.sum_congr rfl fun k _ => ?_
      rw [zero_add, Finset.mul_sum, Finset.mul_sum, ← Finset.sum_add_distrib]
      refine Finset.sum_congr rfl fun f _ => ?_
      unfold waveAt
      ring
    have e2 : (its.map fun p => p.α * (|v p.w.cos i j| + |v p.w.sin i j|)).sum = admStrength a g v i j := by
      refine (admItems_sum fsin fcos mv g _ θ _ (fun k w => (∑ f : Fin g.dood.length, |g.A k f|) * (|v w.cos i j| + |v w.sin i j|)) (fun _ _ => rfl) a 0).trans ?_
      unfold admStrength
      simp only [zero_add]
    have s0 : 0 ≤ admStrength a g v i j := by
      unfold admStrength
      exact Finset.sum_nonneg fun k _ => mul_nonneg (Finset.sum_nonneg fun f _ => abs_nonneg _) (by positivity)
    rw [e1, e2] at h
    refine h.trans (mul_le_mul_of_nonneg_right ?_ s0)
    simp only [its, admItems_length, ε, bound]
    linarith
  exact ⟨fin Coeffs.C _ (hv i j).1, fin Coeffs.S _ (hv i j).2⟩

/-- Summing from left to right, products fused or not, is such an inner product. -/
theorem sequential_inner {fl : Rounded.Arith} (hf : Faithful fl) : InnerProduct (sequential fl) := by
  intro n a b hn
  have hu := u_pos
  have hul := u_lt
  have hn' : (n : ℝ) ≤ 1000000 := by exact_mod_cast hn
  have z0 : App 0 0 (0 : ℝ) 0 := by unfold App; simp
  have S : ∀ F : Fin n → ℝ, ((List.finRange n).map F).sum = ∑ i, F i := fun F => by rw [← List.ofFn_eq_map, List.sum_ofFn]
  have W0 : 0 ≤ ∑ i, |a i * b i| := Finset.sum_nonneg fun i _ => abs_nonneg _
  have fin := fold_app hf (fun i : Fin n => fl.pr i.val (a i * b i)) (fun i => a i * b i) (fun i => |a i * b i|) (fun i => |a i * b i| * u) (W := ∑ i, |a i * b i|)
    (List.finRange n) 0 0 0 0 (fun i _ => ((App.exact (x := a i * b i)).pr hf i.val).mono le_rfl (by linarith)) (fun i _ => mul_nonneg (abs_nonneg _) hu.le) z0 le_rfl (by rw [S, zero_add]) (by
      rw [S, ← Finset.sum_mul, List.length_finRange]
      have h2 := mul_le_mul_of_nonneg_right hn' (by positivity : 0 ≤ 2 * u * ∑ i, |a i * b i|)
      have h3 := mul_le_mul_of_nonneg_left hul.le W0
      nlinarith)
  rw [S, S, S, ← Finset.sum_mul, List.length_finRange, zero_add, zero_add, zero_add] at fin
  refine fin.2.trans ?_
  have := mul_nonneg hu.le W0
  nlinarith

/-! ### Concrete cases: rounding to nearest, products fused or not; 2012-06-06 12h -/

/-- The epoch as the program sees it. -/
theorem epoch_sees : ∃ e : Epoch, e.daysSinceJ2000 = 4540 ∧ e.jcenturies = 4540 / 36525 ∧ Sees e 0.5 4540 (4540 / 36525) := by
  have hu := u_pos
  let e : Epoch := ⟨56084, 0.5, by norm_num, by norm_num⟩
  have hd : e.daysSinceJ2000 = 4540 := by show ((56084 : ℤ) : ℝ) + 0.5 - 51544.5 = _; norm_num
  have hj : e.jcenturies = 4540 / 36525 := by unfold Epoch.jcenturies; rw [hd]
  exact ⟨e, hd, hj, by simp [e, hu.le], by rw [hd, sub_self, abs_zero]; positivity, by rw [hj, sub_self, abs_zero]; positivity⟩

/-- M2 and K1, all coefficients of K1 zero: C20 of the sum. -/
example (s : ℕ → Bool) :
    let s2r := fun x : ℝ => x * (2 * Real.pi / 1296000)
    let A := dargs (4540 / 36525)
    let θ := fun d => angle d (eraIers 4540 + sec2rad (gmstPoly (4540 / 36525))) (A 0) (A 1) (A 2) (A 3) (A 4)
    ∃ m', oceanCoeffs (rnArith s) Real.sin Real.cos [⟨⟨2, 0, 0, 0, 0, 0, 0⟩, Tide.setOf 4 1, Tide.setOf 4 2⟩, ⟨⟨1, 1, 0, 0, 0, 0, 1⟩, Tide.setOf 4 0, Tide.setOf 4 0⟩] (Tide.setOf 4 7)
        (Rounded.gmst (rnArith s) s2r (4540 / 36525) 0.5 4540) (Rounded.fundarg (rnArith s) s2r (4540 / 36525)) = .ok m' ∧
      |m'.C 2 0 - (Real.cos (θ ⟨2, 0, 0, 0, 0, 0, 0⟩) + 2 * Real.sin (θ ⟨2, 0, 0, 0, 0, 0, 0⟩))| ≤ 9.61e-10 := by
  intro s2r A θ
  have hu := u_pos
  have hul := u_lt
  have hT : Trig Real.sin Real.cos := ⟨fun x => by simp [hu.le], fun x => by simp [hu.le]⟩
  obtain ⟨e, hd, hj, hs⟩ := epoch_sees
  obtain ⟨m', k, -, -, -, h⟩ := ocean_rounded (rn_faithful s) hT s2r_exact e e hs hs (by rw [hd]; norm_num [abs_of_pos]) (by rw [hj]; norm_num [abs_of_pos])
    [⟨⟨2, 0, 0, 0, 0, 0, 0⟩, Tide.setOf 4 1, Tide.setOf 4 2⟩, ⟨⟨1, 1, 0, 0, 0, 0, 1⟩, Tide.setOf 4 0, Tide.setOf 4 0⟩] (by simp) (w := 2) (by norm_num) (by norm_num)
    (by simp [Multipliers]) (Tide.setOf 4 7) (by simp [SameSize, Tide.setOf])
  refine ⟨m', k, ?_⟩
  have h := (h 2 0).1
  rw [hj, hd] at h
  change |_ - potential _ θ _ _ _| ≤ _ at h
  clear_value θ
  simp only [potential, strength, Tide.setOf, List.map_cons, List.map_nil, List.sum_cons, List.sum_nil, List.length_cons, List.length_nil] at h
  norm_num [abs_of_pos] at h
  refine h.trans ?_
  linarith

/-- S1 of the atmosphere with a phase of a quarter turn. -/
example (s : ℕ → Bool) :
    let s2r := fun x : ℝ => x * (2 * Real.pi / 1296000)
    let A := dargs (4540 / 36525)
    let θ := fun d => angle d (eraIers 4540 + sec2rad (gmstPoly (4540 / 36525))) (A 0) (A 1) (A 2) (A 3) (A 4)
    ∃ m', atmCoeffs (rnArith s) Real.sin Real.cos [⟨⟨1, 1, -1, 0, 0, 0, 1⟩, Tide.setOf 4 1, Tide.setOf 4 0⟩] (Tide.setOf 4 7)
        (Rounded.gmst (rnArith s) s2r (4540 / 36525) 0.5 4540) (Rounded.fundarg (rnArith s) s2r (4540 / 36525)) = .ok m' ∧
      |m'.S 3 2 - Real.cos (θ ⟨1, 1, -1, 0, 0, 0, 1⟩ + Real.pi / 2)| ≤ 1.62e-10 := by
  intro s2r A θ
  have hu := u_pos
  have hul := u_lt
  have hT : Trig Real.sin Real.cos := ⟨fun x => by simp [hu.le], fun x => by simp [hu.le]⟩
  obtain ⟨e, hd, hj, hs⟩ := epoch_sees
  obtain ⟨m', k, -, -, -, h⟩ := atm_rounded (rn_faithful s) hT s2r_exact e e hs hs (by rw [hd]; norm_num [abs_of_pos]) (by rw [hj]; norm_num [abs_of_pos])
    [⟨⟨1, 1, -1, 0, 0, 0, 1⟩, Tide.setOf 4 1, Tide.setOf 4 0⟩] (by simp) (w := 1) (by norm_num) (by norm_num)
    (by simp [Multipliers]) (Tide.setOf 4 7) (by simp [SameSize, Tide.setOf])
  refine ⟨m', k, ?_⟩
  have h := (h 3 2).2
  rw [hj, hd] at h
  change |_ - potential _ (fun d => θ d + _) _ _ _| ≤ _ at h
  clear_value θ
  simp only [potential, strength, Tide.setOf, List.map_cons, List.map_nil, List.sum_cons, List.sum_nil, List.length_cons, List.length_nil, Rat.cast_one, one_mul, zero_mul,
    add_zero, abs_zero, abs_one] at h
  refine h.trans ?_
  norm_num
  linarith

/-- One major wave, two waves in the matrix. -/
example (s : ℕ → Bool) :
    let s2r := fun x : ℝ => x * (2 * Real.pi / 1296000)
    let A := dargs (4540 / 36525)
    let θ := fun d => angle d (eraIers 4540 + sec2rad (gmstPoly (4540 / 36525))) (A 0) (A 1) (A 2) (A 3) (A 4)
    ∃ m', oceanCoeffsAdm (rnArith s) Real.sin Real.cos (sequential (rnArith s)) [⟨⟨2, 0, 0, 0, 0, 0, 0⟩, Tide.setOf 2 1, Tide.setOf 2 0⟩]
        ⟨[⟨2, 0, 0, 0, 0, 0, 0⟩, ⟨2, 0, 1, 0, 0, 0, 0⟩], 1, 2, fun _ f => f + 1⟩ (Tide.setOf 2 7)
        (Rounded.gmst (rnArith s) s2r (4540 / 36525) 0.5 4540) (Rounded.fundarg (rnArith s) s2r (4540 / 36525)) = .ok m' ∧
      |m'.C 2 1 - (Real.cos (θ ⟨2, 0, 0, 0, 0, 0, 0⟩) + 2 * Real.cos (θ ⟨2, 0, 1, 0, 0, 0, 0⟩))| ≤ 9.61e-10 := by
  intro s2r A θ
  have hu := u_pos
  have hul := u_lt
  have hT : Trig Real.sin Real.cos := ⟨fun x => by simp [hu.le], fun x => by simp [hu.le]⟩
  obtain ⟨e, hd, hj, hs⟩ := epoch_sees
  obtain ⟨m', k, -, -, -, h⟩ := admittance_rounded (rn_faithful s) hT s2r_exact (sequential_inner (rn_faithful s)) e e hs hs (by rw [hd]; norm_num [abs_of_pos])
    (by rw [hj]; norm_num [abs_of_pos]) [⟨⟨2, 0, 0, 0, 0, 0, 0⟩, Tide.setOf 2 1, Tide.setOf 2 0⟩] (by simp)
    ⟨[⟨2, 0, 0, 0, 0, 0, 0⟩, ⟨2, 0, 1, 0, 0, 0, 0⟩], 1, 2, fun _ f => f + 1⟩ (by simp) (by simp) rfl (w := 2) (by norm_num) (by norm_num)
    (by simp [Multipliers]) (Tide.setOf 2 7) (by simp [SameSize, Tide.setOf])
  refine ⟨m', k, ?_⟩
  have h := (h 2 1).1
  rw [hj, hd] at h
  change |_ - ∑ _, ∑ _, _ * waveAt _ (θ _) _ _ _| ≤ _ at h
  clear_value θ
  simp only [admStrength, waveAt, Tide.setOf, List.length_cons, List.length_nil] at h
  rw [Fin.sum_univ_two] at h
  simp [Fin.sum_univ_two] at h
  norm_num [abs_of_pos] at h
  refine h.trans ?_
  linarith

/-- M2 of degree 4 and K1 of degree 3. -/
example (s : ℕ → Bool) (g : ℝ) (A : Fin 5 → ℝ) :
    oceanCoeffs (rnArith s) Real.sin Real.cos [⟨⟨2, 0, 0, 0, 0, 0, 0⟩, Tide.setOf 4 1, Tide.setOf 4 2⟩, ⟨⟨1, 1, 0, 0, 0, 0, 0⟩, Tide.setOf 3 3, Tide.setOf 3 4⟩] (Tide.setOf 4 0) g A = .abort :=
  (sizes_rounded (rnArith s) _ _ _ _ (by simp [SameSize, Tide.setOf]) g A).1

end Verif.RoundedAtlas
