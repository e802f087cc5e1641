import Verif.Model.TideForce
import Verif.Spec.TideForce
import Verif.Props.GroopsDisk
import Verif.Props.Cunningham
import Mathlib.Tactic.Ring
import Mathlib.Tactic.NormNum
/-
C93: the attraction computed from a tide model is that of the files.
-/
namespace Verif.Harmonic
open Verif

theorem harmonic_lin (GM Re : ℝ) (n m : ℕ) (a b C S C' S' : ℝ) (v : V3) :
    harmonic GM Re n m (C * a + C' * b) (S * a + S' * b) v = harmonic GM Re n m C S v * a + harmonic GM Re n m C' S' v * b := by
  unfold harmonic; ring

theorem potential_lin (GM Re : ℝ) (n m : ℕ) (a b : ℝ) (C S C' S' : ℕ → ℕ → ℝ) (v : V3) :
    potential GM Re (fun i j => C i j * a + C' i j * b) (fun i j => S i j * a + S' i j * b) n m v =
      potential GM Re C S n m v * a + potential GM Re C' S' n m v * b := by
  unfold potential
  simp only [harmonic_lin, Finset.sum_add_distrib, Finset.sum_mul]

theorem potential_none (GM Re : ℝ) (n m : ℕ) (v : V3) : potential GM Re (fun _ _ => 0) (fun _ _ => 0) n m v = 0 := by
  have := potential_lin GM Re n m 0 0 (fun _ _ => 0) (fun _ _ => 0) (fun _ _ => 0) (fun _ _ => 0) v
  simpa using this

theorem potential_list {α : Type} (GM Re : ℝ) (n m : ℕ) (C S : α → ℕ → ℕ → ℝ) (v : V3) : ∀ l : List α,
    potential GM Re (fun i j => (l.map fun w => C w i j).sum) (fun i j => (l.map fun w => S w i j).sum) n m v =
      (l.map fun w => potential GM Re (C w) (S w) n m v).sum
  | [] => by simpa using potential_none GM Re n m v
  | w :: l => by
    have := potential_lin GM Re n m 1 1 (C w) (S w) (fun i j => (l.map fun w => C w i j).sum) (fun i j => (l.map fun w => S w i j).sum) v
    simp only [mul_one] at this
    simp only [List.map_cons, List.sum_cons]
    rw [this, potential_list GM Re n m C S v l]

theorem potential_sum {ι : Type} (GM Re : ℝ) (n m : ℕ) (s : Finset ι) (x : ι → ℝ) (C S : ι → ℕ → ℕ → ℝ) (v : V3) :
    potential GM Re (fun i j => ∑ k ∈ s, x k * C k i j) (fun i j => ∑ k ∈ s, x k * S k i j) n m v = ∑ k ∈ s, x k * potential GM Re (C k) (S k) n m v := by
  classical
  induction s using Finset.induction_on with
  | empty => simpa using potential_none GM Re n m v
  | insert k s hk ih =>
    have := potential_lin GM Re n m (x k) 1 (C k) (S k) (fun i j => ∑ k ∈ s, x k * C k i j) (fun i j => ∑ k ∈ s, x k * S k i j) v
    simp only [mul_one] at this
    simp only [Finset.sum_insert hk]
    rw [show (fun i j => x k * C k i j + ∑ k ∈ s, x k * C k i j) = fun i j => C k i j * x k + ∑ k ∈ s, x k * C k i j from by
      funext i j; ring, show (fun i j => x k * S k i j + ∑ k ∈ s, x k * S k i j) = fun i j => S k i j * x k + ∑ k ∈ s, x k * S k i j from by
      funext i j; ring, this, ih]
    ring

theorem potential_eq {GM Re : ℝ} {C S C' S' : ℕ → ℕ → ℝ} {n : ℕ} (h : ∀ l k, k ≤ l → l ≤ n → C l k = C' l k ∧ S l k = S' l k) :
    potential GM Re C S n n = potential GM Re C' S' n n := by
  funext v
  unfold potential
  refine Finset.sum_congr rfl fun l hl => Finset.sum_congr rfl fun k hk => ?_
  simp only [Finset.mem_range] at hl hk
  obtain ⟨h1, h2⟩ := h l k (by omega) (by omega)
  rw [h1, h2]

theorem potential_gm (GM GM' Re : ℝ) (h : GM' ≠ 0) (C S : ℕ → ℕ → ℝ) (n m : ℕ) (v : V3) :
    potential GM Re C S n m v = GM / GM' * potential GM' Re C S n m v := by
  unfold potential
  rw [Finset.mul_sum]
  refine Finset.sum_congr rfl fun i _ => ?_
  rw [Finset.mul_sum]
  refine Finset.sum_congr rfl fun j _ => ?_
  unfold harmonic
  field_simp

theorem gradient_mul {U : V3 → ℝ} {q g : V3} (c : ℝ) (h : IsGradient U q g) : IsGradient (fun v => c * U v) q (c * g) := by
  intro p v t hp hm
  have := (h p v t hp hm).const_mul c
  have e : c * g.dot v = (c * g).dot v := by
    simp only [V3.dot, V3.smul_x, V3.smul_y, V3.smul_z]; ring
  rw [← e]
  exact this

end Verif.Harmonic

namespace Verif.Tide
open Verif Verif.Harmonic

/-! ### The attraction of a set -/

theorem attraction_gradient (c : Coeffs ℝ) {r : V3} (hr : r ≠ 0) {n : Nat} (h1 : 1 ≤ n) (h2 : n ≤ 198) (hd : (n : Int) ≤ c.deg)
    (ho : (n : Int) ≤ c.ord) (hg : 0 ≤ c.gm) (hre : 0 < c.re) {W M : Tri} (hW : n + 3 ≤ W.rows) (hM : n + 3 ≤ M.rows) :
    ∃ a, attraction c r n W M = .ok (some a) ∧ IsGradient (Harmonic.potential c.gm c.re c.C c.S n n) r a := by
  obtain ⟨o, e, h⟩ := Cunningham.acceleration_is_gradient_partial (field c) r n n c.re c.gm W M (fun _ => 0) h2 h1 le_rfl hd ho hre hg hr
    (Or.inl hW) (Or.inl hM)
  have hg' : Cunningham.gradient (field c) r n n (-1) (-1) (some W) (some M) (fun _ => 0) = .ok (some o) := by
    rw [← e]
    have e1 : (if (-1 : ℝ) < 0 then (field c).Re else -1) = c.re := by rw [if_pos (by norm_num)]; rfl
    have e2 : (if (-1 : ℝ) < 0 then (field c).GM else -1) = c.gm := by rw [if_pos (by norm_num)]; rfl
    have e3 : (if c.re < 0 then (field c).Re else c.re) = c.re := if_neg (by linarith)
    have e4 : (if c.gm < 0 then (field c).GM else c.gm) = c.gm := if_neg (by linarith)
    unfold Cunningham.gradient
    simp only [e1, e2, e3, e4]
  refine ⟨o.a, ?_, ?_⟩
  · unfold attraction; rw [hg']; rfl
  · exact h

/-! ### What evaluations leave alone -/

/-- Same degree, order, GM and radius. -/
def Like (c c' : Coeffs ℝ) : Prop := c'.deg = c.deg ∧ c'.ord = c.ord ∧ c'.gm = c.gm ∧ c'.re = c.re

theorem Like.trans {c c' c'' : Coeffs ℝ} (h : Like c c') (h' : Like c' c'') : Like c c'' :=
  ⟨h'.1.trans h.1, h'.2.1.trans h.2.1, h'.2.2.1.trans h.2.2.1, h'.2.2.2.trans h.2.2.2⟩

theorem accum_like {m cos sin m' : Coeffs ℝ} {c s : ℝ} (h : accum m cos sin c s = .ok m') : Like m m' := by
  unfold accum at h
  split at h
  · cases h
  · split at h
    · cases h
    · injection h with h; subst h; exact ⟨rfl, rfl, rfl, rfl⟩

theorem forEach_like (c s : Constituent → ℝ) : ∀ (a : Atlas) (m m' : Coeffs ℝ),
    forEach a (fun w m => accum m w.cos w.sin (c w) (s w)) m = .ok m' → Like m m'
  | [], m, m', h => by injection h with h; subst h; exact ⟨rfl, rfl, rfl, rfl⟩
  | w :: a, m, m', h => by
    simp only [forEach] at h
    cases e : accum m w.cos w.sin (c w) (s w) with
    | ok m1 => rw [e] at h; exact (accum_like e).trans (forEach_like c s a m1 m' h)
    | ub => rw [e] at h; cases h
    | abort => rw [e] at h; cases h
    | throw => rw [e] at h; cases h

theorem admLoop_like (g : Admittance) (θ : Doodson.DC → ℝ) : ∀ (a : Atlas) (k : Nat) (m m' : Coeffs ℝ), admLoop g θ k a m = .ok m' → Like m m'
  | [], _, m, m', h => by injection h with h; subst h; exact ⟨rfl, rfl, rfl, rfl⟩
  | w :: a, k, m, m', h => by
    simp only [admLoop] at h
    split at h
    · cases e : accum m w.cos w.sin (g.factor θ Real.cos k) (g.factor θ Real.sin k) with
      | ok m1 => rw [e] at h; exact (accum_like e).trans (admLoop_like g θ a (k + 1) m1 m' h)
      | ub => rw [e] at h; cases h
      | abort => rw [e] at h; cases h
      | throw => rw [e] at h; cases h
    · cases h

theorem coeffs_like {o o' : Ocean} {tt ut1 : Iau.Epoch} {args : Fin 5 → ℝ} (h : o.coeffs tt ut1 args = .ok o') : Like o.mcs o'.mcs := by
  unfold Ocean.coeffs at h
  cases hg : o.adm with
  | none =>
    simp only [hg] at h
    cases e : oceanCoeffs o.atlas o.mcs tt ut1 args with
    | ok m => rw [e] at h; injection h with h; subst h; exact (show Like o.mcs o.mcs.clear from ⟨rfl, rfl, rfl, rfl⟩).trans (forEach_like _ _ _ _ _ e)
    | ub => rw [e] at h; cases h
    | abort => rw [e] at h; cases h
    | throw => rw [e] at h; cases h
  | some g =>
    simp only [hg] at h
    cases e : oceanCoeffsAdm o.atlas g o.mcs tt ut1 args with
    | ok m =>
      rw [e] at h
      injection h with h
      subst h
      unfold oceanCoeffsAdm at e
      simp only at e
      split at e
      · cases e
      · exact (show Like o.mcs o.mcs.clear from ⟨rfl, rfl, rfl, rfl⟩).trans (admLoop_like _ _ _ _ _ _ e)
    | ub => rw [e] at h; cases h
    | abort => rw [e] at h; cases h
    | throw => rw [e] at h; cases h

theorem calls_like : ∀ (qs : List (Iau.Epoch × Iau.Epoch × (Fin 5 → ℝ))) {o o' : Ocean}, oceanCalls qs o = .ok o' → Like o.mcs o'.mcs
  | [], o, o', h => by injection h with h; subst h; exact ⟨rfl, rfl, rfl, rfl⟩
  | (tt, ut1, args) :: qs, o, o', h => by
    simp only [oceanCalls] at h
    cases e : o.coeffs tt ut1 args with
    | ok o1 => rw [e] at h; exact (coeffs_like e).trans (calls_like qs h)
    | ub => rw [e] at h; cases h
    | abort => rw [e] at h; cases h
    | throw => rw [e] at h; cases h

theorem make_like {junk : Nat → Nat → ℝ} {a : Atlas} {g : Option Admittance} {o : Ocean} (h : Ocean.make junk a g = .ok o) :
    o.mcs.gm = 3.986004418e14 ∧ o.mcs.re = 6378136.6 ∧ o.mcs.ord = min (maxOrder a) (maxDegree a) := by
  obtain ⟨c, e, -, ho, -⟩ := modelSet_ok junk a
  have h0 : 0 ≤ maxDegree a := (foldl_max_le _ a 0).1
  unfold Ocean.make at h
  rw [e] at h
  injection h with h
  subst h
  refine ⟨?_, ?_, ho⟩ <;>
  · unfold modelSet newSet Coeffs.resize at e
    rw [if_neg (by omega)] at e
    simp only [Res.bind] at e
    split at e
    · rw [if_neg (by omega)] at e
      injection e with e
      subst e
      rfl
    · injection e with e
      subst e
      rfl

end Verif.Tide

namespace Verif.Groops
open Verif Verif.Doodson Verif.Tide Verif.Chars Verif.Icgem Verif.Icgem.Head Verif.Harmonic

variable {T : Type} [LinearOrder T] {cal : Cal T} {disk : List Int → Option (List Char)} {junkErr : ErrorModel} {junkE : Entry T}
  {junk : Nat → Nat → ℝ} {md mo : Int} {dir : List Int} {list : List (List Int)} {waves : List (Wave T)} {n : Nat}

/-! ### The potentials -/

theorem wave_potential (w : Wave T) (gm re : ℚ) (hc : w.Constants gm re) (θ : ℝ) (r : V3) :
    Harmonic.potential (gm : ℝ) (re : ℝ) (w.at md mo Record.C θ) (w.at md mo Record.S θ) n n r = w.potential md mo n θ r := by
  obtain ⟨h1, h2, h3, h4⟩ := hc
  unfold Wave.potential Gfc.potential
  rw [h1, h2, h3, h4, ← potential_lin]
  rfl

theorem waves_potential {gm re : ℚ} (hc : ∀ w ∈ waves, w.Constants gm re) (g l l' F D Om : ℝ) (r : V3) :
    Harmonic.potential (gm : ℝ) (re : ℝ) (fun i j => (waves.map fun w => w.at md mo Record.C (angle w.d g l l' F D Om) i j).sum)
      (fun i j => (waves.map fun w => w.at md mo Record.S (angle w.d g l l' F D Om) i j).sum) n n r =
      wavesPotential waves md mo n g l l' F D Om r := by
  rw [potential_list]
  unfold wavesPotential
  congr 1
  exact List.map_congr_left fun w hw => wave_potential w gm re (hc w hw) _ r

theorem all_potential (hc : ∀ w ∈ waves, w.Constants 3.986004418e14 6378136.6) (dood : List DC) (adm : List (List ℚ)) (g l l' F D Om : ℝ) (v : V3) :
    Harmonic.potential 3.986004418e14 6378136.6
      (fun i j => ∑ f : Fin dood.length, ∑ k : Fin waves.length, (((adm.getD k []).getD f 0 : ℚ) : ℝ) *
        waves[k].at md mo Record.C (angle dood[f] g l l' F D Om) i j)
      (fun i j => ∑ f : Fin dood.length, ∑ k : Fin waves.length, (((adm.getD k []).getD f 0 : ℚ) : ℝ) *
        waves[k].at md mo Record.S (angle dood[f] g l l' F D Om) i j) n n v = allPotential waves dood adm md mo n g l l' F D Om v := by
  unfold allPotential
  have : ∀ (f : Fin dood.length) (k : Fin waves.length), waves[k].potential md mo n (angle dood[f] g l l' F D Om) v =
      Harmonic.potential 3.986004418e14 6378136.6 (waves[k].at md mo Record.C (angle dood[f] g l l' F D Om))
        (waves[k].at md mo Record.S (angle dood[f] g l l' F D Om)) n n v := by
    intro f k
    rw [← wave_potential waves[k] _ _ (hc waves[k] (List.getElem_mem k.2))]
    norm_num
  simp only [this, ← potential_sum]
  have one : ∀ (C S : Fin dood.length → ℕ → ℕ → ℝ), ∑ f, Harmonic.potential 3.986004418e14 6378136.6 (C f) (S f) n n v =
      Harmonic.potential 3.986004418e14 6378136.6 (fun i j => ∑ f, C f i j) (fun i j => ∑ f, S f i j) n n v := by
    intro C S
    have := potential_sum 3.986004418e14 6378136.6 n n Finset.univ (fun _ => 1) C S v
    simp only [one_mul] at this
    exact this.symm
  rw [one]

/-- The largest order of the atlas. -/
theorem atlas_order {a : Atlas} (ha : List.Forall₂ (HoldsWave md mo) a waves)
    (hn : ∀ w ∈ waves, w.cos.degree md = n ∧ w.sin.degree md = n) (hf : ∃ w ∈ waves, w.cos.Full md mo) :
    (n : Int) ≤ maxOrder a := by
  obtain ⟨w, hw, hf⟩ := hf
  obtain ⟨c, hc, h⟩ := (mem_of_forall₂ ha).2 w hw
  have h1 := h.cos.ord hf
  rw [(hn w hw).1] at h1
  exact h1.trans ((foldl_max_le (fun w : Constituent => w.cos.ord) a 0).2 c hc)

theorem full_reaches {g : Gfc T} (h : g.Full md mo) : g.Reaches md mo := by
  obtain ⟨r, hr, h1, -, h3⟩ := h
  exact ⟨r, hr, h1, h3⟩

theorem getC_C {c : Coeffs ℝ} {i j : Nat} {x : ℝ} (h : c.getC i j = .ok x) : c.C i j = x := by
  unfold Coeffs.getC at h
  split at h
  · injection h with h
  · cases h

theorem getS_S {c : Coeffs ℝ} {i j : Nat} {x : ℝ} (h : c.getS i j = .ok x) : c.S i j = x := by
  unfold Coeffs.getS at h
  split at h
  · injection h with h
  · cases h

/-- C93 (what the code does): from the files of a model, all read to degree `n`, one of the cosine files complete to order `n`, a model is
made; after any evaluations, at every epoch, the attraction at any point is the gradient of the potential of the coefficients of the
files with the gravitational constant and the radius of the Conventions, whatever those of the files are. -/
theorem ocean_force (h : StoredModel cal disk dir md mo list waves) (hn : ∀ w ∈ waves, w.cos.degree md = n ∧ w.sin.degree md = n)
    (hf : ∃ w ∈ waves, w.cos.Full md mo) (h1 : 1 ≤ n) (h2 : n ≤ 198) :
    ∃ o, oceanModel cal disk junkErr junkE junk (some list) dir md mo = .ok o ∧ ∀ qs, ∃ o', oceanCalls qs o = .ok o' ∧
      ∀ (tt ut1 : Iau.Epoch) (l l' F D Om : ℝ), ∃ o'', o'.coeffs tt ut1 ![l, l', F, D, Om] = .ok o'' ∧
        ∀ (r : V3), r ≠ 0 → ∀ W M : Tri, n + 3 ≤ W.rows → n + 3 ≤ M.rows → ∃ a, attraction o''.mcs r n W M = .ok (some a) ∧
          IsGradient (Harmonic.potential 3.986004418e14 6378136.6
            (fun i j => (waves.map fun w => w.at md mo Record.C (angle w.d (Iau.gmst tt ut1) l l' F D Om) i j).sum)
            (fun i j => (waves.map fun w => w.at md mo Record.S (angle w.d (Iau.gmst tt ut1) l l' F D Om) i j).sum) n n) r a := by
  obtain ⟨w, hw, hfw⟩ := hf
  obtain ⟨o, e, ho⟩ := stored_ocean_partial (junk := junk) (junkErr := junkErr) (junkE := junkE) h hn ⟨w, hw, full_reaches hfw⟩
  obtain ⟨a, ea, ha⟩ := atlas_waves (junk := junk) (junkErr := junkErr) (junkE := junkE) h
  have hord := atlas_order ha hn ⟨w, hw, hfw⟩
  have hdeg := (atlas_size ha hn).2.2 ⟨w, hw, full_reaches hfw⟩
  have hmake : Ocean.make junk a none = .ok o := by
    unfold oceanModel at e; rw [ea] at e; exact e
  obtain ⟨m1, m2, m3⟩ := make_like hmake
  refine ⟨o, e, fun qs => ?_⟩
  obtain ⟨o', e', ho'⟩ := ho qs
  refine ⟨o', e', fun tt ut1 l l' F D Om => ?_⟩
  obtain ⟨o'', e'', hd, hv⟩ := ho' tt ut1 l l' F D Om
  refine ⟨o'', e'', fun r hr W M hW hM => ?_⟩
  obtain ⟨k1, k2, k3, k4⟩ := (calls_like qs e').trans (coeffs_like e'')
  have g1 : o''.mcs.gm = 3.986004418e14 := k3.trans m1
  have g2 : o''.mcs.re = 6378136.6 := k4.trans m2
  obtain ⟨x, ex, hx⟩ := attraction_gradient o''.mcs hr h1 h2 hd.ge (by rw [k2, m3, hdeg]; omega) (by rw [g1]; norm_num) (by rw [g2]; norm_num) hW hM
  refine ⟨x, ex, ?_⟩
  rw [g1, g2] at hx
  have := potential_eq (GM := 3.986004418e14) (Re := 6378136.6) (C := o''.mcs.C) (S := o''.mcs.S) (n := n) (fun i j hij hi =>
    ⟨getC_C (hv i j hij hi).1, getS_S (hv i j hij hi).2⟩)
  rw [this] at hx
  exact hx

/-- C93: if the gravitational constant and the radius of all files are those of the Conventions (3.986004418e14 m³/s², 6378136.6 m), the
attraction is the gradient of the potential of the waves. Missing: other constants, see `ocean_force_fails`; degrees over 198; files that
lack the largest order. -/
theorem ocean_force_partial (h : StoredModel cal disk dir md mo list waves) (hn : ∀ w ∈ waves, w.cos.degree md = n ∧ w.sin.degree md = n)
    (hf : ∃ w ∈ waves, w.cos.Full md mo) (h1 : 1 ≤ n) (h2 : n ≤ 198) (hc : ∀ w ∈ waves, w.Constants 3.986004418e14 6378136.6) :
    ∃ o, oceanModel cal disk junkErr junkE junk (some list) dir md mo = .ok o ∧ ∀ qs, ∃ o', oceanCalls qs o = .ok o' ∧
      ∀ (tt ut1 : Iau.Epoch) (l l' F D Om : ℝ), ∃ o'', o'.coeffs tt ut1 ![l, l', F, D, Om] = .ok o'' ∧
        ∀ (r : V3), r ≠ 0 → ∀ W M : Tri, n + 3 ≤ W.rows → n + 3 ≤ M.rows → ∃ a, attraction o''.mcs r n W M = .ok (some a) ∧
          IsGradient (wavesPotential waves md mo n (Iau.gmst tt ut1) l l' F D Om) r a := by
  obtain ⟨o, e, ho⟩ := ocean_force (junk := junk) (junkErr := junkErr) (junkE := junkE) h hn hf h1 h2
  refine ⟨o, e, fun qs => ?_⟩
  obtain ⟨o', e', ho'⟩ := ho qs
  refine ⟨o', e', fun tt ut1 l l' F D Om => ?_⟩
  obtain ⟨o'', e'', hv⟩ := ho' tt ut1 l l' F D Om
  refine ⟨o'', e'', fun r hr W M hW hM => ?_⟩
  obtain ⟨a, ea, hx⟩ := hv r hr W M hW hM
  refine ⟨a, ea, ?_⟩
  have : wavesPotential waves md mo n (Iau.gmst tt ut1) l l' F D Om = Harmonic.potential 3.986004418e14 6378136.6
      (fun i j => (waves.map fun w => w.at md mo Record.C (angle w.d (Iau.gmst tt ut1) l l' F D Om) i j).sum)
      (fun i j => (waves.map fun w => w.at md mo Record.S (angle w.d (Iau.gmst tt ut1) l l' F D Om) i j).sum) n n := by
    funext v
    rw [← waves_potential hc]
    norm_num
  rw [this]
  exact hx

/-- C93 fails: the gravitational constant of the files has no effect. If all files have the same one, and the radius of the Conventions, the
attraction is that of the waves times the ratio of the constant of the Conventions and that of the files. -/
theorem ocean_force_fails (h : StoredModel cal disk dir md mo list waves) (hn : ∀ w ∈ waves, w.cos.degree md = n ∧ w.sin.degree md = n)
    (hf : ∃ w ∈ waves, w.cos.Full md mo) (h1 : 1 ≤ n) (h2 : n ≤ 198) {gm : ℚ} (hg : gm ≠ 0) (hne : gm ≠ 3.986004418e14)
    (hc : ∀ w ∈ waves, w.Constants gm 6378136.6) :
    ∃ o, oceanModel cal disk junkErr junkE junk (some list) dir md mo = .ok o ∧ ∀ qs, ∃ o', oceanCalls qs o = .ok o' ∧
      ∀ (tt ut1 : Iau.Epoch) (l l' F D Om : ℝ), ∃ o'', o'.coeffs tt ut1 ![l, l', F, D, Om] = .ok o'' ∧
        ∀ (r : V3), r ≠ 0 → ∀ W M : Tri, n + 3 ≤ W.rows → n + 3 ≤ M.rows → ∃ a, attraction o''.mcs r n W M = .ok (some a) ∧
          ∀ g, IsGradient (wavesPotential waves md mo n (Iau.gmst tt ut1) l l' F D Om) r g →
            a = (3.986004418e14 / (gm : ℝ)) * g ∧ (g ≠ 0 → a ≠ g) := by
  obtain ⟨o, e, ho⟩ := ocean_force (junk := junk) (junkErr := junkErr) (junkE := junkE) h hn hf h1 h2
  refine ⟨o, e, fun qs => ?_⟩
  obtain ⟨o', e', ho'⟩ := ho qs
  refine ⟨o', e', fun tt ut1 l l' F D Om => ?_⟩
  obtain ⟨o'', e'', hv⟩ := ho' tt ut1 l l' F D Om
  refine ⟨o'', e'', fun r hr W M hW hM => ?_⟩
  obtain ⟨a, ea, hx⟩ := hv r hr W M hW hM
  refine ⟨a, ea, fun g hgr => ?_⟩
  have hg' : (gm : ℝ) ≠ 0 := by exact_mod_cast hg
  have hfun : Harmonic.potential 3.986004418e14 6378136.6
      (fun i j => (waves.map fun w => w.at md mo Record.C (angle w.d (Iau.gmst tt ut1) l l' F D Om) i j).sum)
      (fun i j => (waves.map fun w => w.at md mo Record.S (angle w.d (Iau.gmst tt ut1) l l' F D Om) i j).sum) n n =
      fun v => 3.986004418e14 / (gm : ℝ) * wavesPotential waves md mo n (Iau.gmst tt ut1) l l' F D Om v := by
    funext v
    rw [← waves_potential hc, potential_gm 3.986004418e14 (gm : ℝ) _ hg']
    norm_num
  rw [hfun] at hx
  have heq := Cunningham.gradient_unique hx (gradient_mul _ hgr)
  refine ⟨heq, fun h0 hag => h0 ?_⟩
  rw [hag] at heq
  have hk : (3.986004418e14 : ℝ) / gm ≠ 1 := by
    intro hh
    rw [div_eq_one_iff_eq hg'] at hh
    apply hne
    have : ((3.986004418e14 : ℚ) : ℝ) = (gm : ℝ) := by rw [← hh]; norm_num
    exact_mod_cast this.symm
  have hz : ∀ x : ℝ, x = (3.986004418e14 : ℝ) / gm * x → x = 0 := by
    intro x hx
    by_contra hne
    exact hk (mul_right_cancel₀ hne (by rw [← hx, one_mul]))
  have := congrArg V3.x heq
  have hy := congrArg V3.y heq
  have hzz := congrArg V3.z heq
  simp only [V3.smul_x, V3.smul_y, V3.smul_z] at this hy hzz
  exact V3.ext (hz _ this) (hz _ hy) (hz _ hzz)

/-- C93: likewise with admittances: the attraction is the gradient of the potential of all waves. Missing: as in `ocean_force_partial`. -/
theorem admittance_force_partial {junkI : List Int} {junkA : Nat → Nat → ℚ} (h : StoredModel cal disk dir md mo list waves)
    (hn : ∀ w ∈ waves, w.cos.degree md = n ∧ w.sin.degree md = n)
    (hf : ∃ w ∈ waves, w.cos.Full md mo) (h1 : 1 ≤ n) (h2 : n ≤ 198) (hc : ∀ w ∈ waves, w.Constants 3.986004418e14 6378136.6)
    (hj : junkI.length = 6) {f2 f3 : List (List Char)} {dood : List DC} {adm : List (List ℚ)}
    (h2' : List.Forall₂ (fun line (d : DC) => line.length < 124 ∧ IntsAre line [d.i0, d.i1, d.i2, d.i3, d.i4, d.i5]) f2 dood)
    (hne : dood ≠ []) (h3 : RowsAre dood.length f3 adm) (hk : adm.length = waves.length) :
    ∃ o, oceanModelAdm cal disk junkErr junkE junk junkI junkA (some list) (some f2) (some f3) dir md mo = .ok o ∧
      ∀ qs, ∃ o', oceanCalls qs o = .ok o' ∧
      ∀ (tt ut1 : Iau.Epoch) (l l' F D Om : ℝ), ∃ o'', o'.coeffs tt ut1 ![l, l', F, D, Om] = .ok o'' ∧
        ∀ (r : V3), r ≠ 0 → ∀ W M : Tri, n + 3 ≤ W.rows → n + 3 ≤ M.rows → ∃ a, attraction o''.mcs r n W M = .ok (some a) ∧
          IsGradient (allPotential waves dood adm md mo n (Iau.gmst tt ut1) l l' F D Om) r a := by
  obtain ⟨w, hw, hfw⟩ := hf
  obtain ⟨o, e, ho⟩ := stored_admittance_partial (junk := junk) (junkErr := junkErr) (junkE := junkE) (junkA := junkA) h hn
    ⟨w, hw, full_reaches hfw⟩ hj h2' hne h3 hk
  obtain ⟨a, ea, ha⟩ := atlas_waves (junk := junk) (junkErr := junkErr) (junkE := junkE) h
  have hord := atlas_order ha hn ⟨w, hw, hfw⟩
  have hdeg := (atlas_size ha hn).2.2 ⟨w, hw, full_reaches hfw⟩
  obtain ⟨G, hmake⟩ : ∃ G, Ocean.make junk a (some G) = .ok o := by
    unfold oceanModelAdm groopsAtlasAdm at e
    rw [ea] at e
    simp only [Res.bind] at e
    split at e
    · rename_i x he
      split at he
      · cases he
      · split at he
        · simp only at he
          split at he
          · cases he
          · injection he with he
            subst he
            exact ⟨_, e⟩
        all_goals cases he
    all_goals cases e
  obtain ⟨m1, m2, m3⟩ := make_like hmake
  refine ⟨o, e, fun qs => ?_⟩
  obtain ⟨o', e', ho'⟩ := ho qs
  refine ⟨o', e', fun tt ut1 l l' F D Om => ?_⟩
  obtain ⟨o'', e'', hd, hv⟩ := ho' tt ut1 l l' F D Om
  refine ⟨o'', e'', fun r hr W M hW hM => ?_⟩
  obtain ⟨k1, k2, k3, k4⟩ := (calls_like qs e').trans (coeffs_like e'')
  have g1 : o''.mcs.gm = 3.986004418e14 := k3.trans m1
  have g2 : o''.mcs.re = 6378136.6 := k4.trans m2
  obtain ⟨x, ex, hx⟩ := attraction_gradient o''.mcs hr h1 h2 hd.ge (by rw [k2, m3, hdeg]; omega) (by rw [g1]; norm_num) (by rw [g2]; norm_num) hW hM
  refine ⟨x, ex, ?_⟩
  rw [g1, g2] at hx
  have := potential_eq (GM := 3.986004418e14) (Re := 6378136.6) (C := o''.mcs.C) (S := o''.mcs.S) (n := n) (fun i j hij hi =>
    ⟨getC_C (hv i j hij hi).1, getS_S (hv i j hij hi).2⟩)
  rw [this] at hx
  exact (congrArg (fun U => IsGradient U r x) (funext fun v => (all_potential hc dood adm _ l l' F D Om v).symm)).mpr hx

/-! ### A model with one wave of degree 1 -/

/-- A gravity file of degree 1 with this last digit of the gravitational constant. -/
def exGfc1 (k : Char) (v : ℚ) : Gfc Int where
  header := ["modelname T".toList, "max_degree 1".toList, "errors no".toList, "earth_gravity_constant 3.98600441".toList ++ k :: "e14".toList,
    "radius 6378136.6".toList]
  settings := [.modelName "T".toList, .maxDegree 1, .errors .no, .gm v, .radius 6378136.6]
  errors := .no
  tail := []
  data := ["gfc  1 1 1.5e-3 2.0".toList]
  records := [⟨.static, 1, 1, 3 / 2000, 2, none, none⟩]

theorem exGfc1_ok (k : Char) (v : ℚ) (hk : k = '8' ∧ v = 3.986004418e14 ∨ k = '5' ∧ v = 3.986004415e14) : (exGfc1 k v).Ok exCal (-1) (-1) where
  header := by
    refine .gives (plain_of (by decide) (by decide) (by decide)) ⟨"T".toList, ⟨0, 0, rfl, by decide, by decide⟩,
      ⟨0, rfl, by decide, by decide⟩, by decide⟩ ?_
    refine .gives (plain_of (by decide) (by decide) (by decide)) ⟨['1'], [], ⟨0, 0, rfl, by simp, by decide⟩, 0, ⟨false, ['1']⟩,
      ⟨by simp, by decide⟩, by decide, rfl, by simp, by decide, by decide⟩ ?_
    refine .gives (plain_of (by decide) (by decide) (by decide)) ⟨"no".toList, ⟨0, 0, rfl, by decide, by decide⟩, [], rfl, by simp⟩ ?_
    refine .gives ?_ ⟨"3.98600441".toList ++ k :: "e14".toList, ⟨0, 0, rfl, by simp, by simp⟩,
      ⟨false, ['3'], some ("98600441".toList ++ [k]), some ('e', none, ['1', '4'])⟩, [], ?_, ?_, ?_, by unfold Ends; decide⟩ ?_
    · rcases hk with ⟨rfl, rfl⟩ | ⟨rfl, rfl⟩ <;> exact plain_of (by decide) (by decide) (by decide)
    · rcases hk with ⟨rfl, rfl⟩ | ⟨rfl, rfl⟩ <;> exact Dec.ok_of (by decide)
    · rcases hk with ⟨rfl, rfl⟩ | ⟨rfl, rfl⟩ <;> decide +kernel
    · rcases hk with ⟨rfl, rfl⟩ | ⟨rfl, rfl⟩ <;> decide
    refine .gives (plain_of (by decide) (by decide) (by decide)) ⟨"6378136.6".toList, ⟨0, 0, rfl, by decide, by decide⟩,
      ⟨false, "6378136".toList, some ['6'], none⟩, [], Dec.ok_of (by decide), by decide +kernel, by decide, by unfold Ends; decide⟩ .nil
  short := by simp [exGfc1]
  errors := rfl
  name := show 1 < 64 by decide
  tail := by simp [exGfc1]
  one := by simp [exGfc1]
  lines := by
    rw [if_neg (show ¬ (lastOf Setting.format? false (exGfc1 k v).settings = true) from show ¬ (false = true) by decide)]
    refine .cons ⟨by decide, _, fortran_refl _, noFortran_of (by decide),
        Line1.gfc (cal := exCal) (line := " 1 1 1.5e-3 2.0".toList) (rest := []) ?_⟩ .nil
    exact ⟨" 1 1.5e-3 2.0".toList, " 1.5e-3 2.0".toList, " 2.0".toList,
      ⟨[' '], ⟨false, ['1']⟩, by decide, ⟨by decide, by decide⟩, rfl, rfl, by simp [isDig], by decide, by decide⟩,
      ⟨[' '], ⟨false, ['1']⟩, by decide, ⟨by decide, by decide⟩, rfl, rfl, by simp [isDig], by decide, by decide⟩,
      ⟨[' '], ⟨false, ['1'], some ['5'], some ('e', some true, ['3'])⟩, by decide, Dec.ok_of (by decide), by decide +kernel, rfl,
        fun _ => by simp [Ends, isDig]⟩,
      ⟨[' '], ⟨false, ['2'], some ['0'], none⟩, by decide, Dec.ok_of (by decide), by decide +kernel, rfl, fun _ => by simp [Ends]⟩⟩
  static := by simp [exGfc1]
  triangle := by simp [exGfc1]
  order := by
    show 0 ≤ (1 : Int) ∧ (1 : Int) ≤ 1
    decide
  degree := le_rfl

/-- The hypotheses of `ocean_force_partial` and `ocean_force_fails` are met; the fields of the second kind of files are scaled by
3.986004418 / 3.986004415. -/
example (k : Char) (v : ℚ) (hk : k = '8' ∧ v = 3.986004418e14 ∨ k = '5' ∧ v = 3.986004415e14) :
    ∃ list waves, StoredModel exCal (exDisk (exGfc1 k v) (exGfc1 k v)) (bytes "data") (-1) (-1) list waves ∧
      (∀ w ∈ waves, w.cos.degree (-1) = (1 : Nat) ∧ w.sin.degree (-1) = (1 : Nat)) ∧ (∃ w ∈ waves, w.cos.Full (-1) (-1)) ∧
      (∀ w ∈ waves, w.Constants v 6378136.6) ∧ waves.length = 1 ∧ (∃ w ∈ waves, w.cos.value (-1) (-1) Record.C 1 1 = 3 / 2000) ∧
      (k = '5' → v ≠ 0 ∧ v ≠ 3.986004418e14) := by
  refine ⟨_, _, exStored_of (exGfc1_ok k v hk) (exGfc1_ok k v hk), ?_, ?_, ?_, rfl, ?_, ?_⟩
  · intro w hw
    rw [List.mem_singleton.mp hw]
    exact ⟨rfl, rfl⟩
  · exact ⟨_, List.mem_singleton.mpr rfl, _, List.mem_singleton.mpr rfl, rfl, rfl, le_rfl⟩
  · intro w hw
    rw [List.mem_singleton.mp hw]
    exact ⟨rfl, rfl, rfl, rfl⟩
  · refine ⟨_, List.mem_singleton.mpr rfl, ?_⟩
    unfold Gfc.value
    rw [if_pos (by show (1 : Int) ≤ 1; decide)]
    simp [exWave, exGfc1]
  · rintro rfl
    rcases hk with ⟨h, -⟩ | ⟨-, rfl⟩
    · cases h
    · norm_num

end Verif.Groops
