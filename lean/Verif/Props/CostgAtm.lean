import Verif.Model.CostgAtm
import Verif.Spec.CostgAtm
import Verif.Props.CostgTide
import Verif.Props.Aod1bHeader
import Verif.Props.Tide
/-
C96: the checks of atmospheric tides against the benchmark.
-/
namespace Verif.Aod1b
open Verif Verif.Aod1b.Head Verif.Tide Verif.Chars

variable {T : Type}

/-- The file with the constants of the Conventions. -/
def TideFile.conventional (f : TideFile T) : TideFile T := { f with gm := 3.986004418e14, radius := 6378136.6 }

/-- The coefficients at an angle. -/
noncomputable def TideFile.at (f : TideFile T) (n : Nat) (val : Row → ℚ) (θ : ℝ) (i j : Nat) : ℝ :=
  lastValue n n val f.cosRows i j * Real.cos θ + lastValue n n val f.sinRows i j * Real.sin θ

noncomputable def phase (d : Doodson.DC) (g l l' F D Om : ℝ) : ℝ := angle d g l l' F D Om + d.pifac * (Real.pi / 2)

theorem files_conventional (files : List (TideFile T)) (n N : Nat) (g l l' F D Om : ℝ) (v : V3) :
    filesPotential (files.map TideFile.conventional) n N g l l' F D Om v = Harmonic.potential 3.986004418e14 6378136.6
      (fun i j => (files.map fun f => f.at n Row.C (phase f.wave.d g l l' F D Om) i j).sum)
      (fun i j => (files.map fun f => f.at n Row.S (phase f.wave.d g l l' F D Om) i j).sum) N N v := by
  rw [Harmonic.potential_list]
  unfold filesPotential
  rw [List.map_map]
  congr 1
  refine List.map_congr_left fun f _ => ?_
  show TideFile.potential f.conventional n N _ v = _
  unfold TideFile.potential TideFile.at
  rw [Harmonic.potential_lin]
  simp only [TideFile.conventional]
  rw [show ((3.986004418e14 : ℚ) : ℝ) = 3.986004418e14 by norm_num, show ((6378136.6 : ℚ) : ℝ) = 6378136.6 by norm_num]
  rfl

theorem conventional_eq {f : TideFile T} (h1 : f.gm = 3.986004418e14) (h2 : f.radius = 6378136.6) : f.conventional = f := by
  obtain ⟨_, _, _, g, r, _, _, _, _, _⟩ := f
  simp only at h1 h2
  subst h1 h2
  rfl

theorem files_periodic (files : List (TideFile T)) (n : Nat) : Costg.Periodic fun N g l l' F D Om => filesPotential files n N g l l' F D Om := by
  intro N g l l' F D Om g1 l1 l1' F1 D1 Om1 r hg hl hl' hF hD hO
  show filesPotential _ _ _ _ _ _ _ _ _ _ = filesPotential _ _ _ _ _ _ _ _ _ _
  unfold filesPotential TideFile.potential
  congr 1
  refine List.map_congr_left fun w _ => ?_
  obtain ⟨e1, e2⟩ := Groops.cos_cong ((Groops.angle_cong w.wave.d hg hl hl' hF hD hO).add (Angle.Cong.refl (w.wave.d.pifac * (Real.pi / 2))))
  rw [e1, e2]

/-- The model holds the waves of these files. -/
structure HoldsFiles (n : Nat) (files : List (TideFile T)) (x : Atm) : Prop where
  waves : List.Forall₂ (fun (f : TideFile T) (w : Constituent) => w.d = f.wave.d ∧ w.cos.rows = n + 1 ∧ w.sin.rows = n + 1 ∧
    Aod1b.Holds n n f.cosRows (n + 1) w.cos ∧ Aod1b.Holds n n f.sinRows (n + 1) w.sin) files x.atlas
  gm : x.mcs.gm = 3.986004418e14
  re : x.mcs.re = 6378136.6
  size : if files = [] then x.mcs.deg = 0 ∧ x.mcs.ord = 0 else x.mcs.deg = n ∧ x.mcs.ord = n ∧ x.mcs.rows = n + 1

theorem holds_new (n : Nat) : HoldsFiles (T := T) n [] Atm.new := ⟨.nil, rfl, rfl, by rw [if_pos rfl]; exact ⟨rfl, rfl⟩⟩

theorem grow_ok (junk : Nat → Nat → ℝ) (c : Coeffs ℝ) (d : Nat) : ∃ c', grow junk c d d = .ok c' ∧ c'.gm = c.gm ∧ c'.re = c.re ∧
    (c.deg = 0 → c.ord = 0 → 1 ≤ d → c'.deg = d ∧ c'.ord = d ∧ c'.rows = d + 1) ∧ (c.deg = d → c.ord = d → c' = c) := by
  unfold grow
  by_cases h : (d : Int) > c.deg ∨ (d : Int) > c.ord
  · rw [if_pos h]
    unfold Coeffs.cresize
    rw [if_neg (by omega)]
    refine ⟨_, rfl, rfl, rfl, fun _ _ _ => ⟨rfl, rfl, by simp⟩, fun h1 h2 => by omega⟩
  · rw [if_neg h]
    exact ⟨c, rfl, rfl, rfl, fun h1 h2 h3 => by omega, fun _ _ => rfl⟩

variable [DecidableEq T] {E : Env T} {n : Nat}

omit [DecidableEq T] in
theorem text_eq (f : TideFile T) :
    f.text = textOf f.header ++ ("END OF HEADER".toList ++ [] ++ '\n' :: (unlines f.cosLines ++ (unlines f.sinLines ++ f.tail))) := by
  have h : ∀ l : List (List Char), unlines l = textOf l := fun l => by unfold unlines textOf; rw [List.flatMap_def]
  unfold TideFile.text
  rw [h f.header]
  simp

/-- Appending a file. -/
theorem append_file {f : TideFile T} (hf : f.Ok E.date E.addNs E.newYear E.unset n) (hn : 1 ≤ n) (junk : Nat → Nat → ℝ) (name : List Char)
    {files : List (TideFile T)} {x : Atm} (hx : HoldsFiles n files x) :
    ∃ x', x.appendFile E junk name (some f.text) n n = .ok (0, x') ∧ HoldsFiles n (files ++ [f]) x' := by
  obtain ⟨deg, hdeg, hnd⟩ := hf.degree
  obtain ⟨sets, hsets⟩ := hf.sets
  obtain ⟨h, a, cc, cs, e1, e2, e3, hc, hs⟩ := tidal_file_read_partial E hf.header hf.short hf.agency hf.satellite hf.sensor hf.level hf.pressure deg sets
    hdeg hsets (n : Int) (n : Int) (by omega) le_rfl hnd hf.cos hf.sin hf.tail name ⟨n, n, n + 1, junk, junk, 3.986004418e14, 6378136.6, true⟩
    ⟨n, n, n + 1, junk, junk, 3.986004418e14, 6378136.6, true⟩ (by simp) (by simp)
    (fun r hr => hf.triangle r (List.mem_append.mpr (Or.inl hr))) (fun r hr => hf.triangle r (List.mem_append.mpr (Or.inr hr))) f.text (text_eq f)
  obtain ⟨h', e1', _, _, _, _, _, _, _, _, _, _, _, _, _, _, _, _, _, _, _, _, hw⟩ := header_read_partial E hf.header hf.short hf.agency hf.satellite
    hf.sensor hf.level hf.pressure [] (unlines f.cosLines ++ (unlines f.sinLines ++ f.tail)) (by simp) (by simp)
  rw [← text_eq f, e1] at e1'
  injection e1' with e1'
  subst e1'
  rw [hf.wave] at hw
  have hmake : Constituent.make junk f.wave.d n n = .ok ⟨f.wave.d, ⟨n, n, n + 1, junk, junk, 3.986004418e14, 6378136.6, true⟩,
      ⟨n, n, n + 1, junk, junk, 3.986004418e14, 6378136.6, true⟩⟩ := by
    unfold Constituent.make newSet
    rw [if_neg (by omega), if_pos (by omega)]
    simp only [Res.bind]
    rw [show ((n : Int) + 1).toNat = n + 1 by omega]
  obtain ⟨d1, d2, d3, d4⟩ : cc.deg = n ∧ cc.ord = n ∧ cc.rows = n + 1 ∧ cs.rows = n + 1 := by
    obtain ⟨rc, rs, tail, -, -, -, -, p1, p2, p3, p4, p5, p6, -, -⟩ := tidal_sound_partial a _ _ _ _ e3
    exact ⟨p1, p2, p3, p6⟩
  obtain ⟨m1, g1, g2, g3, g4, g5⟩ := grow_ok junk x.mcs n
  obtain ⟨m2, k1, k2, k3, k4, k5⟩ := grow_ok junk m1 n
  have hreq : ∀ y : Int, (if (n : Int) < 0 then y else n) = n := fun y => if_neg (by omega)
  refine ⟨⟨x.atlas ++ [⟨f.wave.d, cc, cs⟩], m2⟩, ?_, ?_⟩
  · unfold Atm.appendFile
    rw [e1]
    simp only [Option.getD_some]
    rw [e2]
    simp only [Res.bind, hw, Option.map_some, Option.getD_some]
    unfold Atm.append
    simp only [hreq, hmake, Res.bind, e3, ne_eq, not_true_eq_false, if_false, d1, d2, g1, k1]
  · refine ⟨?_, k2.trans (g2.trans hx.gm), k3.trans (g3.trans hx.re), ?_⟩
    · refine List.rel_append hx.waves (.cons ⟨rfl, d3, d4, hc, hs⟩ .nil)
    · rw [if_neg (by simp)]
      have hz := hx.size
      have hm1 : m1.deg = n ∧ m1.ord = n ∧ m1.rows = n + 1 := by
        split at hz
        · exact g4 hz.1 hz.2 hn
        · rw [g5 hz.1 hz.2.1]
          exact hz
      rw [k5 hm1.1 hm1.2.1]
      exact hm1

theorem coeffs_clear {x x' : Atm} {tt ut1 : Iau.Epoch} {args : Fin 5 → ℝ} (h : x.coeffs tt ut1 args = .ok x') :
    x'.mcs.clear = x.mcs.clear ∧ x'.atlas = x.atlas := by
  unfold Atm.coeffs at h
  cases e : atmCoeffs x.atlas x.mcs tt ut1 args with
  | ok m => rw [e] at h; injection h with h; subst h; exact ⟨(forEach_clear _ _ _ _ _ e).trans rfl, rfl⟩
  | ub => rw [e] at h; cases h
  | abort => rw [e] at h; cases h
  | throw => rw [e] at h; cases h

omit [DecidableEq T] in
theorem HoldsFiles.keep {files : List (TideFile T)} {x x' : Atm} (h : HoldsFiles n files x) (hc : x'.mcs.clear = x.mcs.clear)
    (ha : x'.atlas = x.atlas) : HoldsFiles n files x' := by
  refine ⟨by rw [ha]; exact h.waves, (congrArg Coeffs.gm hc).trans h.gm, (congrArg Coeffs.re hc).trans h.re, ?_⟩
  rw [show x'.mcs.deg = x.mcs.deg from (congrArg Coeffs.deg hc : x'.mcs.clear.deg = x.mcs.clear.deg), show x'.mcs.ord = x.mcs.ord from (congrArg Coeffs.ord hc : x'.mcs.clear.ord = x.mcs.clear.ord),
    show x'.mcs.rows = x.mcs.rows from (congrArg Coeffs.rows hc : x'.mcs.clear.rows = x.mcs.clear.rows)]
  exact h.size

omit [DecidableEq T] in
theorem waves_sum {n i j : Nat} (hij : j ≤ i) (hi : i ≤ n) (θ : Doodson.DC → ℝ) : ∀ {files : List (TideFile T)} {a : Atlas},
    List.Forall₂ (fun (f : TideFile T) (w : Constituent) => w.d = f.wave.d ∧ w.cos.rows = n + 1 ∧ w.sin.rows = n + 1 ∧
      Aod1b.Holds n n f.cosRows (n + 1) w.cos ∧ Aod1b.Holds n n f.sinRows (n + 1) w.sin) files a →
    Tide.potential a θ Coeffs.C i j = (files.map fun f => f.at n Row.C (θ f.wave.d) i j).sum ∧
      Tide.potential a θ Coeffs.S i j = (files.map fun f => f.at n Row.S (θ f.wave.d) i j).sum
  | _, _, .nil => ⟨rfl, rfl⟩
  | _, _, .cons h hs => by
    obtain ⟨h1, -, -, h4, h5⟩ := h
    obtain ⟨i1, i2⟩ := waves_sum hij hi θ hs
    obtain ⟨c1, c2⟩ := h4 i j hij (by omega)
    obtain ⟨c3, c4⟩ := h5 i j hij (by omega)
    unfold Tide.potential at *
    simp only [List.map_cons, List.sum_cons, i1, i2, h1, c1, c2, c3, c4, TideFile.at, and_self]

omit [DecidableEq T] in
/-- A model with the waves of files evaluates to their coefficients. -/
theorem atm_evaluates {files : List (TideFile T)} (hne : files ≠ []) (hn : 1 ≤ n) :
    Costg.Evaluates Costg.atmObj n (fun g l l' F D Om i j => (files.map fun f => f.at n Row.C (phase f.wave.d g l l' F D Om) i j).sum)
      (fun g l l' F D Om i j => (files.map fun f => f.at n Row.S (phase f.wave.d g l l' F D Om) i j).sum) (HoldsFiles n files) where
  get _ _ := rfl
  put _ _ h hc := h.keep hc rfl
  deg _ h := by have := h.size; rw [if_neg hne] at this; exact this.1
  ord _ h := by have := h.size; rw [if_neg hne] at this; exact this.2.1
  gm _ h := h.gm
  re _ h := h.re
  rows _ h := by have := h.size; rw [if_neg hne] at this; show 2 ≤ (_ : Atm).mcs.rows; rw [this.2.2]; omega
  eval x h tt ut1 l l' F D Om := by
    have hz := h.size
    rw [if_neg hne] at hz
    have hsize : SameSize x.atlas x.mcs.rows := by
      intro w hw
      rw [hz.2.2]
      obtain ⟨hl, hg⟩ := List.forall₂_iff_get.mp h.waves
      obtain ⟨k, hk, rfl⟩ := List.mem_iff_getElem.mp hw
      have hf := hg k (by omega) hk
      exact ⟨hf.2.1, hf.2.2.1⟩
    obtain ⟨m', e, hv⟩ := (atm_sum_partial x.atlas x.mcs tt ut1 l l' F D Om).1 hsize
    have e' : x.coeffs tt ut1 ![l, l', F, D, Om] = .ok { x with mcs := m' } := by unfold Atm.coeffs; rw [e]; rfl
    obtain ⟨k1, k2⟩ := coeffs_clear e'
    refine ⟨_, e', h.keep k1 k2, fun i j hij hi => ?_⟩
    obtain ⟨v1, v2⟩ := hv.2.2.2 i j hij (by omega)
    obtain ⟨w1, w2⟩ := waves_sum hij hi (fun d => phase d (Iau.gmst tt ut1) l l' F D Om) h.waves
    exact ⟨v1.trans w1, v2.trans w2⟩

end Verif.Aod1b

namespace Verif.Costg
open Verif Verif.Aod1b Verif.Aod1b.Head Verif.Tide

variable {T : Type} [DecidableEq T] {E : Env T} {disk : List Char → Option (List Char)} {tt dat : ℚ → ℚ}
variable {orbit acc rot : List Char} {eop : List (List Char)} {os as qs : List (ℚ × List ℚ)} {rs : List (Eop.Rec ℚ)}
variable {names : List (List Char)} {files : List (TideFile T)}

/-- The files of these names are tidal files of degree 180. -/
def Stored (E : Env T) (disk : List Char → Option (List Char)) : List (List Char) → List (TideFile T) → Prop :=
  List.Forall₂ fun name f => disk name = some f.text ∧ f.Ok E.date E.addNs E.newYear E.unset 180

theorem append_all (junk : Nat → Nat → ℝ) : ∀ {names : List (List Char)} {files before : List (TideFile T)} {x : Atm}, Stored E disk names files →
    HoldsFiles 180 before x → ∃ x', (∀ rest, appendAll E junk disk (names ++ rest) x = appendAll E junk disk rest x') ∧ HoldsFiles 180 (before ++ files) x'
  | _, _, before, x, .nil, hx => ⟨x, fun _ => rfl, by rw [List.append_nil]; exact hx⟩
  | _, _, before, x, .cons (a := name) (b := f) (l₁ := names) (l₂ := files) h hs, hx => by
    obtain ⟨x1, e1, h1⟩ := append_file h.2 (by norm_num) junk name hx
    obtain ⟨x2, e2, h2⟩ := append_all junk hs h1
    refine ⟨x2, fun rest => ?_, by rw [List.append_assoc] at h2; exact h2⟩
    rw [List.cons_append, appendAll, h.1]
    rw [show ((180 : Nat) : Int) = 180 from rfl] at e1
    rw [e1]
    exact e2 rest

/-- The input of the programs: the tables of the benchmark, the Earth orientation and the tidal files. -/
structure AtmInput (E : Env T) (disk : List Char → Option (List Char)) (names : List (List Char)) (files : List (TideFile T)) (tt dat : ℚ → ℚ)
    (orbit acc rot : List Char) (eop : List (List Char)) (os as qs : List (ℚ × List ℚ)) (rs : List (Eop.Rec ℚ)) : Prop where
  stored : Stored E disk names files
  waves : names ≠ []
  orbit : Table 512 9 orbit os
  acc : Table 256 3 acc as
  rot : Table 1024 9 rot qs
  eop : Recorded tt dat eop rs
  covers : Covers rs os
  some : os ≠ []
  rots : os.map (·.1) <+: qs.map (·.1)
  accs : os.map (·.1) <+: as.map (·.1)
  away : ∀ o ∈ os, three o.2 0 ≠ 0

/-- The program, whatever the constants of the files. -/
theorem check_atm_any (h : AtmInput E disk names files tt dat orbit acc rot eop os as qs rs) (junk : Nat → Nat → ℝ) (W M : Epoch → Int → ℝ)
    (junkO junkR : Fin 10 → ℚ) (junkA : Fin 4 → ℚ) {junkE : List ℚ} (hj : 8 ≤ junkE.length) :
    ∃ gs, TideAccels (filesPotential (files.map TideFile.conventional) 180) 180 rs os gs ∧
      (AllWithin 1e-11 qs as gs → checkAtm E junk disk names tt dat W M junkO junkR junkA junkE (some orbit) (some acc) (some rot) (some eop) = .ok 0) ∧
      (¬ AllWithin 1e-11 qs as gs →
        checkAtm E junk disk names tt dat W M junkO junkR junkA junkE (some orbit) (some acc) (some rot) (some eop) = .abort) := by
  obtain ⟨x, e, hx⟩ := append_all (x := Atm.new) junk h.stored (holds_new 180)
  have hne : files ≠ [] := by
    have := h.waves
    have hl := h.stored.length_eq
    intro hf
    rw [hf] at hl
    exact this (List.length_eq_zero_iff.mp hl)
  have e' := e []
  rw [List.append_nil] at e'
  exact check_tide (atm_evaluates (n := 180) hne (by norm_num)) (by norm_num) le_rfl (Or.inl rfl) (files_conventional files 180) (files_periodic _ 180)
    (make := appendAll E junk disk names Atm.new) e' hx h.orbit h.acc h.rot h.eop h.covers h.some h.rots h.accs h.away W M junkO junkR junkA hj

omit [DecidableEq T] in
theorem all_conventional (hc : ∀ f ∈ files, f.gm = 3.986004418e14 ∧ f.radius = 6378136.6) : files.map TideFile.conventional = files := by
  have : files.map TideFile.conventional = files.map id := List.map_congr_left fun f hf => conventional_eq (hc f hf).1 (hc f hf).2
  rw [this, List.map_id]

/-- C96: exit status 0 if in every row the benchmark is within 1e-11 m/s² of the gradient of the potential of the waves of degrees 2 to 180, sidereal
time and arguments being those of the Conventions at the epoch of the row; otherwise an assertion is violated. Missing: files with other
constants (`check_atm_constants_fails`), rows missing in a table, an empty orbit (`check_empty_fails`). -/
theorem check_atm_partial (h : AtmInput E disk names files tt dat orbit acc rot eop os as qs rs)
    (hc : ∀ f ∈ files, f.gm = 3.986004418e14 ∧ f.radius = 6378136.6) (junk : Nat → Nat → ℝ) (W M : Epoch → Int → ℝ)
    (junkO junkR : Fin 10 → ℚ) (junkA : Fin 4 → ℚ) {junkE : List ℚ} (hj : 8 ≤ junkE.length) :
    ∃ gs, TideAccels (filesPotential files 180) 180 rs os gs ∧
      (AllWithin 1e-11 qs as gs → checkAtm E junk disk names tt dat W M junkO junkR junkA junkE (some orbit) (some acc) (some rot) (some eop) = .ok 0) ∧
      (¬ AllWithin 1e-11 qs as gs →
        checkAtm E junk disk names tt dat W M junkO junkR junkA junkE (some orbit) (some acc) (some rot) (some eop) = .abort) := by
  have := check_atm_any h junk W M junkO junkR junkA hj
  rwa [all_conventional hc] at this

theorem atm_single (E : Env T) (junk : Nat → Nat → ℝ) (disk : List Char → Option (List Char)) (wave : List Char) :
    checkAtmS1 E junk disk wave tt dat = checkAtm E junk disk [wave] tt dat := by
  unfold checkAtmS1 checkAtm
  simp only [appendAll]
  congr 1
  cases Atm.new.appendFile E junk wave (disk wave) 180 180 with
  | ok v =>
    obtain ⟨st, x⟩ := v
    simp only [rb]
    by_cases h : st ≠ 0
    · rw [if_pos h, if_pos h]
    · rw [if_neg h, if_neg h]
  | ub => rfl
  | abort => rfl
  | throw => rfl

/-- C96, one wave: likewise. -/
theorem check_atm_s1_partial {name : List Char} {f : TideFile T} (h : AtmInput E disk [name] [f] tt dat orbit acc rot eop os as qs rs)
    (hc : f.gm = 3.986004418e14 ∧ f.radius = 6378136.6) (junk : Nat → Nat → ℝ) (W M : Epoch → Int → ℝ)
    (junkO junkR : Fin 10 → ℚ) (junkA : Fin 4 → ℚ) {junkE : List ℚ} (hj : 8 ≤ junkE.length) :
    ∃ gs, TideAccels (filesPotential [f] 180) 180 rs os gs ∧
      (AllWithin 1e-11 qs as gs → checkAtmS1 E junk disk name tt dat W M junkO junkR junkA junkE (some orbit) (some acc) (some rot) (some eop) = .ok 0) ∧
      (¬ AllWithin 1e-11 qs as gs →
        checkAtmS1 E junk disk name tt dat W M junkO junkR junkA junkE (some orbit) (some acc) (some rot) (some eop) = .abort) := by
  rw [atm_single]
  exact check_atm_partial h (fun g hg => by rw [List.mem_singleton.mp hg]; exact hc) junk W M junkO junkR junkA hj

theorem scale_inv {k : ℝ} (hk : k ≠ 0) (g : V3) : k * (k⁻¹ * g) = g := by
  ext <;> simp only [V3.smul_x, V3.smul_y, V3.smul_z] <;> field_simp

/-- C96 fails: the gravitational constant of the files has no effect. A wave with the constant `gm` (and the radius of the Conventions) is accepted if
the benchmark agrees with the attraction of the wave times the ratio of the constant of the Conventions and that of the file. -/
theorem check_atm_constants_fails {name : List Char} {f : TideFile T} (h : AtmInput E disk [name] [f] tt dat orbit acc rot eop os as qs rs)
    (hg : f.gm ≠ 0) (hr : f.radius = 6378136.6)
    (junk : Nat → Nat → ℝ) (W M : Epoch → Int → ℝ) (junkO junkR : Fin 10 → ℚ) (junkA : Fin 4 → ℚ) {junkE : List ℚ} (hj : 8 ≤ junkE.length) :
    ∃ gs, TideAccels (filesPotential [f] 180) 180 rs os gs ∧
      (AllWithin 1e-11 qs as (gs.map fun g => (3.986004418e14 / (f.gm : ℝ)) * g) →
        checkAtmS1 E junk disk name tt dat W M junkO junkR junkA junkE (some orbit) (some acc) (some rot) (some eop) = .ok 0) ∧
      (¬ AllWithin 1e-11 qs as (gs.map fun g => (3.986004418e14 / (f.gm : ℝ)) * g) →
        checkAtmS1 E junk disk name tt dat W M junkO junkR junkA junkE (some orbit) (some acc) (some rot) (some eop) = .abort) := by
  obtain ⟨gs, g1, g2, g3⟩ := check_atm_any h junk W M junkO junkR junkA hj
  have hg' : (f.gm : ℝ) ≠ 0 := by exact_mod_cast hg
  have hk : (3.986004418e14 / (f.gm : ℝ)) ≠ 0 := div_ne_zero (by norm_num) hg'
  have hmap : (gs.map fun g : V3 => (3.986004418e14 / (f.gm : ℝ))⁻¹ * g).map (fun g : V3 => (3.986004418e14 / (f.gm : ℝ)) * g) = gs := by
    rw [List.map_map]
    exact (List.map_congr_left fun g _ => scale_inv hk g).trans (List.map_id gs)
  rw [atm_single]
  refine ⟨gs.map fun g : V3 => (3.986004418e14 / (f.gm : ℝ))⁻¹ * g, ?_, by rw [hmap]; exact g2, by rw [hmap]; exact g3⟩
  refine List.forall₂_map_right_iff.mpr (g1.imp fun o g hog => ?_)
  obtain ⟨a, b, hb, hgr⟩ := hog
  refine ⟨a, b, hb, ?_⟩
  have hU : ∀ N g l l' F D Om v, filesPotential [f] 180 N g l l' F D Om v =
      (3.986004418e14 / (f.gm : ℝ))⁻¹ * filesPotential ([f].map TideFile.conventional) 180 N g l l' F D Om v := by
    intro N g l l' F D Om v
    have hp : ∀ C S, Harmonic.potential ((f.conventional.gm : ℚ) : ℝ) ((f.conventional.radius : ℚ) : ℝ) C S N N v =
        3.986004418e14 / (f.gm : ℝ) * Harmonic.potential ((f.gm : ℚ) : ℝ) ((f.radius : ℚ) : ℝ) C S N N v := by
      intro C S
      rw [hr, show f.conventional.radius = 6378136.6 from rfl, show f.conventional.gm = 3.986004418e14 from rfl,
        show (((3.986004418e14 : ℚ)) : ℝ) = 3.986004418e14 by norm_num, Harmonic.potential_gm 3.986004418e14 (f.gm : ℝ) _ hg']
    unfold filesPotential TideFile.potential
    simp only [List.map_cons, List.map_nil, List.sum_cons, List.sum_nil, hp]
    have hc := inv_mul_cancel₀ hk
    rw [show f.conventional.cosRows = f.cosRows from rfl, show f.conventional.sinRows = f.sinRows from rfl, show f.conventional.wave = f.wave from rfl]
    generalize (3.986004418e14 / (f.gm : ℝ)) = k at hc ⊢
    linear_combination (-(Harmonic.potential (f.gm : ℝ) (f.radius : ℝ) (lastValue 180 180 Row.C f.cosRows) (lastValue 180 180 Row.S f.cosRows) N N v *
      Real.cos (angle f.wave.d g l l' F D Om + f.wave.d.pifac * (Real.pi / 2)) + Harmonic.potential (f.gm : ℝ) (f.radius : ℝ) (lastValue 180 180 Row.C f.sinRows)
      (lastValue 180 180 Row.S f.sinRows) N N v * Real.sin (angle f.wave.d g l l' F D Om + f.wave.d.pifac * (Real.pi / 2)))) * hc
  have := Harmonic.gradient_mul (3.986004418e14 / (f.gm : ℝ))⁻¹ hgr
  refine (congrArg (fun V => Harmonic.IsGradient V (three o.2 0) _) (funext fun v => ?_)).mpr this
  unfold tideAt
  simp only [hU]
  ring

/-- A file that is not there, or whose header announces less than degree 180, cannot be appended. -/
theorem append_refused (junk : Nat → Nat → ℝ) (x : Atm) (name : List Char) {file : Option (List Char)}
    (h : file = none ∨ ∃ text hd d, file = some text ∧ construct E (some text) = .ok hd ∧ hd.maxDegree = some d ∧ d < 180 ∧ hd.dataSets.isSome) :
    x.appendFile E junk name file 180 180 = .ok (1, x) := by
  rcases h with rfl | ⟨text, hd, d, rfl, e, h1, h2, h3⟩
  · rfl
  · obtain ⟨k, hk⟩ := Option.isSome_iff_exists.mp h3
    unfold Atm.appendFile
    rw [e]
    simp only
    unfold Data.aod
    rw [h1, hk]
    simp only [rb]
    unfold Atm.append
    simp only
    rw [if_neg (show ¬ (180 : Int) < 0 by norm_num)]
    unfold Constituent.make newSet
    rw [if_neg (show ¬ (180 : Int) < -1 by norm_num)]
    simp only [rb]
    unfold getTidal
    split
    · simp only
      rw [if_pos (Or.inr (show (request _ 180 : Int) > d from by unfold request; rw [if_neg (by norm_num)]; exact h2))]
      rfl
    · rfl

/-- C96: exit status 1 if a wave cannot be appended: its file is not there, or its header announces less than degree 180. -/
theorem check_atm_rejects (hst : Stored E disk names files) {name : List Char} {rest : List (List Char)}
    (hbad : disk name = none ∨ ∃ text hd d, disk name = some text ∧ construct E (some text) = .ok hd ∧ hd.maxDegree = some d ∧ d < 180 ∧ hd.dataSets.isSome)
    {o1 : ℚ × List ℚ} {os : List (ℚ × List ℚ)} (ho : Table 512 9 orbit (o1 :: os)) (ha : Table 256 3 acc as) (hq : Table 1024 9 rot qs)
    (he : Recorded tt dat eop rs) (junk : Nat → Nat → ℝ) (W M : Epoch → Int → ℝ) (junkO junkR : Fin 10 → ℚ) (junkA : Fin 4 → ℚ) {junkE : List ℚ}
    (hj : 8 ≤ junkE.length) :
    checkAtm E junk disk (names ++ name :: rest) tt dat W M junkO junkR junkA junkE (some orbit) (some acc) (some rot) (some eop) = .ok 1 := by
  obtain ⟨x, e, -⟩ := append_all (x := Atm.new) junk hst (holds_new 180)
  obtain ⟨⟨c20, hh, hr⟩, hs⟩ := he
  obtain ⟨ser, e1, -, -, -⟩ := Eop.parseC04_complete tt dat junkE hj ((⌊o1.1⌋ : ℚ) - 2) ((⌊o1.1⌋ : ℚ) + 3) (by linarith) c20 hh hr hs Eop.Series.new
  unfold checkAtm checkTide
  rw [bench_orbit ho, bench_accelerations ha, parseRotary_rows hq]
  simp only [rb, List.map_cons]
  rw [show ((epochAt o1.1).1 : ℚ) = (⌊o1.1⌋ : ℚ) from rfl, e1, e (name :: rest), appendAll, append_refused junk x name hbad]
  simp only [rb, ne_eq, not_true_eq_false, if_false]
  rfl

end Verif.Costg

/-! ### An example: a file of the wave S2, two epochs -/

namespace Verif.Costg
open Verif Verif.Aod1b Verif.Aod1b.Head Verif.Tide Verif.Chars Verif.Doodson

/-- A tidal file with one coefficient in each block. -/
def exTide : TideFile Int where
  header := ["MAXIMUM DEGREE                : 180".toList, "NUMBER OF DATA SETS           : 2".toList, "PARTIAL TIDE                  : S2".toList,
    "CONSTANT GM [M^3/S^2]         : 0.39860044180000E+15".toList, "CONSTANT A [M]                : 0.63781366000000E+07".toList]
  settings := [.maxDegree 180, .dataSets 2, .wave ⟨⟨2, 2, -2, 0, 0, 0, 0⟩, "S2"⟩, .gm 3.986004418e14, .radius 6378136.6]
  wave := ⟨⟨2, 2, -2, 0, 0, 0, 0⟩, "S2"⟩
  gm := 3.986004418e14
  radius := 6378136.6
  cosLines := ["DATA SET 01:  1 COEFFICIENTS OF TYPE cos".toList, "2 2 1.5 0".toList]
  sinLines := ["DATA SET 02:  1 COEFFICIENTS OF TYPE sin".toList, "2 1 2 0".toList]
  cosRows := [⟨2, 2, 3 / 2, 0⟩]
  sinRows := [⟨2, 1, 2, 0⟩]
  tail := []

theorem exTide_ok : exTide.Ok exEnv.date exEnv.addNs exEnv.newYear exEnv.unset 180 where
  header := by
    refine .cons (by decide) (by decide) ?_ (.cons (by decide) (by decide) ?_ (.cons (by decide) (by decide) ?_ (.cons (by decide) (by decide) ?_
      (.cons (by decide) (by decide) ?_ .nil))))
    · exact ⟨"180".toList, ⟨16, 1, by decide, by decide⟩, [], 0, ⟨false, "180".toList⟩, ⟨by decide, by decide⟩, by decide, by decide,
        by simp, by decide, by decide⟩
    · exact ⟨"2".toList, ⟨11, 1, by decide, by decide⟩, [], 0, ⟨false, "2".toList⟩, ⟨by decide, by decide⟩, by decide, by decide,
        by simp, by decide, by decide⟩
    · exact ⟨"S2".toList, ⟨18, 1, by decide, by decide⟩, ⟨0, by decide, by decide, by decide, by decide, by decide⟩, by decide, by decide +kernel⟩
    · exact ⟨"0.39860044180000E+15".toList, ⟨9, 1, by decide, by decide⟩,
        dec_num ⟨false, "0".toList, some "39860044180000".toList, some ('E', some false, "15".toList)⟩ [] (by decide) (by decide) (by decide +kernel)
          (by simp [Ends])⟩
    · exact ⟨"0.63781366000000E+07".toList, ⟨8, 1, by decide, by decide⟩,
        dec_num ⟨false, "0".toList, some "63781366000000".toList, some ('E', some false, "07".toList)⟩ [] (by decide) (by decide) (by decide +kernel)
          (by simp [Ends])⟩
  short := by decide
  agency := by unfold Once; decide
  satellite := by unfold Once; decide
  sensor := by unfold Once; decide
  level := by unfold Once; decide
  pressure := by unfold Once; decide
  degree := ⟨180, rfl, le_rfl⟩
  sets := ⟨2, rfl⟩
  wave := rfl
  gm := rfl
  radius := rfl
  cos := by
    refine ⟨_, 1, _, rfl, by unfold ShortLine; decide, ⟨"  1 COEFFICIENTS OF TYPE cos".toList, 1, [], rfl,
      ⟨"  ".toList, ⟨false, ['1']⟩, by decide, ⟨by decide, by decide⟩, rfl, rfl, by decide, by decide, by decide⟩⟩, rfl, .cons ?_ .nil⟩
    exact ⟨" 2 1.5 0".toList, " 1.5 0".toList,
      ⟨[], ⟨false, ['2']⟩, by decide, ⟨by decide, by decide⟩, rfl, rfl, by decide, by decide, by decide⟩,
      ⟨" ".toList, ⟨false, ['2']⟩, by decide, ⟨by decide, by decide⟩, rfl, rfl, by decide, by decide, by decide⟩,
      fun _ => ⟨" 0".toList, [],
        ⟨" ".toList, ⟨false, ['1'], some ['5'], none⟩, by decide, Dec.ok_of (by decide), by decide +kernel, rfl, fun _ => by unfold Ends; decide⟩,
        ⟨" ".toList, ⟨false, ['0'], none, none⟩, by decide, Dec.ok_of (by decide), by decide +kernel, rfl, fun _ => by unfold Ends; decide⟩⟩⟩
  sin := by
    refine ⟨_, 1, _, rfl, by unfold ShortLine; decide, ⟨"  1 COEFFICIENTS OF TYPE sin".toList, 1, [], rfl,
      ⟨"  ".toList, ⟨false, ['1']⟩, by decide, ⟨by decide, by decide⟩, rfl, rfl, by decide, by decide, by decide⟩⟩, rfl, .cons ?_ .nil⟩
    exact ⟨" 1 2 0".toList, " 2 0".toList,
      ⟨[], ⟨false, ['2']⟩, by decide, ⟨by decide, by decide⟩, rfl, rfl, by decide, by decide, by decide⟩,
      ⟨" ".toList, ⟨false, ['1']⟩, by decide, ⟨by decide, by decide⟩, rfl, rfl, by decide, by decide, by decide⟩,
      fun _ => ⟨" 0".toList, [],
        ⟨" ".toList, ⟨false, ['2'], none, none⟩, by decide, Dec.ok_of (by decide), by decide +kernel, rfl, fun _ => by unfold Ends; decide⟩,
        ⟨" ".toList, ⟨false, ['0'], none, none⟩, by decide, Dec.ok_of (by decide), by decide +kernel, rfl, fun _ => by unfold Ends; decide⟩⟩⟩
  tail := by unfold ShortLine; decide
  triangle := by simp [exTide, Row.Triangle]

/-- The hypotheses of `check_atm_partial` and `check_atm_s1_partial` are met. -/
theorem exAtm : AtmInput exEnv (fun _ => some exTide.text) ["S2".toList] [exTide] exTT (fun _ => 37) exOrbit exAcc exRot exC04 [rowOf dOrbit1, rowOf dOrbit2]
    [rowOf dAcc1, rowOf dAcc2] [rowOf dRot1, rowOf dRot2] exRecs where
  stored := .cons ⟨rfl, exTide_ok⟩ .nil
  waves := by simp
  orbit := exInput.orbit
  acc := exInput.acc
  rot := exInput.rot
  eop := exInput.eop
  covers := exInput.covers
  some := exInput.some
  rots := exInput.rots
  accs := exInput.accs
  away := exInput.away

/-- The wave of the example is not zero, and both blocks count. -/
example : lastValue 180 180 Row.C exTide.cosRows 2 2 = 3 / 2 ∧ lastValue 180 180 Row.C exTide.sinRows 2 1 = 2 := by
  simp [lastValue, exTide, Row.In]

/-- A header that announces less than degree 180, as in `check_atm_rejects`. -/
example (data : List Char) : ∃ hd, construct exEnv (some ("MAXIMUM DEGREE : 100\nNUMBER OF DATA SETS : 2\nEND OF HEADER\n".toList ++ data)) = .ok hd ∧
    hd.maxDegree = some 100 ∧ hd.dataSets.isSome := by
  obtain ⟨h, e, _, _, _, _, _, _, _, _, _, h1, h2, _⟩ := header_read_partial exEnv (lines := ["MAXIMUM DEGREE : 100".toList, "NUMBER OF DATA SETS : 2".toList])
    (ss := [.maxDegree 100, .dataSets 2]) (.cons (by decide) (by decide)
      ⟨"100".toList, ⟨1, 1, by decide, by decide⟩, [], 0, ⟨false, "100".toList⟩, ⟨by decide, by decide⟩, by decide, by decide, by simp, by decide, by decide⟩
      (.cons (by decide) (by decide) ⟨"2".toList, ⟨1, 1, by decide, by decide⟩, [], 0, ⟨false, "2".toList⟩, ⟨by decide, by decide⟩, by decide, by decide,
        by simp, by decide, by decide⟩ .nil)) (by decide) (by unfold Once; decide) (by unfold Once; decide) (by unfold Once; decide)
    (by unfold Once; decide) (by unfold Once; decide) [] data (by decide) (by decide)
  exact ⟨h, e, h1, by rw [h2]; rfl⟩

example (junk : Nat → Nat → ℝ) (W M : Epoch → Int → ℝ) (junkO junkR : Fin 10 → ℚ) (junkA : Fin 4 → ℚ) :=
  check_atm_partial exAtm (by intro f hf; rw [List.mem_singleton.mp hf]; exact ⟨rfl, rfl⟩) junk W M junkO junkR junkA (junkE := List.replicate 8 0)
    (by decide)

example (junk : Nat → Nat → ℝ) (W M : Epoch → Int → ℝ) (junkO junkR : Fin 10 → ℚ) (junkA : Fin 4 → ℚ) :=
  check_atm_s1_partial exAtm ⟨rfl, rfl⟩ junk W M junkO junkR junkA (junkE := List.replicate 8 0) (by decide)

end Verif.Costg
