import Verif.Proof.Rounding
import Verif.Model.RoundedCip
import Verif.Spec.Cip
import Mathlib.Analysis.SpecialFunctions.Trigonometric.Bounds
/-
Rounding errors of the CIP series.
-/
namespace Verif.RoundedCip
open Verif Verif.Rounding Verif.Rounded
open Verif.Angle (fmod Cong)
open Verif.Cip (Freq Pln xyLunSol xyPln)

theorem cos_near {e x' x : ℝ} (h : Near e x' x) : |Real.cos x' - Real.cos x| ≤ e := by
  obtain ⟨k, hk⟩ := h
  have : Real.cos x = Real.cos (x + k * (2 * Real.pi)) := (Real.cos_add_int_mul_two_pi x k).symm
  rw [this]
  refine (Real.abs_cos_sub_cos_le _ _).trans ?_
  rwa [show x' - (x + k * (2 * Real.pi)) = x' - x - 2 * Real.pi * k by ring]

theorem sin_near {e x' x : ℝ} (h : Near e x' x) : |Real.sin x' - Real.sin x| ≤ e := by
  obtain ⟨k, hk⟩ := h
  have : Real.sin x = Real.sin (x + k * (2 * Real.pi)) := (Real.sin_add_int_mul_two_pi x k).symm
  rw [this]
  refine (Real.abs_sin_sub_sin_le _ _).trans ?_
  rwa [show x' - (x + k * (2 * Real.pi)) = x' - x - 2 * Real.pi * k by ring]

theorem app_cos {fsin fcos : ℝ → ℝ} (h : Trig fsin fcos) {e x' x : ℝ} (hx : Near e x' x) : App 1 (e + 2 * u) (fcos x') (Real.cos x) := by
  refine ⟨Real.abs_cos_le_one x, ?_⟩
  calc |fcos x' - Real.cos x| = |(Real.cos x' - Real.cos x) + (fcos x' - Real.cos x')| := by congr 1; ring
    _ ≤ _ := (abs_add_le _ _).trans (add_le_add (cos_near hx) (h.cos x'))

theorem app_sin {fsin fcos : ℝ → ℝ} (h : Trig fsin fcos) {e x' x : ℝ} (hx : Near e x' x) : App 1 (e + 2 * u) (fsin x') (Real.sin x) := by
  refine ⟨Real.abs_sin_le_one x, ?_⟩
  calc |fsin x' - Real.sin x| = |(Real.sin x' - Real.sin x) + (fsin x' - Real.sin x')| := by congr 1; ring
    _ ≤ _ := (abs_add_le _ _).trans (add_le_add (sin_near hx) (h.sin x'))

/-- Sum of the absolute values of the first multipliers. -/
def weight (n : ℕ) (f : List Int) : Nat := ((List.range' 1 n).map fun i => (f.getD i 0).natAbs).foldl (· + ·) (f.getD 0 0).natAbs

theorem natAbs_cast (z : ℤ) : |(z : ℝ)| = (z.natAbs : ℝ) := by
  rw [Nat.cast_natAbs, Int.cast_abs]

theorem dot_near_all {fl : Arith} (hf : Faithful fl) {n : ℕ} (hn : n ≤ 13) (f : List Int) {F' F : ℕ → ℝ} {e : ℝ} (he : 0 ≤ e)
    (hF : ∀ i ≤ n, Near e (F' i) (F i)) (hb : ∀ i ≤ n, |F' i| ≤ 6.284) :
    Near (weight n f * (e + (7 + 7 * n) * u)) (dot fl n f F') ((List.range' 1 n).foldl (fun a i => a + f.getD i 0 * F i) (f.getD 0 0 * F 0)) ∧
      |dot fl n f F'| ≤ (6.285 + 0.01 * n) * weight n f := by
  have hu := u_pos
  have hul := u_lt
  have prod : ∀ i ≤ n, Near ((f.getD i 0).natAbs * (e + 7 * u)) (fl.pr i (f.getD i 0 * F' i)) (f.getD i 0 * F i) ∧
      |fl.pr i (f.getD i 0 * F' i)| ≤ 6.285 * (f.getD i 0).natAbs := by
    intro i hi
    have hk : (0 : ℝ) ≤ ((f.getD i 0).natAbs : ℝ) := Nat.cast_nonneg _
    have h1 := (hF i hi).mulInt (f.getD i 0)
    have h2 : |F' i * ((f.getD i 0 : ℤ) : ℝ)| ≤ 6.284 * (f.getD i 0).natAbs := by
      rw [abs_mul, natAbs_cast]
      exact mul_le_mul_of_nonneg_right (hb i hi) hk
    rw [mul_comm ((f.getD i 0 : ℤ) : ℝ) (F' i), mul_comm ((f.getD i 0 : ℤ) : ℝ) (F i)]
    have hku := mul_nonneg hk hu.le
    refine ⟨(h1.pr hf i h2).mono ?_, (abs_pr hf i h2).trans ?_⟩
    · rw [natAbs_cast]; nlinarith
    · nlinarith
  have key : ∀ (l : List ℕ), (∀ i ∈ l, i ≤ n) → ∀ (acc' acc A E : ℝ) (K : ℕ), Near (K * E) acc' acc → |acc'| ≤ A * K → 6.285 ≤ A →
      A + 0.01 * l.length ≤ 6.42 → e + 7 * u ≤ E →
      Near (((l.map fun i => (f.getD i 0).natAbs).foldl (· + ·) K : ℕ) * (E + 7 * u * l.length))
        (l.foldl (fun a i => fl (a + fl.pr i (f.getD i 0 * F' i))) acc') (l.foldl (fun a i => a + f.getD i 0 * F i) acc) ∧
      |l.foldl (fun a i => fl (a + fl.pr i (f.getD i 0 * F' i))) acc'| ≤
        (A + 0.01 * l.length) * ((l.map fun i => (f.getD i 0).natAbs).foldl (· + ·) K : ℕ) := by
    intro l
    induction l with
    | nil => intro _ acc' acc A E K h1 h2 _ _ _; simpa using ⟨h1, h2⟩
    | cons i l ih =>
      intro hl acc' acc A E K h1 h2 hA hA' hE
      obtain ⟨p1, p2⟩ := prod i (hl i List.mem_cons_self)
      rw [List.length_cons] at hA'
      push_cast at hA'
      have hlen : (0 : ℝ) ≤ (l.length : ℝ) := Nat.cast_nonneg _
      have hA2 : A ≤ 6.42 := by linarith
      have hK : (0 : ℝ) ≤ (K : ℝ) := Nat.cast_nonneg _
      have hk : (0 : ℝ) ≤ ((f.getD i 0).natAbs : ℝ) := Nat.cast_nonneg _
      have hs : |acc' + fl.pr i (f.getD i 0 * F' i)| ≤ A * (K + (f.getD i 0).natAbs) := by
        refine (abs_add_le _ _).trans ?_
        nlinarith
      have hKk : (0 : ℝ) ≤ K + (f.getD i 0).natAbs := by linarith
      have hsu : A * (K + (f.getD i 0).natAbs) ≤ 6.42 * (K + (f.getD i 0).natAbs) := mul_le_mul_of_nonneg_right hA2 hKk
      have hsu' := mul_le_mul_of_nonneg_left hsu hu.le
      have hKu := mul_nonneg hKk hu.le
      have hKl := mul_le_mul_of_nonneg_left hul.le hKk
      have step := ih (fun j hj => hl j (List.mem_cons_of_mem _ hj)) (fl (acc' + fl.pr i (f.getD i 0 * F' i))) (acc + f.getD i 0 * F i)
        (A + 0.01) (E + 7 * u) (K + (f.getD i 0).natAbs)
        (((h1.add p1).fl hf hs).mono (by
          push_cast
          have := mul_le_mul_of_nonneg_left hE hk
          nlinarith))
        ((abs_fl hf hs).trans (by push_cast; nlinarith)) (by linarith) (by linarith) (by linarith)
      simp only [List.foldl_cons, List.map_cons, List.length_cons]
      push_cast
      constructor
      · refine step.1.mono (le_of_eq ?_); ring
      · refine step.2.trans (le_of_eq ?_); ring
  obtain ⟨p1, p2⟩ := prod 0 (Nat.zero_le _)
  have := key (List.range' 1 n) (by intro i hi; simp only [List.mem_range'_1] at hi; omega) _ _ 6.285 (e + 7 * u) _ p1 p2 le_rfl
    (by rw [List.length_range']; have : (n : ℝ) ≤ 13 := by exact_mod_cast hn
        linarith) le_rfl
  rw [List.length_range'] at this
  have hn' : (n : ℝ) ≤ 13 := by exact_mod_cast hn
  have hw : (0 : ℝ) ≤ (weight n f : ℝ) := Nat.cast_nonneg _
  refine ⟨this.1.mono ?_, this.2.trans ?_⟩
  · show (weight n f : ℝ) * _ ≤ _
    apply mul_le_mul_of_nonneg_left _ hw
    nlinarith
  · show _ * (weight n f : ℝ) ≤ _
    apply mul_le_mul_of_nonneg_right _ hw
    linarith

theorem dot_near {fl : Arith} (hf : Faithful fl) {n : ℕ} (hn : n ≤ 8) (f : List Int) {F' F : ℕ → ℝ} {e : ℝ} (he : 0 ≤ e)
    (hF : ∀ i ≤ n, Near e (F' i) (F i)) (hb : ∀ i ≤ n, |F' i| ≤ 6.284) :
    Near (weight n f * (e + 64 * u)) (dot fl n f F') ((List.range' 1 n).foldl (fun a i => a + f.getD i 0 * F i) (f.getD 0 0 * F 0)) ∧
      |dot fl n f F'| ≤ 6.4 * weight n f := by
  have hu := u_pos
  have hn' : (n : ℝ) ≤ 8 := by exact_mod_cast hn
  have hw : (0 : ℝ) ≤ (weight n f : ℝ) := Nat.cast_nonneg _
  obtain ⟨h1, h2⟩ := dot_near_all hf (by omega) f he hF hb
  refine ⟨h1.mono (mul_le_mul_of_nonneg_left ?_ hw), h2.trans (mul_le_mul_of_nonneg_right (by linarith) hw)⟩
  nlinarith

theorem app_tpow {fl : Arith} (hf : Faithful fl) {t' t : ℝ} (ht : App 1 (4 * u) t' t) (k : ℕ) {tp : ℝ} (h : (Cip.tpow t)[k]? = some tp) :
    ∃ tp', (tpow fl t')[k]? = some tp' ∧ App 1 (30 * u) tp' tp := by
  have hu := u_pos
  have hs := u_sq
  have one : App 1 (0 * u) 1 1 := ⟨by simp, by simp⟩
  have step : ∀ {c x' x : ℝ}, 0 ≤ c → c ≤ 25 → App 1 (c * u) x' x → App 1 ((c + 5.1) * u) (fl (t' * x')) (t * x) := by
    intro c x' x hc hc' h
    refine ((ht.mul h).fl hf).mono (by norm_num) ?_
    nlinarith [mul_le_mul_of_nonneg_left hs hc]
  have p1 := step (by norm_num) (by norm_num) one
  have p2 := step (by norm_num) (by norm_num) p1
  have p3 := step (by norm_num) (by norm_num) p2
  have p4 := step (by norm_num) (by norm_num) p3
  match k, h with
  | 0, h => cases h; exact ⟨_, rfl, one.mono le_rfl (by linarith)⟩
  | 1, h => cases h; exact ⟨_, rfl, p1.mono le_rfl (by linarith)⟩
  | 2, h => cases h; exact ⟨_, rfl, p2.mono le_rfl (by linarith)⟩
  | 3, h => cases h; exact ⟨_, rfl, p3.mono le_rfl (by linarith)⟩
  | 4, h => cases h; exact ⟨_, rfl, p4.mono le_rfl (by linarith)⟩
  | k + 5, h => simp [Cip.tpow] at h

/-- One term of the series. -/
theorem app_term {fl : Arith} (hf : Faithful fl) {δ c' c s' s tp' tp : ℝ} (hδ0 : 0 ≤ δ) (hδ : δ ≤ 0.0001) (hc : App 1 δ c' c) (hs : App 1 δ s' s)
    (ht : App 1 (30 * u) tp' tp) (a b : ℤ) :
    App ((a.natAbs + b.natAbs : ℕ) / 100) ((a.natAbs + b.natAbs : ℕ) / 100 * (δ + 36 * u))
      (fl.pr 0 (fl (fl.pr 1 (lit fl (a / 100) * c') + fl.pr 2 (lit fl (b / 100) * s')) * tp')) (((a / 100 : ℝ) * c + (b / 100 : ℝ) * s) * tp) := by
  have hu := u_pos
  have hul := u_lt
  have hsq := u_sq
  have one : ∀ (m : ℕ) (z : ℤ) {x' x : ℝ}, App 1 δ x' x → App (z.natAbs / 100 : ℝ) (z.natAbs / 100 * (δ + 2.1 * u)) (fl.pr m (lit fl (z / 100) * x')) (z / 100 * x) := by
    intro m z x' x hx
    have hz : (0 : ℝ) ≤ (z.natAbs : ℝ) / 100 := by positivity
    have habs : |(z / 100 : ℝ)| ≤ z.natAbs / 100 := by rw [abs_div, natAbs_cast]; norm_num
    refine (((App.lit hf _ habs).mul hx).pr hf m).mono (by linarith) ?_
    have h1 := mul_nonneg hz hu.le
    have h2 := mul_le_mul_of_nonneg_left hδ h1
    have h3 := mul_le_mul_of_nonneg_left hsq hz
    have h4 := mul_le_mul_of_nonneg_left hul.le (mul_nonneg hz (mul_nonneg hu.le hδ0))
    generalize (z.natAbs : ℝ) / 100 = Z at *
    nlinarith
  have A := ((one 1 a hc).add (one 2 b hs))
  have hA : ((a.natAbs + b.natAbs : ℕ) : ℝ) / 100 = (a.natAbs : ℝ) / 100 + (b.natAbs : ℝ) / 100 := by push_cast; ring
  rw [hA]
  have ha : (0 : ℝ) ≤ (a.natAbs : ℝ) / 100 := by positivity
  have hb : (0 : ℝ) ≤ (b.natAbs : ℝ) / 100 := by positivity
  generalize (a.natAbs : ℝ) / 100 = x at *
  generalize (b.natAbs : ℝ) / 100 = y at *
  have hz : 0 ≤ x + y := add_nonneg ha hb
  have A' : App (x + y) ((x + y) * (δ + 2.1 * u)) (fl.pr 1 (lit fl (a / 100) * c') + fl.pr 2 (lit fl (b / 100) * s')) (a / 100 * c + b / 100 * s) :=
    A.mono le_rfl (by linarith)
  generalize x + y = z at *
  have h1 := mul_nonneg hz hu.le
  have h2 := mul_le_mul_of_nonneg_left hδ h1
  have h3 := mul_le_mul_of_nonneg_left hsq hz
  have B := (A'.fl hf).mono (e' := z * (δ + 3.2 * u)) le_rfl (by nlinarith)
  have C := (B.mul ht).mono (M' := z) (e' := z * (δ + 34 * u)) (by linarith) (by nlinarith)
  exact (C.pr hf 0).mono le_rfl (by nlinarith)

/-- Sum of amplitudes, weighted sum of amplitudes, number of rows. -/
structure Cost where
  a : Nat
  w : Nat
  n : Nat

/-- The weight of the argument of a row. -/
def argWeight (ks : Nat) (e : Pln) : Nat := if e.sumpl ≠ 0 then ks + weight 8 e.f else ks

def Cost.row (c : Cost) (ks : Nat) (e : Pln) : Cost :=
  ⟨c.a + (e.ac.natAbs + e.as.natAbs), c.w + (e.ac.natAbs + e.as.natAbs) * (argWeight ks e + 1), c.n + 1⟩

def rowsCost (ks : Nat) : Nat → List Pln → Cost → List Pln × Cost
  | 0, it, c => (it, c)
  | _ + 1, [], c => ([], c)
  | n + 1, e :: it, c => if argWeight ks e ≤ 1000 then rowsCost ks n it (c.row ks e) else ([], ⟨c.a + 10 ^ 20, c.w, c.n⟩)

def xyCost : List Freq → List Pln → Cost → Cost → Cost × Cost
  | [], _, x, y => (x, y)
  | s :: fs, it, x, y =>
    let a := rowsCost (weight 4 s.f) s.nx it x
    let b := rowsCost (weight 4 s.f) s.ny a.1 y
    xyCost fs b.1 a.2 b.2

/-- Within the limits that make the error bounds hold. -/
def Cost.small (c : Cost) : Prop := c.a ≤ 1100000000 ∧ c.w ≤ 2500000000 ∧ c.n ≤ 2000

/-- A partial sum of a series and its error. -/
def Inv (c : Cost) (s' s : ℝ) : Prop := App (c.a / 100) (c.w / 100 * 1.01e-11 + c.n * 1.4e-9) s' s

theorem rowsCost_mono (ks : Nat) : ∀ (n : Nat) (it : List Pln) (c : Cost),
    c.a ≤ (rowsCost ks n it c).2.a ∧ c.w ≤ (rowsCost ks n it c).2.w ∧ c.n ≤ (rowsCost ks n it c).2.n := by
  intro n
  induction n with
  | zero => intro it c; exact ⟨le_rfl, le_rfl, le_rfl⟩
  | succ n ih =>
    intro it c
    cases it with
    | nil => exact ⟨le_rfl, le_rfl, le_rfl⟩
    | cons e it =>
      unfold rowsCost
      split
      · obtain ⟨h1, h2, h3⟩ := ih it (c.row ks e)
        refine ⟨le_trans ?_ h1, le_trans ?_ h2, le_trans ?_ h3⟩ <;> simp [Cost.row]
      · exact ⟨Nat.le_add_right _ _, le_rfl, le_rfl⟩

theorem Cost.small_mono {c d : Cost} (h : d.small) (h1 : c.a ≤ d.a ∧ c.w ≤ d.w ∧ c.n ≤ d.n) : c.small :=
  ⟨h1.1.trans h.1, h1.2.1.trans h.2.1, h1.2.2.trans h.2.2⟩

theorem xyCost_mono : ∀ (fs : List Freq) (it : List Pln) (x y : Cost), (xyCost fs it x y).1.small → (xyCost fs it x y).2.small →
    x.small ∧ y.small := by
  intro fs
  induction fs with
  | nil => intro it x y h1 h2; exact ⟨h1, h2⟩
  | cons s fs ih =>
    intro it x y h1 h2
    obtain ⟨k1, k2⟩ := ih _ _ _ h1 h2
    exact ⟨Cost.small_mono k1 (rowsCost_mono _ _ _ _), Cost.small_mono k2 (rowsCost_mono _ _ _ _)⟩

section
variable {fl : Arith} {fsin fcos : ℝ → ℝ} (hf : Faithful fl) (hT : Trig fsin fcos) {F' F : ℕ → ℝ} (hF : ∀ i < 14, Near 1e-11 (F' i) (F i))
  (hb : ∀ i < 14, |F' i| ≤ 6.284) {t' t : ℝ} (ht : App 1 (4 * u) t' t)
include hf hT hF hb ht

theorem rows_sim {a' a : ℝ} {ks : ℕ} (ha : Near (ks * (1e-11 + 64 * u)) a' a) (hab : |a'| ≤ 6.4 * ks) :
    ∀ (n : Nat) (it it2 : List Pln) (s s' s2 : ℝ) (c : Cost), Cip.rowsLoop F t a n it s = .ok (it2, s2) → Inv c s' s →
      (rowsCost ks n it c).2.small →
      ∃ s2', rowsLoop fl fsin fcos F' t' a' n it s' = .ok (it2, s2') ∧ (rowsCost ks n it c).1 = it2 ∧ Inv (rowsCost ks n it c).2 s2' s2 := by
  have hu := u_pos
  have hul := u_lt
  intro n
  induction n with
  | zero => intro it it2 s s' s2 c h hi _; cases h; exact ⟨s', rfl, rfl, hi⟩
  | succ n ih =>
    intro it it2 s s' s2 c h hi hs
    cases it with
    | nil => cases h
    | cons e it =>
      unfold rowsCost at hs ⊢
      have hw : argWeight ks e ≤ 1000 := by
        by_contra hc
        rw [if_neg hc] at hs
        have := hs.1
        simp only at this
        omega
      rw [if_pos hw] at hs ⊢
      unfold Cip.rowsLoop at h
      simp only at h
      cases htp : (Cip.tpow t)[e.pow]? with
      | none => rw [htp] at h; cases h
      | some tp =>
        rw [htp] at h
        simp only at h
        obtain ⟨tp', htp', hat⟩ := app_tpow hf ht e.pow htp
        unfold rowsLoop
        simp only
        rw [htp']
        -- the argument
        have hE : (0 : ℝ) ≤ 1e-11 + 64 * u := by linarith
        have arg : ∃ δ, 0 ≤ δ ∧ δ ≤ argWeight ks e * (1e-11 + 71 * u) ∧
            Near δ (if e.sumpl ≠ 0 then fl (a' + plnArg fl e (fun i => F' (i + 5))) else a')
              (if e.sumpl ≠ 0 then a + e.arg (fun i => F (i + 5)) else a) := by
          unfold argWeight
          have hks : (0 : ℝ) ≤ (ks : ℝ) := Nat.cast_nonneg _
          by_cases hz : e.sumpl ≠ 0
          · rw [if_pos hz, if_pos hz, if_pos hz]
            have hd := dot_near hf (n := 8) le_rfl e.f (F' := fun i => F' (i + 5)) (F := fun i => F (i + 5)) (e := 1e-11) (by norm_num)
              (fun i hi => hF (i + 5) (by omega)) (fun i hi => hb (i + 5) (by omega))
            have hkp : (0 : ℝ) ≤ (weight 8 e.f : ℝ) := Nat.cast_nonneg _
            have hsum : |a' + plnArg fl e (fun i => F' (i + 5))| ≤ 6.4 * (ks + weight 8 e.f) :=
              (abs_add_le _ _).trans (by have := hd.2; unfold plnArg; linarith)
            refine ⟨_, ?_, ?_, (ha.add hd.1).fl hf hsum⟩
            · positivity
            · push_cast
              nlinarith [mul_nonneg (add_nonneg hks hkp) hu.le]
          · rw [if_neg hz, if_neg hz, if_neg hz]
            refine ⟨_, ?_, ?_, ha⟩
            · positivity
            · nlinarith [mul_nonneg hks hu.le]
        obtain ⟨δ, hδ0, hδ, harg⟩ := arg
        have hwR : (argWeight ks e : ℝ) ≤ 1000 := by exact_mod_cast hw
        have hw0 : (0 : ℝ) ≤ (argWeight ks e : ℝ) := Nat.cast_nonneg _
        have hc := app_cos hT harg
        have hsn := app_sin hT harg
        have hδs : δ + 2 * u ≤ 0.0001 := by nlinarith
        have hterm := app_term hf (by linarith) hδs hc hsn hat e.ac e.as
        have hcos : (if e.sumpl ≠ 0 then fcos (if e.sumpl ≠ 0 then fl (a' + plnArg fl e (fun i => F' (i + 5))) else a') else fcos a') =
            fcos (if e.sumpl ≠ 0 then fl (a' + plnArg fl e (fun i => F' (i + 5))) else a') := by split <;> rfl
        have hsin : (if e.sumpl ≠ 0 then fsin (if e.sumpl ≠ 0 then fl (a' + plnArg fl e (fun i => F' (i + 5))) else a') else fsin a') =
            fsin (if e.sumpl ≠ 0 then fl (a' + plnArg fl e (fun i => F' (i + 5))) else a') := by split <;> rfl
        have hcosX : (if e.sumpl ≠ 0 then Real.cos (if e.sumpl ≠ 0 then a + e.arg (fun i => F (i + 5)) else a) else Real.cos a) =
            Real.cos (if e.sumpl ≠ 0 then a + e.arg (fun i => F (i + 5)) else a) := by split <;> rfl
        have hsinX : (if e.sumpl ≠ 0 then Real.sin (if e.sumpl ≠ 0 then a + e.arg (fun i => F (i + 5)) else a) else Real.sin a) =
            Real.sin (if e.sumpl ≠ 0 then a + e.arg (fun i => F (i + 5)) else a) := by split <;> rfl
        rw [hcos, hsin]
        rw [hcosX, hsinX] at h
        refine ih it it2 _ _ s2 (c.row ks e) h ?_ hs
        have hsm := Cost.small_mono hs (rowsCost_mono ks n it (c.row ks e))
        have hsumm := (App.add hi hterm).fl hf
        refine App.mono hsumm (le_of_eq ?_) ?_
        · simp only [Cost.row]; push_cast; ring
        · obtain ⟨s1, s2, s3⟩ := hsm
          have s1' : ((c.row ks e).a : ℝ) ≤ 1100000000 := by exact_mod_cast s1
          have s2' : ((c.row ks e).w : ℝ) ≤ 2500000000 := by exact_mod_cast s2
          have s3' : ((c.row ks e).n : ℝ) ≤ 2000 := by exact_mod_cast s3
          simp only [Cost.row] at s1' s2' s3' ⊢
          push_cast at s1' s2' s3' ⊢
          have hamp : (0 : ℝ) ≤ (e.ac.natAbs : ℝ) + e.as.natAbs := by positivity
          generalize (e.ac.natAbs : ℝ) + (e.as.natAbs : ℝ) = A at *
          have hA1 : A / 100 * (δ + 2 * u + 36 * u) ≤ A / 100 * ((argWeight ks e + 1) * 1.01e-11) := by
            apply mul_le_mul_of_nonneg_left _ (by positivity)
            nlinarith
          generalize (argWeight ks e : ℝ) = W at *
          have e1 : A / 100 * ((W + 1) * 1.01e-11) = A * (W + 1) / 100 * 1.01e-11 := by ring
          have hca : (0 : ℝ) ≤ (c.a : ℝ) := Nat.cast_nonneg _
          have hcn : (0 : ℝ) ≤ (c.n : ℝ) := Nat.cast_nonneg _
          have hcw : (0 : ℝ) ≤ (c.w : ℝ) := Nat.cast_nonneg _
          generalize A / 100 * (δ + 2 * u + 36 * u) = Q at *
          have big : (c.a : ℝ) / 100 + A / 100 + (c.w / 100 * 1.01e-11 + c.n * 1.4e-9 + Q) ≤ 11000001 := by
            have : Q ≤ A * (W + 1) / 100 * 1.01e-11 := hA1.trans (le_of_eq e1)
            linarith
          have := mul_le_mul_of_nonneg_left big hu.le
          have hQ : Q ≤ A * (W + 1) / 100 * 1.01e-11 := hA1.trans (le_of_eq e1)
          have : u * 11000001 ≤ 1.4e-9 := by linarith
          linarith

theorem xy_sim : ∀ (fs : List Freq) (it : List Pln) (x y x' y' : ℝ) (X Y : ℝ) (c d : Cost), Cip.xyLoop F t fs it x y = .ok (X, Y) →
    Inv c x' x → Inv d y' y → (xyCost fs it c d).1.small → (xyCost fs it c d).2.small →
    ∃ X' Y', xyLoop fl fsin fcos F' t' fs it x' y' = .ok (X', Y') ∧ Inv (xyCost fs it c d).1 X' X ∧ Inv (xyCost fs it c d).2 Y' Y := by
  intro fs
  induction fs with
  | nil => intro it x y x' y' X Y c d h h1 h2 _ _; cases h; exact ⟨x', y', rfl, h1, h2⟩
  | cons s fs ih =>
    intro it x y x' y' X Y c d h h1 h2 hs1 hs2
    obtain ⟨m1, m2⟩ := xyCost_mono _ _ _ _ hs1 hs2
    unfold Cip.xyLoop at h
    simp only at h
    have hd := dot_near hf (n := 4) (by norm_num) s.f (F' := F') (F := F) (e := 1e-11) (by norm_num)
      (fun i hi => hF i (by omega)) (fun i hi => hb i (by omega))
    have harg : Near (weight 4 s.f * (1e-11 + 64 * u)) (freqArg fl s F') (s.arg F) := hd.1
    unfold xyLoop
    simp only
    cases hr : Cip.rowsLoop F t (s.arg F) s.nx it x with
    | ok p =>
      rw [hr] at h
      simp only [Res.bind] at h
      cases hq : Cip.rowsLoop F t (s.arg F) s.ny p.1 y with
      | ok q =>
        rw [hq] at h
        simp only [Res.bind] at h
        have hc1 : (rowsCost (weight 4 s.f) s.nx it c).2.small := by
          have := xyCost_mono _ _ _ _ (show (xyCost fs (rowsCost (weight 4 s.f) s.ny (rowsCost (weight 4 s.f) s.nx it c).1 d).1 _ _).1.small from hs1) hs2
          exact this.1
        have hc2 : (rowsCost (weight 4 s.f) s.ny (rowsCost (weight 4 s.f) s.nx it c).1 d).2.small := by
          have := xyCost_mono _ _ _ _ (show (xyCost fs (rowsCost (weight 4 s.f) s.ny (rowsCost (weight 4 s.f) s.nx it c).1 d).1 _ _).1.small from hs1) hs2
          exact this.2
        obtain ⟨p', e1, e2, e3⟩ := rows_sim hf hT hF hb ht harg hd.2 s.nx it p.1 x x' p.2 c hr h1 hc1
        rw [e2] at hc2
        obtain ⟨q', f1, f2, f3⟩ := rows_sim hf hT hF hb ht harg hd.2 s.ny p.1 q.1 y y' q.2 d hq h2 hc2
        rw [e1]
        simp only [Res.bind]
        rw [f1]
        simp only [Res.bind]
        unfold xyCost at hs1 hs2 ⊢
        simp only [e2, f2] at hs1 hs2 ⊢
        exact ih q.1 p.2 q.2 p' q' X Y _ _ h e3 f3 hs1 hs2
      | ub => rw [hq] at h; cases h
      | abort => rw [hq] at h; cases h
      | throw => rw [hq] at h; cases h
    | ub => rw [hr] at h; cases h
    | abort => rw [hr] at h; cases h
    | throw => rw [hr] at h; cases h

end

/-- The limits hold for the tables of the source. -/
theorem cost_small : (xyCost xyLunSol xyPln ⟨0, 0, 0⟩ ⟨0, 0, 0⟩).1.small ∧ (xyCost xyLunSol xyPln ⟨0, 0, 0⟩ ⟨0, 0, 0⟩).2.small := by
  unfold Cost.small
  decide +kernel

end Verif.RoundedCip
