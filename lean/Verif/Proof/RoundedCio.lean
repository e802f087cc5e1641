import Verif.Proof.RoundedCip
import Verif.Model.RoundedGcrs
/-
Rounding errors of the series for the CIO locator.
-/
namespace Verif.RoundedGcrs
open Verif Verif.Rounding Verif.Rounded Verif.RoundedCip
open Verif.Cip (Row)

/-- A row of the series, without a power of t. -/
theorem app_pair {fl : Arith} (hf : Faithful fl) {δ c' c s' s : ℝ} (hδ0 : 0 ≤ δ) (hδ : δ ≤ 0.0001) (hc : App 1 δ c' c) (hs : App 1 δ s' s) (a b : ℤ) :
    App ((a.natAbs + b.natAbs : ℕ) / 100) ((a.natAbs + b.natAbs : ℕ) / 100 * (δ + 3.2 * u))
      (fl (fl.pr 0 (lit fl (a / 100) * c') + fl.pr 1 (lit fl (b / 100) * s'))) ((a / 100 : ℝ) * c + (b / 100 : ℝ) * s) := by
  have hu := u_pos
  have hul := u_lt
  have hsq := u_sq
  have one : ∀ (m : ℕ) (z : ℤ) {x' x : ℝ}, App 1 δ x' x → App (z.natAbs / 100 : ℝ) (z.natAbs / 100 * (δ + 2.1 * u)) (fl.pr m (lit fl (z / 100) * x')) (z / 100 * x) := by
    intro m z x' x hx
    have hz : (0 : ℝ) ≤ (z.natAbs : ℝ) / 100 := by positivity
    have habs : |(z / 100 : ℝ)| ≤ z.natAbs / 100 := by rw [abs_div, natAbs_cast]; norm_num
    refine (((App.lit hf _ habs).mul hx).pr hf m).mono (by linarith) ?_
    have h1 := mul_nonneg hz hu.le
    have h2 := mul_le_mul_of_nonneg_left hδ h1
    have h3 := mul_le_mul_of_nonneg_left hsq hz
    have h4 := mul_le_mul_of_nonneg_left hul.le (mul_nonneg hz (mul_nonneg hu.le hδ0))
    generalize (z.natAbs : ℝ) / 100 = Z at *
    nlinarith
  have A := ((one 0 a hc).add (one 1 b hs))
  have hA : ((a.natAbs + b.natAbs : ℕ) : ℝ) / 100 = (a.natAbs : ℝ) / 100 + (b.natAbs : ℝ) / 100 := by push_cast; ring
  rw [hA]
  have ha : (0 : ℝ) ≤ (a.natAbs : ℝ) / 100 := by positivity
  have hb : (0 : ℝ) ≤ (b.natAbs : ℝ) / 100 := by positivity
  generalize (a.natAbs : ℝ) / 100 = x at *
  generalize (b.natAbs : ℝ) / 100 = y at *
  have hz : 0 ≤ x + y := add_nonneg ha hb
  have A' : App (x + y) ((x + y) * (δ + 2.1 * u)) (fl.pr 0 (lit fl (a / 100) * c') + fl.pr 1 (lit fl (b / 100) * s')) (a / 100 * c + b / 100 * s) :=
    A.mono le_rfl (by linarith)
  generalize x + y = z at *
  have h1 := mul_nonneg hz hu.le
  have h2 := mul_le_mul_of_nonneg_left hδ h1
  have h3 := mul_le_mul_of_nonneg_left hsq hz
  exact (A'.fl hf).mono (e' := z * (δ + 3.2 * u)) le_rfl (by nlinarith)

/-- Sum of the amplitudes. -/
def amp : List Row → Nat
  | [] => 0
  | s :: l => (s.acj.natAbs + s.asj.natAbs) + amp l

theorem arg_near {fl : Arith} (hf : Faithful fl) {F' F : ℕ → ℝ} (hF : ∀ i < 14, Near 1e-11 (F' i) (F i)) (hb : ∀ i < 14, |F' i| ≤ 6.284) (s : Row)
    (hw4 : weight 4 s.f ≤ 50) (hw : weight 13 s.f ≤ 50) : Near 5.1e-10 (rowArg fl s F') (s.arg F) := by
  have hu := u_pos
  have hul := u_lt
  have h4 : (weight 4 s.f : ℝ) ≤ 50 := by exact_mod_cast hw4
  have h13 : (weight 13 s.f : ℝ) ≤ 50 := by exact_mod_cast hw
  have w4 : (0 : ℝ) ≤ weight 4 s.f := Nat.cast_nonneg _
  have w13 : (0 : ℝ) ≤ weight 13 s.f := Nat.cast_nonneg _
  unfold rowArg Cip.Row.arg
  simp only
  by_cases hp : s.hasPlanetary = true
  · rw [if_pos hp, if_pos hp]
    have h := (dot_near_all hf (n := 13) le_rfl s.f (F' := F') (F := F) (e := 1e-11) (by norm_num) (fun i hi => hF i (by omega)) (fun i hi => hb i (by omega))).1
    have e1 : (List.range' 5 9).foldl (fun arg i => arg + F i * s.f.getD i 0)
        (F 0 * s.f.getD 0 0 + F 1 * s.f.getD 1 0 + F 2 * s.f.getD 2 0 + F 3 * s.f.getD 3 0 + F 4 * s.f.getD 4 0) =
        (List.range' 1 13).foldl (fun a i => a + s.f.getD i 0 * F i) (s.f.getD 0 0 * F 0) := by
      simp only [List.range', List.foldl_cons, List.foldl_nil, Nat.reduceAdd]
      ring
    rw [e1]
    refine h.mono ?_
    push_cast
    nlinarith
  · rw [if_neg hp, if_neg hp]
    have h := (dot_near_all hf (n := 4) (by norm_num) s.f (F' := F') (F := F) (e := 1e-11) (by norm_num) (fun i hi => hF i (by omega)) (fun i hi => hb i (by omega))).1
    have e1 : F 0 * s.f.getD 0 0 + F 1 * s.f.getD 1 0 + F 2 * s.f.getD 2 0 + F 3 * s.f.getD 3 0 + F 4 * s.f.getD 4 0 =
        (List.range' 1 4).foldl (fun a i => a + s.f.getD i 0 * F i) (s.f.getD 0 0 * F 0) := by
      simp only [List.range', List.foldl_cons, List.foldl_nil, Nat.reduceAdd]
      ring
    rw [e1]
    refine h.mono ?_
    push_cast
    nlinarith

section
variable {fl : Arith} {fsin fcos : ℝ → ℝ} (hf : Faithful fl) (hT : Trig fsin fcos) {F' F : ℕ → ℝ} (hF : ∀ i < 14, Near 1e-11 (F' i) (F i))
  (hb : ∀ i < 14, |F' i| ≤ 6.284)
include hf hT hF hb

theorem fold_sim : ∀ (rows : List Row) (A E c' c : ℝ), (∀ s ∈ rows, weight 4 s.f ≤ 50 ∧ weight 13 s.f ≤ 50) → App A E c' c → 0 ≤ E →
    A + amp rows / 100 + (E + amp rows / 100 * 5.2e-10 + rows.length * 4e-13) ≤ 3000 →
    App (A + amp rows / 100) (E + amp rows / 100 * 5.2e-10 + rows.length * 4e-13)
      (rows.foldl (fun c s =>
        let arg := rowArg fl s F'
        let ca := fcos arg
        let sa := fsin arg
        fl (c + fl (fl.pr 0 (lit fl (s.acj / 100) * ca) + fl.pr 1 (lit fl (s.asj / 100) * sa)))) c')
      (rows.foldl (fun c s =>
        let arg := s.arg F
        let ca := Real.cos arg
        let sa := Real.sin arg
        c + ((s.acj / 100 : ℝ) * ca + (s.asj / 100 : ℝ) * sa)) c) := by
  have hu := u_pos
  have hul := u_lt
  intro rows
  induction rows with
  | nil => intro A E c' c _ h _ _; simpa [amp] using h
  | cons s rows ih =>
    intro A E c' c hw h hE hlim
    obtain ⟨w4, w13⟩ := hw s List.mem_cons_self
    have harg := arg_near hf hF hb s w4 w13
    have hc := (app_cos hT harg).mono (M' := 1) (e' := 5.11e-10) le_rfl (by linarith)
    have hs := (app_sin hT harg).mono (M' := 1) (e' := 5.11e-10) le_rfl (by linarith)
    have hp := app_pair hf (by norm_num) (by norm_num) hc hs s.acj s.asj
    have hS := (h.add hp).fl hf
    simp only [amp, List.length_cons] at hlim ⊢
    rw [List.foldl_cons, List.foldl_cons]
    push_cast at hlim hS ⊢
    have ha0 : (0 : ℝ) ≤ (s.acj.natAbs : ℝ) + s.asj.natAbs := by positivity
    have hr0 : (0 : ℝ) ≤ (amp rows : ℝ) := Nat.cast_nonneg _
    have hl0 : (0 : ℝ) ≤ (rows.length : ℝ) := Nat.cast_nonneg _
    generalize (s.acj.natAbs : ℝ) + (s.asj.natAbs : ℝ) = a at *
    have big : A + a / 100 + (E + a / 100 * (5.11e-10 + 3.2 * u)) ≤ 3000 := by nlinarith
    have h1 := mul_le_mul_of_nonneg_left big hu.le
    have step := ih (A + a / 100) (E + a / 100 * 5.2e-10 + 4e-13) _ _ (fun q hq => hw q (List.mem_cons_of_mem _ hq))
      (hS.mono le_rfl (by nlinarith)) (by positivity) (by linarith)
    exact step.mono (by linarith) (by linarith)

/-- One of the five sums. -/
theorem plain_sim {rows : List Row} {n : ℕ} (hw : ∀ s ∈ rows, weight 4 s.f ≤ 50 ∧ weight 13 s.f ≤ 50) (ha : amp rows ≤ n * 100) (hn : n ≤ 2900)
    (hl : rows.length ≤ 40) : App n 1.6e-6 (plainSum fl fsin fcos F' rows) (Cip.plainSum F rows) := by
  have ha' : (amp rows : ℝ) ≤ n * 100 := by exact_mod_cast ha
  have hn' : (n : ℝ) ≤ 2900 := by exact_mod_cast hn
  have hl' : (rows.length : ℝ) ≤ 40 := by exact_mod_cast hl
  have := fold_sim hf hT hF hb rows 0 0 0 0 hw ⟨by simp, by simp⟩ le_rfl (by linarith)
  exact this.mono (by linarith) (by linarith)

end

theorem weights : (∀ s ∈ Cip.c0Series, weight 4 s.f ≤ 50 ∧ weight 13 s.f ≤ 50) ∧ (∀ s ∈ Cip.c1Series, weight 4 s.f ≤ 50 ∧ weight 13 s.f ≤ 50) ∧
    (∀ s ∈ Cip.c2Series, weight 4 s.f ≤ 50 ∧ weight 13 s.f ≤ 50) ∧ (∀ s ∈ Cip.c3Series, weight 4 s.f ≤ 50 ∧ weight 13 s.f ≤ 50) ∧
    (∀ s ∈ Cip.c4Series, weight 4 s.f ≤ 50 ∧ weight 13 s.f ≤ 50) := by decide +kernel

theorem amps : amp Cip.c0Series ≤ 2900 * 100 ∧ amp Cip.c1Series ≤ 10 * 100 ∧ amp Cip.c2Series ≤ 900 * 100 ∧ amp Cip.c3Series ≤ 30 * 100 ∧
    amp Cip.c4Series ≤ 1 * 100 := by decide +kernel

end Verif.RoundedGcrs
