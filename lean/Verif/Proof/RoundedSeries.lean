import Verif.Proof.RoundedCio
import Verif.Model.RoundedSeries
/-
Rounding errors of the separate series for X and Y.
-/
namespace Verif.RoundedSeries
open Verif Verif.Rounding Verif.Rounded Verif.RoundedCip
open Verif.Cip (Row KSum)
open Verif.RoundedGcrs (rowArg app_pair amp)

/-- The weight of the argument of a row. -/
def rowWeight (s : Row) : Nat := if s.hasPlanetary then weight 13 s.f else weight 4 s.f

/-- Sum of amplitudes times weights. -/
def wamp : List Row → Nat
  | [] => 0
  | s :: l => (s.acj.natAbs + s.asj.natAbs) * rowWeight s + wamp l

theorem arg_near {fl : Arith} (hf : Faithful fl) {F' F : ℕ → ℝ} (hF : ∀ i < 14, Near 1e-11 (F' i) (F i)) (hb : ∀ i < 14, |F' i| ≤ 6.284) (s : Row) :
    Near (rowWeight s * 1.002e-11) (rowArg fl s F') (s.arg F) := by
  have hu := u_pos
  have hul := u_lt
  unfold rowArg Cip.Row.arg rowWeight
  simp only
  by_cases hp : s.hasPlanetary = true
  · rw [if_pos hp, if_pos hp, if_pos hp]
    have h := (dot_near_all hf (n := 13) le_rfl s.f (F' := F') (F := F) (e := 1e-11) (by norm_num) (fun i hi => hF i (by omega)) (fun i hi => hb i (by omega))).1
    have e1 : (List.range' 5 9).foldl (fun arg i => arg + F i * s.f.getD i 0)
        (F 0 * s.f.getD 0 0 + F 1 * s.f.getD 1 0 + F 2 * s.f.getD 2 0 + F 3 * s.f.getD 3 0 + F 4 * s.f.getD 4 0) =
        (List.range' 1 13).foldl (fun a i => a + s.f.getD i 0 * F i) (s.f.getD 0 0 * F 0) := by
      simp only [List.range', List.foldl_cons, List.foldl_nil, Nat.reduceAdd]
      ring
    rw [e1]
    refine h.mono (mul_le_mul_of_nonneg_left ?_ (Nat.cast_nonneg _))
    push_cast
    linarith
  · rw [if_neg hp, if_neg hp, if_neg hp]
    have h := (dot_near_all hf (n := 4) (by norm_num) s.f (F' := F') (F := F) (e := 1e-11) (by norm_num) (fun i hi => hF i (by omega)) (fun i hi => hb i (by omega))).1
    have e1 : F 0 * s.f.getD 0 0 + F 1 * s.f.getD 1 0 + F 2 * s.f.getD 2 0 + F 3 * s.f.getD 3 0 + F 4 * s.f.getD 4 0 =
        (List.range' 1 4).foldl (fun a i => a + s.f.getD i 0 * F i) (s.f.getD 0 0 * F 0) := by
      simp only [List.range', List.foldl_cons, List.foldl_nil, Nat.reduceAdd]
      ring
    rw [e1]
    refine h.mono (mul_le_mul_of_nonneg_left ?_ (Nat.cast_nonneg _))
    push_cast
    linarith

/-- The part of a term that is lost in the sum. -/
theorem lost {fl : Arith} (hf : Faithful fl) {a b : ℝ} (ha : |a| ≤ 1.03e7) (hb : |b| ≤ 1.03e7) : |fl (fl (a - fl (a + b)) + b)| ≤ 3.8e-9 := by
  have hu := u_pos
  have hul := u_lt
  have s0 : |a + b| ≤ 2.06e7 := (abs_add_le a b).trans (by linarith)
  have s1 : |fl (a + b) - (a + b)| ≤ 2.48e-9 := (hf.rel (a + b)).trans (by nlinarith [abs_nonneg (a + b)])
  have d : |a - fl (a + b)| ≤ 1.0300001e7 := by
    rw [show a - fl (a + b) = -(fl (a + b) - (a + b)) - b by ring]
    refine (abs_sub _ _).trans ?_
    rw [abs_neg]; linarith
  have s2 : |fl (a - fl (a + b)) - (a - fl (a + b))| ≤ 1.24e-9 := (hf.rel _).trans (by nlinarith [abs_nonneg (a - fl (a + b))])
  have s3 : |fl (a - fl (a + b)) + b| ≤ 3.72e-9 := by
    rw [show fl (a - fl (a + b)) + b = (fl (a - fl (a + b)) - (a - fl (a + b))) - (fl (a + b) - (a + b)) by ring]
    exact (abs_sub _ _).trans (by linarith)
  have s4 := hf.rel (fl (a - fl (a + b)) + b)
  have s5 := abs_sub_abs_le_abs_sub (fl (fl (a - fl (a + b)) + b)) (fl (a - fl (a + b)) + b)
  nlinarith [abs_nonneg (fl (a - fl (a + b)) + b)]

theorem kadd_sum (fl : Arith) (k : KSum) (v : ℝ) : (kadd fl k v).sum = fl (k.sum + v) := by
  unfold kadd; simp only; split <;> rfl

theorem kadd_err {fl : Arith} (hf : Faithful fl) {k : KSum} {v : ℝ} (hs : |k.sum| ≤ 1.03e7) (hv : |v| ≤ 1.03e7) (he : |k.err| ≤ 1) :
    |(kadd fl k v).err| ≤ |k.err| + 4e-9 := by
  have hu := u_pos
  have hul := u_lt
  have fin : ∀ {c : ℝ}, |c| ≤ 3.8e-9 → |fl (k.err + c)| ≤ |k.err| + 4e-9 := by
    intro c hc
    have s4 := hf.rel (k.err + c)
    have s5 := abs_sub_abs_le_abs_sub (fl (k.err + c)) (k.err + c)
    have s6 := abs_add_le k.err c
    nlinarith [abs_nonneg (k.err + c)]
  unfold kadd
  simp only
  split
  · exact fin (lost hf hs hv)
  · have := lost hf hv hs
    rw [add_comm v k.sum] at this
    exact fin this

section
variable {fl : Arith} {fsin fcos : ℝ → ℝ} (hf : Faithful fl) (hT : Trig fsin fcos) {F' F : ℕ → ℝ} (hF : ∀ i < 14, Near 1e-11 (F' i) (F i))
  (hb : ∀ i < 14, |F' i| ≤ 6.284)
include hf hT hF hb

theorem loop_sim : ∀ (rows : List Row) (A E B c : ℝ) (k : KSum), (∀ s ∈ rows, rowWeight s ≤ 50) → App A E k.sum c → |k.err| ≤ B → 0 ≤ A → 0 ≤ E → 0 ≤ B →
    A + amp rows / 100 ≤ 1.02e7 → E + (wamp rows / 100 * 1.01e-11 + amp rows / 100 * 1e-15 + rows.length * 1.3e-9) ≤ 1 → B + rows.length * 4e-9 ≤ 1 →
    App (A + amp rows / 100) (E + (wamp rows / 100 * 1.01e-11 + amp rows / 100 * 1e-15 + rows.length * 1.3e-9)) (seriesLoop fl fsin fcos F' rows k).sum
      (rows.foldl (fun c s =>
        let arg := s.arg F
        let ca := Real.cos arg
        let sa := Real.sin arg
        c + ((s.acj / 100 : ℝ) * ca + (s.asj / 100 : ℝ) * sa)) c) ∧ |(seriesLoop fl fsin fcos F' rows k).err| ≤ B + rows.length * 4e-9 := by
  have hu := u_pos
  have hul := u_lt
  intro rows
  induction rows with
  | nil => intro A E B c k _ h hB _ _ _ _ _ _; exact ⟨by simpa [amp, wamp, seriesLoop] using h, by simpa [seriesLoop] using hB⟩
  | cons s rows ih =>
    intro A E B c k hw h hB hA hE hB0 hlim hlimE hlimB
    have hws : (rowWeight s : ℝ) ≤ 50 := by exact_mod_cast hw s List.mem_cons_self
    have hw0 : (0 : ℝ) ≤ rowWeight s := Nat.cast_nonneg _
    have harg := arg_near hf hF hb s
    have hc := app_cos hT harg
    have hs := app_sin hT harg
    have hp := app_pair hf (by positivity) (by linarith) hc hs s.acj s.asj
    have hS := (h.add hp).fl hf
    simp only [amp, wamp, List.length_cons] at hlim hlimE hlimB ⊢
    unfold seriesLoop
    rw [List.foldl_cons, List.foldl_cons]
    push_cast at hlim hlimE hlimB hS hp ⊢
    have ha0 : (0 : ℝ) ≤ (s.acj.natAbs : ℝ) + s.asj.natAbs := by positivity
    have hr0 : (0 : ℝ) ≤ (amp rows : ℝ) := Nat.cast_nonneg _
    have hm0 : (0 : ℝ) ≤ (wamp rows : ℝ) := Nat.cast_nonneg _
    have hl0 : (0 : ℝ) ≤ (rows.length : ℝ) := Nat.cast_nonneg _
    generalize (s.acj.natAbs : ℝ) + (s.asj.natAbs : ℝ) = a at *
    generalize (rowWeight s : ℝ) = w at *
    generalize fl (fl.pr 0 (lit fl (s.acj / 100) * fcos (rowArg fl s F')) + fl.pr 1 (lit fl (s.asj / 100) * fsin (rowArg fl s F'))) = v' at *
    generalize (s.acj / 100 : ℝ) * Real.cos (s.arg F) + (s.asj / 100 : ℝ) * Real.sin (s.arg F) = v at *
    have aw := mul_nonneg ha0 hw0
    have au := mul_le_mul_of_nonneg_left hul.le ha0
    have q1 : a / 100 * (w * 1.002e-11 + 2 * u + 3.2 * u) ≤ a * w / 100 * 1.002e-11 + a / 100 * 7e-16 := by nlinarith
    have ea : a / 100 ≤ 1.02e7 := by linarith
    have q2 : a * w ≤ 1.02e9 * 50 := by nlinarith
    have es : |k.sum| ≤ 1.03e7 := h.abs'.trans (by linarith)
    have ev : |v'| ≤ 1.03e7 := hp.abs'.trans (by linarith)
    have k1 := kadd_err hf es ev (hB.trans (by linarith))
    have big : A + a / 100 + (E + a / 100 * (w * 1.002e-11 + 2 * u + 3.2 * u)) ≤ 1.03e7 := by linarith
    have h1 := mul_le_mul_of_nonneg_left big hu.le
    have hS' : App (A + a / 100) (E + (a * w / 100 * 1.01e-11 + a / 100 * 1e-15 + 1.3e-9)) (kadd fl k v').sum (c + v) := by
      rw [kadd_sum]
      exact hS.mono le_rfl (by linarith)
    have step := ih _ _ (B + 4e-9) _ _ (fun q hq => hw q (List.mem_cons_of_mem _ hq)) hS' (k1.trans (by linarith)) (by positivity) (by positivity) (by positivity)
      (by linarith) (by linarith) (by linarith)
    unfold seriesLoop at step
    exact ⟨step.1.mono (by linarith) (by linarith), step.2.trans (by linarith)⟩

/-- One of the sums. -/
theorem series_sim {rows : List Row} {n w l : ℕ} (hw : ∀ s ∈ rows, rowWeight s ≤ 50) (ha : amp rows ≤ n * 100) (hwa : wamp rows ≤ w * 100) (hl : rows.length ≤ l)
    (hn : n ≤ 10100000) (hwn : w ≤ 20000000) (hln : l ≤ 1400) :
    App n (w * 1.02e-11 + n * 1.3e-15 + l * 6e-9) (seriesSum fl fsin fcos F' rows) (Cip.plainSum F rows) := by
  have hu := u_pos
  have hul := u_lt
  have ha' : (amp rows : ℝ) ≤ n * 100 := by exact_mod_cast ha
  have hwa' : (wamp rows : ℝ) ≤ w * 100 := by exact_mod_cast hwa
  have hn' : (n : ℝ) ≤ 10100000 := by exact_mod_cast hn
  have hw' : (w : ℝ) ≤ 20000000 := by exact_mod_cast hwn
  have hl' : (rows.length : ℝ) ≤ l := by exact_mod_cast hl
  have hln' : (l : ℝ) ≤ 1400 := by exact_mod_cast hln
  have n0 : (0 : ℝ) ≤ n := Nat.cast_nonneg _
  have w0 : (0 : ℝ) ≤ w := Nat.cast_nonneg _
  have l0 : (0 : ℝ) ≤ l := Nat.cast_nonneg _
  obtain ⟨s1, s2⟩ := loop_sim hf hT hF hb rows 0 0 0 0 ⟨0, 0⟩ hw ⟨by simp, by simp⟩ (by simp) le_rfl le_rfl le_rfl (by linarith) (by linarith) (by linarith)
  have s3 : App 0 (l * 4e-9) (seriesLoop fl fsin fcos F' rows ⟨0, 0⟩).err 0 := ⟨by simp, by rw [sub_zero]; exact s2.trans (by linarith)⟩
  have s4 := ((s1.mono (M' := n) (e' := w * 1.01e-11 + n * 1e-15 + l * 1.3e-9) (by linarith) (by linarith)).add s3).fl hf
  simp only [add_zero] at s4
  refine s4.mono le_rfl ?_
  have un := mul_le_mul_of_nonneg_right hul.le n0
  have uw := mul_le_mul_of_nonneg_right hul.le w0
  have ul := mul_le_mul_of_nonneg_right hul.le l0
  nlinarith

end

theorem weights : (∀ s ∈ Cip.x0Series, rowWeight s ≤ 50) ∧ (∀ s ∈ Cip.x1Series, rowWeight s ≤ 50) ∧ (∀ s ∈ Cip.x2Series, rowWeight s ≤ 50) ∧
    (∀ s ∈ Cip.x3Series, rowWeight s ≤ 50) ∧ (∀ s ∈ Cip.x4Series, rowWeight s ≤ 50) ∧ (∀ s ∈ Cip.y0Series, rowWeight s ≤ 50) ∧
    (∀ s ∈ Cip.y1Series, rowWeight s ≤ 50) ∧ (∀ s ∈ Cip.y2Series, rowWeight s ≤ 50) ∧ (∀ s ∈ Cip.y3Series, rowWeight s ≤ 50) ∧
    (∀ s ∈ Cip.y4Series, rowWeight s ≤ 50) := by decide +kernel

theorem amps : (amp Cip.x0Series ≤ 10100000 * 100 ∧ amp Cip.x1Series ≤ 230000 * 100 ∧ amp Cip.x2Series ≤ 2700 * 100 ∧ amp Cip.x3Series ≤ 25 * 100 ∧
    amp Cip.x4Series ≤ 1 * 100) ∧ (amp Cip.y0Series ≤ 10100000 * 100 ∧ amp Cip.y1Series ≤ 230000 * 100 ∧ amp Cip.y2Series ≤ 2700 * 100 ∧
    amp Cip.y3Series ≤ 25 * 100 ∧ amp Cip.y4Series ≤ 1 * 100) := by decide +kernel

theorem wamps : (wamp Cip.x0Series ≤ 14000000 * 100 ∧ wamp Cip.x1Series ≤ 320000 * 100 ∧ wamp Cip.x2Series ≤ 4000 * 100 ∧ wamp Cip.x3Series ≤ 40 * 100 ∧
    wamp Cip.x4Series ≤ 1 * 100) ∧ (wamp Cip.y0Series ≤ 14000000 * 100 ∧ wamp Cip.y1Series ≤ 320000 * 100 ∧ wamp Cip.y2Series ≤ 4000 * 100 ∧
    wamp Cip.y3Series ≤ 40 * 100 ∧ wamp Cip.y4Series ≤ 1 * 100) := by decide +kernel

theorem lengths : (Cip.x0Series.length ≤ 1400 ∧ Cip.x1Series.length ≤ 300 ∧ Cip.x2Series.length ≤ 40 ∧ Cip.x3Series.length ≤ 5 ∧ Cip.x4Series.length ≤ 1) ∧
    (Cip.y0Series.length ≤ 1400 ∧ Cip.y1Series.length ≤ 300 ∧ Cip.y2Series.length ≤ 40 ∧ Cip.y3Series.length ≤ 5 ∧ Cip.y4Series.length ≤ 1) := by decide +kernel

end Verif.RoundedSeries
