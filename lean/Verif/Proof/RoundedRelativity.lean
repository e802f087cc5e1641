import Verif.Model.RoundedRelativity
import Verif.Spec.RoundedRelativity
import Verif.Proof.Scaled
import Verif.Proof.Rel
import Verif.Props.RoundedPoint
import Verif.Props.Relativity
/-
Lemmas on the rounding errors of the relativistic acceleration.
-/
namespace Verif.Rounding

theorem Sc.le {k M N x' x : ℝ} (h : Sc k M x' x) (hk : 0 ≤ k) (hN : M ≤ N) : Sc k N x' x :=
  ⟨h.1.trans hN, h.2.trans (mul_le_mul_of_nonneg_left hN (mul_nonneg hk u_pos.le))⟩

theorem Sc.of_rel {k x' x : ℝ} (h : Rel k x' x) : Sc k |x| x' x := ⟨le_rfl, h⟩

theorem Sc.neg {k M x' x : ℝ} (h : Sc k M x' x) : Sc k M (-x') (-x) :=
  ⟨by rw [abs_neg]; exact h.1, by rw [show -x' - -x = -(x' - x) by ring, abs_neg]; exact h.2⟩

theorem Sc.sub {k M N x' x y' y : ℝ} (h : Sc k M x' x) (g : Sc k N y' y) : Sc k (M + N) (x' - y') (x - y) := by
  rw [sub_eq_add_neg, sub_eq_add_neg]
  exact h.add g.neg

end Verif.Rounding

namespace Verif.RoundedRelativity
open Verif Verif.Rounding Verif.Rounded
open Verif.Relativity (State)

section
variable {fl : Rounded.Arith} (hf : Faithful fl)
include hf

theorem two_sc {k M x' x : ℝ} (h : Sc k M x' x) (h0 : 0 ≤ k) (hk : k ≤ 900) : Sc (k + 1.003) (2 * M) (fl (2 * x')) (2 * x) := by
  have := (((Sc.exact (2 : ℝ)).mul h (by norm_num) (by norm_num) h0 (by linarith)).fl hf (by linarith)).mono (l := k + 1.003) (by linarith)
  rwa [abs_two] at this

/-- One component of the sum, in kilometres and seconds. -/
theorem total_sc {cube : ℝ → ℝ} (hc3 : Cube cube) {s v R V GMe GMs J c beta gamma s' R' GMe' GMs' c' r' r w' w cr' cr vj' vj vi' vi vv' vv rv' rv rj' rj : ℝ}
    (s0 : 0 < s) (v0 : 0 ≤ v) (R0 : 0 < R) (V0 : 0 ≤ V) (G0 : GMe ≠ 0) (c0 : c ≠ 0)
    (hs : Rel 9.5 s' s) (hR : Rel 9.5 R' R) (hG : Rel 2.1 GMe' GMe) (hS : Rel 2.1 GMs' GMs) (hc : Rel 2.1 c' c)
    (hr : Sc 2.1 s r' r) (hvi : Sc 2.1 v vi' vi) (hvv : Sc 8.4 (v ^ 2) vv' vv) (hrv : Sc 8.4 (s * v) rv' rv) (hrj : Sc 8.4 (s * |J|) rj' rj)
    (hcr : Sc 6.3 (s * v) cr' cr) (hvj : Sc 6.3 (v * |J|) vj' vj) (hw : Sc 10.6 (2 * (V * R * v)) w' w) :
    |total fl (schw fl (fl (fl.pr 0 (fl (2 * fl (beta + gamma)) * fl (GMe' / s')) - fl.pr 1 (gamma * vv'))) (fl (fl (2 * fl (1 + gamma)) * rv')) r' vi')
        (lens fl s' cr' rj' vj' gamma) (geo fl cube s' R' w' GMe' GMs' gamma) (fl (GMe' / fl (fl (fl (fl (c' * c') * s') * s') * s'))) -
      (((2 * (beta + gamma) * (GMe / s) - gamma * vv) * r + (2 * (1 + gamma) * rv) * vi) + (1 + gamma) * ((3 / s / s * rj) * cr + vj) -
        (1 + 2 * gamma) * (GMs / GMe) * (s ^ 3 / R ^ 3) * w) * (GMe / (c * c * s * s * s)) * 1000| ≤
      130 * u * (1000 * termSize s v R V GMe GMs J c beta gamma) := by
  have hu := u_pos
  -- Schwarzschild
  have bg := ((Sc.exact beta).add (Sc.exact gamma)).fl hf (by norm_num)
  have bg2 := two_sc hf bg (by norm_num) (by norm_num)
  have gs := ((Sc.of_rel hG).div s0.ne' hs (by norm_num) (by norm_num) (by norm_num) (by norm_num)).fl hf (by norm_num)
  have a1 := (bg2.mul gs (by norm_num) (by norm_num) (by norm_num) (by norm_num)).pr hf 0 (by norm_num)
  have a2 := ((Sc.exact gamma).mul hvv (by norm_num) (by norm_num) (by norm_num) (by norm_num)).pr hf 1 (by norm_num)
  have A := ((a1.mono (l := 16) (by norm_num)).sub (a2.mono (l := 16) (by norm_num))).fl hf (by norm_num)
  have og := ((Sc.exact (1 : ℝ)).add (Sc.exact gamma)).fl hf (by norm_num)
  have B := ((two_sc hf og (by norm_num) (by norm_num)).mul hrv (by norm_num) (by norm_num) (by norm_num) (by norm_num)).fl hf (by norm_num)
  have S := (((A.mul hr (by norm_num) (by norm_num) (by norm_num) (by norm_num)).pr hf 2 (by norm_num)).mono (l := 21) (by norm_num)).add
    (((B.mul hvi (by norm_num) (by norm_num) (by norm_num) (by norm_num)).pr hf 3 (by norm_num)).mono (l := 21) (by norm_num)) |>.fl hf (by norm_num)
  -- Lense-Thirring
  have d1 := ((Sc.exact (3 : ℝ)).div s0.ne' hs (by norm_num) (by norm_num) (by norm_num) (by norm_num)).fl hf (by norm_num)
  have d2 := (d1.div s0.ne' hs (by norm_num) (by norm_num) (by norm_num) (by norm_num)).fl hf (by norm_num)
  have d3 := (d2.mul hcr (by norm_num) (by norm_num) (by norm_num) (by norm_num)).fl hf (by norm_num)
  have d4 := (d3.mul hrj (by norm_num) (by norm_num) (by norm_num) (by norm_num)).pr hf 5 (by norm_num)
  have d5 := ((d4.mono (l := 40) (by norm_num)).add (hvj.mono (l := 40) (by norm_num))).fl hf (by norm_num)
  have L := (og.mul d5 (by norm_num) (by norm_num) (by norm_num) (by norm_num)).pr hf 4 (by norm_num)
  -- de Sitter
  have tg := ((Sc.exact (2 : ℝ)).mul (Sc.exact gamma) (by norm_num) (by norm_num) (by norm_num) (by norm_num)).pr hf 7 (by norm_num)
  have og2 := (((Sc.exact (1 : ℝ)).mono (l := 1.002) (by norm_num)).add (tg.mono (l := 1.002) (by norm_num))).fl hf (by norm_num)
  have g1 := (og2.mul hw (by norm_num) (by norm_num) (by norm_num) (by norm_num)).fl hf (by norm_num)
  have gq := ((Sc.of_rel hS).div G0 hG (by norm_num) (by norm_num) (by norm_num) (by norm_num)).fl hf (by norm_num)
  have g2 := (g1.mul gq (by norm_num) (by norm_num) (by norm_num) (by norm_num)).fl hf (by norm_num)
  have cu : ∀ {x' x : ℝ}, Rel 9.5 x' x → Rel 30.6 (cube x') (x ^ 3) := by
    intro x' x h
    have p := (h.mul h (by norm_num) (by norm_num) (by norm_num)).mul h (by norm_num) (by norm_num) (by norm_num)
    rw [show x' * x' * x' = x' ^ 3 by ring, show x * x * x = x ^ 3 by ring] at p
    exact (RoundedPoint.rel_trans (show Rel 2 (cube x') (x' ^ 3) from hc3 x') p (by norm_num) (by norm_num) (by norm_num)).mono (by norm_num)
  have q := ((Sc.of_rel (cu hs)).div (pow_pos R0 3).ne' (cu hR) (by norm_num) (by norm_num) (by norm_num) (by norm_num)).fl hf (by norm_num)
  have Gd := (g2.mul q (by norm_num) (by norm_num) (by norm_num) (by norm_num)).pr hf 6 (by norm_num)
  -- the factor
  have cc := ((Sc.of_rel hc).mul (Sc.of_rel hc) (by norm_num) (by norm_num) (by norm_num) (by norm_num)).fl hf (by norm_num)
  have c1 := (cc.mul (Sc.of_rel hs) (by norm_num) (by norm_num) (by norm_num) (by norm_num)).fl hf (by norm_num)
  have c2 := (c1.mul (Sc.of_rel hs) (by norm_num) (by norm_num) (by norm_num) (by norm_num)).fl hf (by norm_num)
  have c3 := (c2.mul (Sc.of_rel hs) (by norm_num) (by norm_num) (by norm_num) (by norm_num)).fl hf (by norm_num)
  have cne : c * c * s * s * s ≠ 0 := by positivity
  have c4 := c3.2
  rw [← abs_mul, ← abs_mul, ← abs_mul, ← abs_mul] at c4
  have F := ((Sc.of_rel hG).div cne c4 (by norm_num) (by norm_num) (by norm_num) (by norm_num)).fl hf (by norm_num)
  -- the sum
  have t1 := ((S.mono (l := 44) (by norm_num)).add (L.mono (l := 44) (by norm_num))).fl hf (by norm_num)
  have t2 := ((t1.mono (l := 84) (by norm_num)).sub (Gd.mono (l := 84) (by norm_num))).fl hf (by norm_num)
  have t3 := (t2.mul F (by norm_num) (by norm_num) (by norm_num) (by norm_num)).fl hf (by norm_num)
  have t4 := ((t3.mul (Sc.exact (1000 : ℝ)) (by norm_num) (by norm_num) (by norm_num) (by norm_num)).fl hf (by norm_num)).mono (l := 130) (by norm_num)
  have T := t4.2
  have e : (((2 * (beta + gamma) * (GMe / s) - gamma * vv) * r + (2 * (1 + gamma) * rv) * vi) + (1 + gamma) * ((3 / s / s * rj) * cr + vj) -
        (1 + 2 * gamma) * (GMs / GMe) * (s ^ 3 / R ^ 3) * w) * (GMe / (c * c * s * s * s)) * 1000 =
      (((2 * (beta + gamma) * (GMe / s) - gamma * vv) * r + 2 * (1 + gamma) * rv * vi) + (1 + gamma) * (3 / s / s * cr * rj + vj) -
        (1 + 2 * gamma) * w * (GMs / GMe) * (s ^ 3 / R ^ 3)) * (GMe / (c * c * s * s * s)) * 1000 := by ring
  rw [e]
  refine T.trans (le_of_eq ?_)
  congr 1
  have hG0 : |GMe| ≠ 0 := abs_ne_zero.mpr G0
  have hcc : |c * c * s * s * s| = c ^ 2 * s ^ 3 := by
    rw [show c * c * s * s * s = c ^ 2 * s ^ 3 by ring]
    exact abs_of_nonneg (by positivity)
  unfold termSize
  rw [hcc, abs_of_pos s0, abs_of_pos (pow_pos s0 3), abs_of_pos (pow_pos R0 3), abs_one, abs_two, abs_of_pos (by norm_num : (0 : ℝ) < 3),
    abs_of_pos (by norm_num : (0 : ℝ) < 1000)]
  field_simp
  ring

end

end Verif.RoundedRelativity
