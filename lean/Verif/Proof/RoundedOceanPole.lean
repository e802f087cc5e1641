import Verif.Model.RoundedOceanPole
import Verif.Spec.RoundedOceanPole
import Verif.Proof.RoundedTides
import Verif.Proof.RoundedSite
import Verif.Props.OceanPole
/-
Helper lemmas for the ocean pole tide in double precision.
-/
namespace Verif.RoundedOceanPole
open Verif Verif.Rounded Verif.Rounding Verif.RoundedTides
open Verif.PoleTide (Desai Ocean SiteCoeffs kn rad poleX poleY mcoeffs_eq)
open Verif.RoundedSite (Lvlh Close3)

theorem column_ok {fl : Rounded.Arith} {d : Desai} {fr fi : ℝ} {n : Int} {k : Nat} {cs : Coeffs ℝ} (hn : n < 360) (hd : n < d.rows) (hc : n < cs.rows) :
    ∃ cs', column fl d fr fi n k cs = .ok cs' ∧ cs'.rows = cs.rows ∧ cs'.deg = cs.deg ∧ cs'.ord = cs.ord ∧ cs'.re = cs.re ∧ cs'.gm = cs.gm ∧
      ∀ a b, (b = k ∧ k ≤ a ∧ (a : Int) ≤ n → cs'.C a b = element fl 10 a (d.ar a b) (d.ai a b) fr fi ∧ cs'.S a b = element fl 12 a (d.br a b) (d.bi a b) fr fi) ∧
        (¬ (b = k ∧ k ≤ a ∧ (a : Int) ≤ n) → cs'.C a b = cs.C a b ∧ cs'.S a b = cs.S a b) := by
  have key : ∀ (ls : List Nat) (cs : Coeffs ℝ), (∀ l ∈ ls, k ≤ l ∧ (l : Int) ≤ n) → n < cs.rows →
      ∃ cs', forEach ls (fun l cs =>
          if l ≥ 360 ∨ l ≥ d.rows then .ub
          else
            (cs.setC l k (element fl 10 l (d.ar l k) (d.ai l k) fr fi)).bind fun cs =>
            cs.setS l k (element fl 12 l (d.br l k) (d.bi l k) fr fi)) cs = .ok cs' ∧
        cs'.rows = cs.rows ∧ cs'.deg = cs.deg ∧ cs'.ord = cs.ord ∧ cs'.re = cs.re ∧ cs'.gm = cs.gm ∧
        ∀ a b, (b = k ∧ a ∈ ls → cs'.C a b = element fl 10 a (d.ar a b) (d.ai a b) fr fi ∧ cs'.S a b = element fl 12 a (d.br a b) (d.bi a b) fr fi) ∧
          (¬ (b = k ∧ a ∈ ls) → cs'.C a b = cs.C a b ∧ cs'.S a b = cs.S a b) := by
    intro ls
    induction ls with
    | nil =>
      intro cs _ _
      exact ⟨cs, rfl, rfl, rfl, rfl, rfl, rfl, fun a b => ⟨fun h => absurd h.2 (by simp), fun _ => ⟨rfl, rfl⟩⟩⟩
    | cons l ls ih =>
      intro cs hls hrows
      obtain ⟨hl1, hl2⟩ := hls l (by simp)
      have hhas : cs.Has l k := by unfold Coeffs.Has; omega
      let cs1 : Coeffs ℝ := { cs with C := Coeffs.put cs.C l k (element fl 10 l (d.ar l k) (d.ai l k) fr fi),
                                       S := Coeffs.put cs.S l k (element fl 12 l (d.br l k) (d.bi l k) fr fi) }
      obtain ⟨cs', h1, h2, h3, h4, h5, h6, h7⟩ := ih cs1 (fun x hx => hls x (by simp [hx])) hrows
      refine ⟨cs', ?_, h2, h3, h4, h5, h6, fun a b => ⟨?_, ?_⟩⟩
      · unfold forEach
        rw [if_neg (by omega)]
        unfold Coeffs.setC Coeffs.setS
        rw [if_pos hhas]
        simp only [Res.bind, Int.toNat_natCast]
        rw [if_pos (by exact hhas)]
        exact h1
      · rintro ⟨hb, ha⟩
        by_cases hal : a ∈ ls
        · exact (h7 a b).1 ⟨hb, hal⟩
        · have : a = l := by simpa [hal] using ha
          subst this
          obtain ⟨e1, e2⟩ := (h7 a b).2 (fun h => hal h.2)
          rw [e1, e2, hb]
          show Coeffs.put _ _ _ _ _ _ = _ ∧ Coeffs.put _ _ _ _ _ _ = _
          unfold Coeffs.put
          simp
      · intro hab
        obtain ⟨e1, e2⟩ := (h7 a b).2 (fun h => hab ⟨h.1, by simp [h.2]⟩)
        rw [e1, e2]
        show Coeffs.put _ _ _ _ _ _ = _ ∧ Coeffs.put _ _ _ _ _ _ = _
        unfold Coeffs.put
        rw [if_neg (fun h => hab ⟨h.2, by simp [h.1]⟩), if_neg (fun h => hab ⟨h.2, by simp [h.1]⟩)]
        exact ⟨rfl, rfl⟩
  have hmem : ∀ a, a ∈ (List.range (n + 1 - k).toNat).map (k + ·) ↔ k ≤ a ∧ (a : Int) ≤ n := by
    intro a
    simp only [List.mem_map, List.mem_range]
    constructor
    · rintro ⟨b, hb, rfl⟩; omega
    · intro h; exact ⟨a - k, by omega, by omega⟩
  obtain ⟨cs', h1, h2, h3, h4, h5, h6, h7⟩ := key ((List.range (n + 1 - k).toNat).map (k + ·)) cs (fun l hl => (hmem l).mp hl) hc
  refine ⟨cs', h1, h2, h3, h4, h5, h6, fun a b => ?_⟩
  have := h7 a b
  rw [hmem] at this
  exact this

theorem columns_ok {fl : Rounded.Arith} {d : Desai} {fr fi : ℝ} {n : Int} (hn : n < 360) (hd : n < d.rows) : ∀ (ks : List Nat) (cs : Coeffs ℝ), n < cs.rows →
    ∃ cs', forEach ks (column fl d fr fi n) cs = .ok cs' ∧ cs'.rows = cs.rows ∧ cs'.deg = cs.deg ∧ cs'.ord = cs.ord ∧ cs'.re = cs.re ∧
      cs'.gm = cs.gm ∧
      ∀ a b, (b ∈ ks ∧ b ≤ a ∧ (a : Int) ≤ n → cs'.C a b = element fl 10 a (d.ar a b) (d.ai a b) fr fi ∧ cs'.S a b = element fl 12 a (d.br a b) (d.bi a b) fr fi) ∧
        (¬ (b ∈ ks ∧ b ≤ a ∧ (a : Int) ≤ n) → cs'.C a b = cs.C a b ∧ cs'.S a b = cs.S a b) := by
  intro ks
  induction ks with
  | nil =>
    intro cs _
    exact ⟨cs, rfl, rfl, rfl, rfl, rfl, rfl, fun a b => ⟨fun h => absurd h.1 (by simp), fun _ => ⟨rfl, rfl⟩⟩⟩
  | cons k ks ih =>
    intro cs hc
    obtain ⟨c1, g1, g2, g3, g4, g5, g6, g7⟩ := column_ok (fl := fl) (d := d) (fr := fr) (fi := fi) (k := k) hn hd hc
    obtain ⟨c2, h1, h2, h3, h4, h5, h6, h7⟩ := ih c1 (by rw [g2]; exact hc)
    refine ⟨c2, ?_, h2.trans g2, h3.trans g3, h4.trans g4, h5.trans g5, h6.trans g6, fun a b => ⟨?_, ?_⟩⟩
    · unfold forEach
      rw [g1]
      exact h1
    · rintro ⟨hb, hab, han⟩
      by_cases hbk : b ∈ ks
      · exact (h7 a b).1 ⟨hbk, hab, han⟩
      · have : b = k := by simpa [hbk] using hb
        obtain ⟨e1, e2⟩ := (h7 a b).2 (fun h => hbk h.1)
        rw [e1, e2]
        exact (g7 a b).1 ⟨this, by omega, han⟩
    · intro hab
      obtain ⟨e1, e2⟩ := (h7 a b).2 (fun h => hab ⟨by simp [h.1], h.2⟩)
      rw [e1, e2]
      exact (g7 a b).2 (fun h => hab ⟨by simp [h.1], by omega, h.2.2⟩)

section
variable {fl : Rounded.Arith} (hf : Faithful fl)
include hf

/-- The deviation of the pole in radians. -/
theorem pole_sc {s2r : ℝ → ℝ} (hs : SecToRad s2r) {dt' dt xp yp : ℝ} (hd : |dt' - dt| ≤ 4 * u * 100) (hr : |dt| ≤ 100) (hx : |xp| ≤ 1) (hy : |yp| ≤ 1) :
    Sc 10.2 6.303e-6 (s2r (mcoeffs fl dt' xp yp).1) (rad (xp - poleX dt)) ∧ Sc 10.2 8.243e-6 (s2r (mcoeffs fl dt' xp yp).2) (rad (-(yp - poleY dt))) := by
  have hu := u_pos
  have hul := u_lt
  have hp := Real.pi_pos
  have hp2 : Real.pi < 3.1416 := Real.pi_lt_d4
  obtain ⟨h1, h2⟩ := mcoeffs_sc hf hd hr hx hy
  rw [mcoeffs_eq] at h1 h2
  have c : 2 * Real.pi / 1296000 ≤ 4.8482e-6 := by linarith
  have key : ∀ {k M x' x : ℝ}, k ≤ 6.1 → Sc k M x' x → Sc 10.2 (M * 4.8482e-6) (s2r x') (rad x) := by
    intro k M x' x hk h
    have h := h.mono hk
    have w : Sc 0 4.8482e-6 (2 * Real.pi / 1296000) (2 * Real.pi / 1296000) := (Sc.exact _).le (by norm_num) (by rw [abs_of_pos (by positivity)]; exact c)
    have g := h.mul w (by norm_num) (by norm_num) (by norm_num) (by norm_num)
    have e : x * (2 * Real.pi / 1296000) = rad x := by unfold rad; ring
    rw [e] at g
    refine ⟨g.1, ?_⟩
    have q := hs x'
    have t := abs_add_le (s2r x' - x' * (2 * Real.pi / 1296000)) (x' * (2 * Real.pi / 1296000) - rad x)
    rw [sub_add_sub_cancel] at t
    have b : |x' * (2 * Real.pi / 1296000)| ≤ M * 4.8482e-6 * 1.0001 := by
      have := abs_add_le (x' * (2 * Real.pi / 1296000) - rad x) (rad x)
      rw [sub_add_cancel] at this
      have h3 := g.1
      have h4 := g.2
      have M0 := g.nonneg
      generalize M * 4.8482e-6 = N at *
      have := mul_le_mul_of_nonneg_right hul.le M0
      linarith
    have h4 := g.2
    have M0 := g.nonneg
    generalize M * 4.8482e-6 = N at *
    have q2 := q.trans (mul_le_mul_of_nonneg_left b (by positivity : 0 ≤ 4 * u))
    have : 0 ≤ u * N := mul_nonneg hu.le M0
    nlinarith
  refine ⟨(key (by norm_num) h1).abs_le 10.2, ?_⟩
  rw [neg_sub]
  exact (key (by norm_num) h2).abs_le 10.2

theorem freal_sc (i : ℕ) {m1' m1 m2' m2 : ℝ} (h1 : Sc 10.2 6.303e-6 m1' m1) (h2 : Sc 10.2 8.243e-6 m2' m2) :
    Sc 13.3 5.7e-6 (freal fl i m1' m2') (m1 * 0.6870 + m2 * 0.0036) := by
  have a := Sc.mulp hf i h1 (Sc.lit hf (c := 0.6870) 0.6870 (by norm_num [abs_of_pos]))
  have b := Sc.mulp hf (i + 1) h2 (Sc.lit hf (c := 0.0036) 0.0036 (by norm_num [abs_of_pos]))
  exact (Sc.addf hf 12.21 a b).abs_le 13.3

theorem fimag_sc (i : ℕ) {m1' m1 m2' m2 : ℝ} (h1 : Sc 10.2 6.303e-6 m1' m1) (h2 : Sc 10.2 8.243e-6 m2' m2) :
    Sc 13.3 5.7e-6 (fimag fl i m1' m2') (m2 * 0.6870 - m1 * 0.0036) := by
  have a := Sc.mulp hf i h2 (Sc.lit hf (c := 0.6870) 0.6870 (by norm_num [abs_of_pos]))
  have b := Sc.mulp hf (i + 1) h1 (Sc.lit hf (c := 0.0036) 0.0036 (by norm_num [abs_of_pos]))
  exact (Sc.subf hf 12.21 a b).abs_le 13.3

omit hf in
theorem kn_range {l : ℕ} (h : l < 361) : -1 ≤ kn l ∧ kn l ≤ 0 := by
  have key : ∀ l < 361, -1000000000000 ≤ PoleTide.knTable.getD l 0 ∧ PoleTide.knTable.getD l 0 ≤ 0 := by decide +kernel
  obtain ⟨h1, h2⟩ := key l h
  have h1 : (-1000000000000 : ℝ) ≤ (PoleTide.knTable.getD l 0 : ℝ) := by exact_mod_cast h1
  have h2 : (PoleTide.knTable.getD l 0 : ℝ) ≤ 0 := by exact_mod_cast h2
  unfold kn
  constructor <;> linarith

theorem knfac_sc {l : ℕ} (h : l < 360) : Sc 3.1 (1 / (2 * l + 1)) (knfac fl l) ((1 + kn l) / (2 * l + 1)) := by
  have hu := u_pos
  have hul := u_lt
  obtain ⟨k1, k2⟩ := kn_range (by omega : l < 361)
  have a : Sc 1 1 (1 + lit fl (kn l)) (1 + kn l) := by
    have := Sc.lit hf (c := kn l) 1 (abs_le.mpr ⟨k1, by linarith⟩)
    refine ⟨abs_le.mpr ⟨by linarith, by linarith⟩, ?_⟩
    rw [add_sub_add_left_eq_sub]
    exact this.2
  have p : (0 : ℝ) < 2 * l + 1 := by positivity
  have d := ((a.fl hf (by norm_num)).div (y := 2 * l + 1) (y' := 2 * l + 1) (l := 0) p.ne' (by simp) (by norm_num) (by norm_num) (by norm_num) (by norm_num)).fl hf (by norm_num)
  rw [abs_of_pos p] at d
  exact d.mono (by norm_num)

theorem element_sc (i : ℕ) {l : ℕ} (h : l < 360) (x y : ℝ) {fr' fr fi' fi : ℝ} (h1 : Sc 13.3 5.7e-6 fr' fr) (h2 : Sc 13.3 5.7e-6 fi' fi) :
    Sc 19.5 (1 / (2 * l + 1) * (|x| * 5.7e-6 + |y| * 5.7e-6)) (element fl i l x y fr' fi') ((1 + kn l) / (2 * l + 1) * (x * fr + y * fi)) := by
  have a := Sc.mulp hf i (Sc.exact x) h1
  have b := Sc.mulp hf (i + 1) (Sc.exact y) h2
  exact (Sc.mulf hf (knfac_sc hf h) (Sc.addf hf 14.31 a b)).mono (by norm_num)

theorem d2pi_rel : Rel 1 (D2PI fl) (2 * Real.pi) := by
  have := Rel.one hf.toRounds (2 * Real.pi)
  exact this

theorem fac_rel {quart : ℝ → ℝ} (hq : Quart quart) (Om re : ℝ) {gm : ℝ} (G : ℝ) {ge : ℝ} (hg : gm ≠ 0) (he : ge ≠ 0) :
    Rel 11.5 (facOf fl quart Om re gm G ge) (loadOf Om re gm G ge) := by
  have R := hf.toRounds
  have a := Rel.one R (Om * Om)
  have q : Rel 2 (quart re) (re ^ 4) := hq re
  have b := (a.mul q (by norm_num) (by norm_num) (by norm_num)).fl R (by norm_num)
  have c := (b.div (Rel.refl gm) (by norm_num) (by norm_num) (by norm_num) (by norm_num) hg).fl R (by norm_num)
  have d := ((Rel.refl (2 : ℝ)).mul (d2pi_rel hf) (by norm_num) (by norm_num) (by norm_num)).fl R (by norm_num)
  have e := (d.mul (Rel.refl G) (by norm_num) (by norm_num) (by norm_num)).fl R (by norm_num)
  have f := (e.mul (Rel.refl (1025 : ℝ)) (by norm_num) (by norm_num) (by norm_num)).fl R (by norm_num)
  have g := (c.mul f (by norm_num) (by norm_num) (by norm_num)).fl R (by norm_num)
  have h := (g.div (Rel.refl ge) (by norm_num) (by norm_num) (by norm_num) (by norm_num) he).fl R (by norm_num)
  have E : Om * Om * re ^ 4 / gm * (2 * (2 * Real.pi) * G * 1025) / ge = loadOf Om re gm G ge := by unfold loadOf; ring
  rw [E] at h
  exact h.mono (by norm_num)

theorem load_rel {quart : ℝ → ℝ} (hq : Quart quart) (Re Om : ℝ) {GM : ℝ} (G : ℝ) {ge : ℝ} (hg : GM ≠ 0) (he : ge ≠ 0) :
    Rel 19 (loadFactor fl quart Re GM Om G ge) (siteFactor Om Re GM G ge) := by
  have R := hf.toRounds
  have hp := Real.pi_pos
  have s1 := ((Rel.refl (4 : ℝ)).mul (d2pi_rel hf) (by norm_num) (by norm_num) (by norm_num)).fl R (by norm_num)
  have s2 := (s1.div (Rel.refl (15 : ℝ)) (by norm_num) (by norm_num) (by norm_num) (by norm_num) (by norm_num)).fl R (by norm_num)
  have p0 : 0 ≤ 4 * (2 * Real.pi) / 15 := by positivity
  have s3 := (s2.sqrt p0 (s2.nonneg (by norm_num) p0)).fl R (by norm_num)
  have a := (s3.mul (Rel.one R (Om * Om)) (by norm_num) (by norm_num) (by norm_num)).fl R (by norm_num)
  have q : Rel 2 (quart Re) (Re ^ 4) := hq Re
  have b := (a.mul q (by norm_num) (by norm_num) (by norm_num)).fl R (by norm_num)
  have H := (b.div (Rel.refl GM) (by norm_num) (by norm_num) (by norm_num) (by norm_num) hg).fl R (by norm_num)
  have d := ((Rel.refl (2 : ℝ)).mul (d2pi_rel hf) (by norm_num) (by norm_num) (by norm_num)).fl R (by norm_num)
  have e := (d.mul (Rel.refl G) (by norm_num) (by norm_num) (by norm_num)).fl R (by norm_num)
  have e2 := (e.mul (Rel.refl Re) (by norm_num) (by norm_num) (by norm_num)).fl R (by norm_num)
  have f := (e2.mul (Rel.refl (1025 : ℝ)) (by norm_num) (by norm_num) (by norm_num)).fl R (by norm_num)
  have g := (f.mul H (by norm_num) (by norm_num) (by norm_num)).fl R (by norm_num)
  have g3 := (g.div (Rel.refl (3 : ℝ)) (by norm_num) (by norm_num) (by norm_num) (by norm_num) (by norm_num)).fl R (by norm_num)
  have h := (g3.div (Rel.refl ge) (by norm_num) (by norm_num) (by norm_num) (by norm_num) he).fl R (by norm_num)
  have E : 2 * (2 * Real.pi) * G * Re * 1025 * (Real.sqrt (4 * (2 * Real.pi) / 15) * (Om * Om) * Re ^ 4 / GM) / 3 / ge = siteFactor Om Re GM G ge := by
    unfold siteFactor
    rw [show 4 * (2 * Real.pi) / 15 = 8 * Real.pi / 15 from by ring, div_div]
    ring
  rw [E] at h
  exact h.mono (by norm_num)

theorem component_sc (i : ℕ) (x y : ℝ) {m1' m1 m2' m2 : ℝ} (h1 : Sc 10.2 6.303e-6 m1' m1) (h2 : Sc 10.2 8.243e-6 m2' m2) :
    Sc 15.4 (5.7e-6 * |x| + 5.7e-6 * |y|) (component fl i m1' m2' x y) ((m1 * 0.6870 + m2 * 0.0036) * x + (m2 * 0.6870 - m1 * 0.0036) * y) := by
  have a := Sc.mulp hf i (freal_sc hf (i + 1) h1 h2) (Sc.exact x)
  have b := Sc.mulp hf (i + 3) (fimag_sc hf (i + 4) h1 h2) (Sc.exact y)
  exact (Sc.addf hf 14.31 a b).mono (by norm_num)

/-- A row of the matrix times the vector. -/
theorem row_sc {dot : V3 → V3 → ℝ} (hD : DotProduct dot) {a' a b' b : V3} {X Y Z : ℝ} (ax : Sc 4 1 a'.x a.x) (ay : Sc 4 1 a'.y a.y) (az : Sc 4 1 a'.z a.z)
    (bx : Sc 15.4 X b'.x b.x) (bY : Sc 15.4 Y b'.y b.y) (bz : Sc 15.4 Z b'.z b.z) :
    Sc 23.5 (X + Y + Z) (dot a' b') (a.x * b.x + a.y * b.y + a.z * b.z) := by
  have hu := u_pos
  have hul := u_lt
  have p := ax.mul bx (by norm_num) (by norm_num) (by norm_num) (by norm_num)
  have q := ay.mul bY (by norm_num) (by norm_num) (by norm_num) (by norm_num)
  have r := az.mul bz (by norm_num) (by norm_num) (by norm_num) (by norm_num)
  rw [one_mul] at p q r
  have s := (p.add q).add r
  refine ⟨s.1, ?_⟩
  have t := abs_add_le (dot a' b' - (a'.x * b'.x + a'.y * b'.y + a'.z * b'.z)) ((a'.x * b'.x + a'.y * b'.y + a'.z * b'.z) - (a.x * b.x + a.y * b.y + a.z * b.z))
  rw [sub_add_sub_cancel] at t
  have d := hD a' b'
  have size : ∀ {k N x' x : ℝ}, k ≤ 20 → Sc k N x' x → |x'| ≤ 1.0001 * N := by
    intro k N x' x hk h
    have := abs_add_le (x' - x) x
    rw [sub_add_cancel] at this
    have h1 := h.1
    have h2 := (h.mono hk).2
    have := mul_le_mul_of_nonneg_right hul.le h.nonneg
    have := h.nonneg
    linarith
  have k1 := size (by norm_num) p
  have k2 := size (by norm_num) q
  have k3 := size (by norm_num) r
  have n0 := s.nonneg
  have d2 := d.trans (mul_le_mul_of_nonneg_left (by linarith : |a'.x * b'.x| + |a'.y * b'.y| + |a'.z * b'.z| ≤ 1.0001 * (X + Y + Z)) (by positivity : 0 ≤ 4 * u))
  have h4 := s.2
  have : 0 ≤ u * (X + Y + Z) := mul_nonneg hu.le n0
  nlinarith

end

end Verif.RoundedOceanPole
