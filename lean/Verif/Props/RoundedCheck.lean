import Verif.Props.RoundedRaw
import Verif.Spec.RoundedCheck
/-
C124: what the check of a reference orbit answers, in double precision.
-/
namespace Verif.RoundedOptions
open Verif Verif.Eop Verif.EopTides Verif.Rounding Verif.Rounded Verif.Fundarg Verif.Iau Verif.RoundedState
open Verif.RoundedOrient (Clock Observed Modest Between reference ut1Days oriented delaunay noon midnight twoDays exactClock)
open Verif.RoundedEop (DayDifference)
open Verif.EarthRot (poleX poleY locator tioLocator arcsec EopRec earthRate)

/-- C124: a point has one celestial position and velocity at an epoch. -/
theorem truth_unique {dat : ℝ → ℝ} {s : Series ℝ} {tt : Epoch} {old : Rec ℝ} {r v : V3} {S S' : V3 × V3} (h : Truth dat s tt old r v S)
    (h' : Truth dat s tt old r v S') : S = S' := by
  obtain ⟨st, e, s1, d, s2, M, h1, h2, ⟨a, b, k1, k2, k3, k4, k5⟩, h4, h5⟩ := h
  obtain ⟨st', e', s1', d', s2', M', h1', h2', ⟨a', b', k1', k2', k3', k4', k5'⟩, h4', h5'⟩ := h'
  have q := h1.symm.trans h1'
  simp only [Res.ok.injEq, Prod.mk.injEq] at q
  obtain ⟨rfl, rfl, rfl⟩ := q
  have q := h2.symm.trans h2'
  simp only [Res.ok.injEq, Prod.mk.injEq] at q
  obtain ⟨-, rfl, rfl⟩ := q
  have hM : M = M' := by
    funext x
    rw [k5, k5', celestial_det (k1.trans k1'.symm) (k2.trans k2'.symm) k3 k4 k3' k4']
  subst hM
  exact Prod.ext (h4.trans h4'.symm) (moves_unique h5 h5')

section
variable {fl : Arith} (hf : Faithful fl)
include hf

theorem near_of_closer {tol ε δ : ℝ} (ht : 0 < tol) (hε : 3e-16 * tol ≤ ε) {a b c : V3} (h : Close3 δ a c) (k : Closer (tol - (δ + ε)) c b) : near fl tol a b := by
  have hu := u_pos
  have hul := u_lt
  have l : tol * (1 - u) ≤ lit fl tol := by
    unfold lit
    rw [if_neg (not_lt.mpr ht.le)]
    have := abs_le.mp (hf.rel tol)
    rw [abs_of_pos ht] at this
    linarith
  have key : ∀ {x y z : ℝ}, |x - z| ≤ δ → |z - y| < tol - (δ + ε) → |fl (x - y)| < lit fl tol := by
    intro x y z h1 h2
    have h3 := abs_sub_le x z y
    have h4 := abs_le.mp (hf.rel (x - y))
    have h5 : |fl (x - y)| ≤ |x - y| + u * |x - y| := by
      have := abs_sub_abs_le_abs_sub (fl (x - y)) (x - y)
      have := hf.rel (x - y)
      linarith
    have h6 : |x - y| ≤ tol - ε := by linarith
    have h7 : u * |x - y| ≤ 1.2e-16 * tol := mul_le_mul hul.le (by linarith [mul_pos (by norm_num : (0:ℝ) < 3e-16) ht]) (abs_nonneg _) (by norm_num)
    have h8 := mul_le_mul_of_nonneg_left hul.le ht.le
    nlinarith
  exact ⟨key h.1 k.1, key h.2.1 k.2.1, key h.2.2 k.2.2⟩

theorem closer_of_near {tol ε δ : ℝ} (ht : 0 < tol) (hε : 3e-16 * tol ≤ ε) {a b c : V3} (h : Close3 δ a c) (k : near fl tol a b) : Closer (tol + (δ + ε)) c b := by
  have hu := u_pos
  have hul := u_lt
  have l : lit fl tol ≤ tol * (1 + u) := by
    unfold lit
    rw [if_neg (not_lt.mpr ht.le)]
    have := abs_le.mp (hf.rel tol)
    rw [abs_of_pos ht] at this
    linarith
  have key : ∀ {x y z : ℝ}, |x - z| ≤ δ → |fl (x - y)| < lit fl tol → |z - y| < tol + (δ + ε) := by
    intro x y z h1 h2
    have h3 := abs_sub_le z x y
    rw [abs_sub_comm z x] at h3
    have h5 : |x - y| - u * |x - y| ≤ |fl (x - y)| := by
      have := abs_sub_abs_le_abs_sub (x - y) (fl (x - y))
      have e := hf.rel (x - y)
      rw [abs_sub_comm] at e
      linarith
    have h8 := mul_le_mul_of_nonneg_left hul.le ht.le
    have h9 : (1 - u) * |x - y| < tol * (1 + u) := by linarith
    have h10 : |x - y| < tol + ε := by
      by_contra hc
      push Not at hc
      have := mul_le_mul_of_nonneg_left hc (by linarith : (0:ℝ) ≤ 1 - u)
      nlinarith
    linarith
  exact ⟨key h.1 k.1, key h.2.1 k.2.1, key h.2.2 k.2.2⟩

/-- The assertions of a row, between the two margins. -/
theorem accepts_iff {dat : ℝ → ℝ} {s : Series ℝ} {x : Ref} {o : Out} (h : Good dat s x.row o) :
    ∃ S, Truth dat s x.row.tt x.row.old x.row.ri x.row.vi S ∧ (Agrees (-1) x S → accepts fl o x) ∧ (accepts fl o x → Agrees 1 x S) := by
  obtain ⟨⟨S, t, c1, c2, c3, c4, c5, c6⟩, -⟩ := h
  have R0 := size_nonneg x.row.ri
  have V0 := size_nonneg x.row.vi
  refine ⟨S, t, fun ⟨a, b⟩ => ?_, fun ⟨a1, a2, a3, a4, a5, a6⟩ => ?_⟩
  · have P : ∀ {p : V3}, Close3 (4.3e-12 * size x.row.ri) p S.1 → near fl 9e-2 p x.rc := fun hp =>
      near_of_closer hf (by norm_num) (ε := 1e-16) (by norm_num) hp (by rw [sub_eq_add_neg, ← neg_one_mul]; exact a)
    have V : ∀ {p : V3}, Close3 (4.3e-12 * size x.row.vi + 1.3e-15 * size x.row.ri) p S.2 → near fl 9e-5 p x.vc := fun hp =>
      near_of_closer hf (by norm_num) (ε := 1e-19) (by norm_num) hp (by rw [sub_eq_add_neg, ← neg_one_mul]; exact b)
    exact ⟨P (Close3.mono c1 (by linarith)), P (Close3.mono c2 (by linarith)), P c3, V c5, P (Close3.mono c4 (by linarith)), V (Close3.mono c6 (by linarith))⟩
  · have p := closer_of_near hf (by norm_num) (ε := 1e-16) (by norm_num) c3 a3
    have v := closer_of_near hf (by norm_num) (ε := 1e-19) (by norm_num) c5 a4
    unfold Agrees
    rw [one_mul, one_mul]
    exact ⟨p, v⟩

end

section
variable {fl : Arith} {fsin fcos fatan s2r cents : ℝ → ℝ} {fatan2 : ℝ → ℝ → ℝ} {qmul : Quat → Quat → Quat} {mmul : M3 → M3 → M3} {rot : Quat → V3 → V3}
  {mv : M3 → V3 → V3} {dd : ℝ → ℝ → ℝ} {ck : Clock}

open Classical in
/-- C124: the check of a reference orbit in double precision. The rows before the first whose epoch is out of bounds have celestial positions and velocities `Ss`. If
the reference values agree with these to the narrowed tolerances, the program returns 0, or 1 if an epoch is out of bounds; if it returns anything, they agree to the
widened tolerances and the returned value says whether all epochs are inside; otherwise an assertion has failed. -/
theorem check_rows (hf : Faithful fl) (hT : Trig fsin fcos) (hI : InverseTrig fatan fatan2) (hs : SecToRad s2r) (hq : QuatMul qmul) (hmm : MatMul mmul)
    (hrot : Turns rot) (hmv : MatVec mv)
    (hdd : DayDifference dd) (dat : ℝ → ℝ) (hdat : ∀ t, |dat t| ≤ 100) (hck : ck.Accurate dat) {s : Series ℝ} {t0 : ℝ} (h : Read cents s t0) (hne : s.vec ≠ [])
    (rows : List Ref) (hr : ∀ x ∈ rows, |x.row.tt.jcenturies| ≤ 0.999) :
    ∃ Ss, List.Forall₂ (fun x S => Truth dat (smooth s) x.row.tt x.row.old x.row.ri x.row.vi S) (rows.takeWhile fun x => Between s x.row.tt) Ss ∧
      (List.Forall₂ (Agrees (-1)) (rows.takeWhile fun x => Between s x.row.tt) Ss →
        checkRows fl fsin fcos fatan s2r fatan2 qmul mmul rot mv dd ck cents dat s rows = .ok (if ∀ x ∈ rows, Between s x.row.tt then 0 else 1)) ∧
      ((∃ c, checkRows fl fsin fcos fatan s2r fatan2 qmul mmul rot mv dd ck cents dat s rows = .ok c ∧
          c = (if ∀ x ∈ rows, Between s x.row.tt then 0 else 1) ∧ List.Forall₂ (Agrees 1) (rows.takeWhile fun x => Between s x.row.tt) Ss) ∨
        checkRows fl fsin fcos fatan s2r fatan2 qmul mmul rot mv dd ck cents dat s rows = .abort) := by
  have key : ∀ (rows : List Ref) (l : Option ℕ), (∀ x ∈ rows, |x.row.tt.jcenturies| ≤ 0.999) → Read cents { s with last := l } t0 →
      ∃ Ss, List.Forall₂ (fun x S => Truth dat (smooth s) x.row.tt x.row.old x.row.ri x.row.vi S) (rows.takeWhile fun x => Between s x.row.tt) Ss ∧
      (List.Forall₂ (Agrees (-1)) (rows.takeWhile fun x => Between s x.row.tt) Ss →
        checkRows fl fsin fcos fatan s2r fatan2 qmul mmul rot mv dd ck cents dat { s with last := l } rows = .ok (if ∀ x ∈ rows, Between s x.row.tt then 0 else 1)) ∧
      ((∃ c, checkRows fl fsin fcos fatan s2r fatan2 qmul mmul rot mv dd ck cents dat { s with last := l } rows = .ok c ∧
          c = (if ∀ x ∈ rows, Between s x.row.tt then 0 else 1) ∧ List.Forall₂ (Agrees 1) (rows.takeWhile fun x => Between s x.row.tt) Ss) ∨
        checkRows fl fsin fcos fatan s2r fatan2 qmul mmul rot mv dd ck cents dat { s with last := l } rows = .abort) := by
    intro rows
    induction rows with
    | nil => intro l _ _; exact ⟨[], .nil, fun _ => by simp [checkRows, checkLoop], Or.inl ⟨0, rfl, by simp, .nil⟩⟩
    | cons x rest ih =>
      intro l hr h1
      by_cases hb : Between s x.row.tt
      · obtain ⟨m, o, k1, k2, k3⟩ := raw_inside hf hT hI hs hq hmm hrot hmv hdd dat hck h1 x.row (hr _ List.mem_cons_self) (hdat _) hb
        obtain ⟨S, t1, t2, t3⟩ := accepts_iff hf (k3.cache h.smooth.1 h1.smooth.1 rfl)
        obtain ⟨Ss, g1, g2, g3⟩ := ih m (fun y hy => hr y (List.mem_cons_of_mem _ hy)) k2
        have step : checkRows fl fsin fcos fatan s2r fatan2 qmul mmul rot mv dd ck cents dat { s with last := l } (x :: rest) =
            if accepts fl o x then checkRows fl fsin fcos fatan s2r fatan2 qmul mmul rot mv dd ck cents dat { s with last := m } rest else .abort := by
          unfold checkRows
          rw [checkLoop, k1]
          rfl
        have hall : (∀ y ∈ x :: rest, Between s y.row.tt) ↔ ∀ y ∈ rest, Between s y.row.tt := by simp [hb]
        rw [List.takeWhile_cons_of_pos (by simpa using hb), step]
        simp only [hall]
        refine ⟨S :: Ss, .cons t1 g1, fun ha => ?_, ?_⟩
        · cases ha with
          | cons ha hb => rw [if_pos (t2 ha), g2 hb]
        · by_cases ha : accepts fl o x
          · rw [if_pos ha]
            rcases g3 with ⟨c, g3, g4, g5⟩ | g3
            · exact Or.inl ⟨c, g3, g4, .cons (t3 ha) g5⟩
            · exact Or.inr g3
          · rw [if_neg ha]
            exact Or.inr rfl
      · have hp := h1.plain (fl := fl) hf hT hs
        have hn : (mapped (plain fl fsin fcos s2r cents) { s with last := l }).vec ≠ [] := by simpa [mapped] using hne
        obtain ⟨st, e, s2, g1, g2, g3⟩ := eop_status_outside dat hp.sorted hp.cache hn ((x.row.tt.mjd : ℝ) + x.row.tt.f) x.row.old 5 (by norm_num) (by norm_num)
        have hout : st = .prior ∨ st = .later := by
          by_contra hc
          push Not at hc
          exact hb ((between_mapped (g := plain fl fsin fcos s2r cents) (fun _ => rfl) { s with last := l } x.row.tt).mp
            (hp.between (by norm_num) (by norm_num) g1 hc))
        have k1 := options_outside (fsin := fsin) (fcos := fcos) (fatan := fatan) (s2r := s2r) (fatan2 := fatan2) (qmul := qmul) (mmul := mmul) (rot := rot)
          (mv := mv) (ck := ck) hf hdd dat hp x.row.tt (hdat _) x.row.old x.row.ri x.row.vi g1 hout
        have step : checkRows fl fsin fcos fatan s2r fatan2 qmul mmul rot mv dd ck cents dat { s with last := l } (x :: rest) = .ok 1 := by
          unfold checkRows
          rw [checkLoop, regularize_mapped, k1]
          rfl
        have hall : ¬ ∀ y ∈ x :: rest, Between s y.row.tt := fun h => hb (h x List.mem_cons_self)
        rw [List.takeWhile_cons_of_neg (by simpa using hb), step, if_neg hall]
        exact ⟨[], .nil, fun _ => rfl, Or.inl ⟨1, rfl, rfl, .nil⟩⟩
  exact key rows s.last hr h

theorem takeWhile_all {α : Type} {p : α → Bool} : ∀ {l : List α}, (∀ x ∈ l, p x = true) → l.takeWhile p = l
  | [], _ => rfl
  | a :: l, h => by rw [List.takeWhile_cons_of_pos (h a List.mem_cons_self), takeWhile_all fun x hx => h x (List.mem_cons_of_mem _ hx)]

/-- C124: an orbit whose epochs are all inside and whose every row agrees with the Conventions to the narrowed tolerances is accepted. -/
theorem check_accepts (hf : Faithful fl) (hT : Trig fsin fcos) (hI : InverseTrig fatan fatan2) (hs : SecToRad s2r) (hq : QuatMul qmul) (hmm : MatMul mmul)
    (hrot : Turns rot) (hmv : MatVec mv)
    (hdd : DayDifference dd) (dat : ℝ → ℝ) (hdat : ∀ t, |dat t| ≤ 100) (hck : ck.Accurate dat) {s : Series ℝ} {t0 : ℝ} (h : Read cents s t0) (hne : s.vec ≠ [])
    (rows : List Ref) (hr : ∀ x ∈ rows, |x.row.tt.jcenturies| ≤ 0.999) (hb : ∀ x ∈ rows, Between s x.row.tt)
    (ha : ∀ x ∈ rows, ∀ S, Truth dat (smooth s) x.row.tt x.row.old x.row.ri x.row.vi S → Agrees (-1) x S) :
    checkRows fl fsin fcos fatan s2r fatan2 qmul mmul rot mv dd ck cents dat s rows = .ok 0 := by
  classical
  obtain ⟨Ss, h1, h2, -⟩ := check_rows hf hT hI hs hq hmm hrot hmv hdd dat hdat hck h hne rows hr
  rw [takeWhile_all (by simpa using hb)] at h1 h2
  rw [if_pos hb] at h2
  refine h2 ?_
  clear h2 hr hb
  induction h1 with
  | nil => exact .nil
  | cons t _ ih => exact .cons (ha _ List.mem_cons_self _ t) (ih fun y hy => ha y (List.mem_cons_of_mem _ hy))

/-- C124: an orbit whose epochs are all inside, with a row that does not agree with the Conventions even to the widened tolerances, is rejected, wherever the row is. -/
theorem check_rejects (hf : Faithful fl) (hT : Trig fsin fcos) (hI : InverseTrig fatan fatan2) (hs : SecToRad s2r) (hq : QuatMul qmul) (hmm : MatMul mmul)
    (hrot : Turns rot) (hmv : MatVec mv)
    (hdd : DayDifference dd) (dat : ℝ → ℝ) (hdat : ∀ t, |dat t| ≤ 100) (hck : ck.Accurate dat) {s : Series ℝ} {t0 : ℝ} (h : Read cents s t0) (hne : s.vec ≠ [])
    (rows : List Ref) (hr : ∀ x ∈ rows, |x.row.tt.jcenturies| ≤ 0.999) (hb : ∀ x ∈ rows, Between s x.row.tt)
    {x : Ref} (hx : x ∈ rows) {S : V3 × V3} (hS : Truth dat (smooth s) x.row.tt x.row.old x.row.ri x.row.vi S) (hn : ¬ Agrees 1 x S) :
    checkRows fl fsin fcos fatan s2r fatan2 qmul mmul rot mv dd ck cents dat s rows = .abort := by
  classical
  obtain ⟨Ss, h1, -, h3⟩ := check_rows hf hT hI hs hq hmm hrot hmv hdd dat hdat hck h hne rows hr
  rw [takeWhile_all (by simpa using hb)] at h1 h3
  rcases h3 with ⟨c, -, -, h4⟩ | h3
  · exfalso
    clear hr hb
    induction h1 with
    | nil => cases hx
    | cons t _ ih =>
      cases h4 with
      | cons a b =>
        rcases List.mem_cons.mp hx with rfl | hx
        · rw [truth_unique hS t] at hn
          exact hn a
        · exact ih hx b
  · exact h3

end

open Classical in
/-- The hypotheses can be met: a satellite 7000 km from the centre of the Earth, at noon between two daily records. There is a celestial position and velocity with
which the orbit of that row, twice, is accepted, and with which an orbit is rejected whose second row is 10 cm off. -/
example (b : ℕ → Bool) : let fl := rnArith b
    let row : Row := ⟨noon, ⟨7e6, 0, 0⟩, ⟨0, 7.5e3, 0⟩, RoundedEop.sample 0⟩
    let check := checkRows fl Real.sin Real.cos Real.arctan (fun x => x * (2 * Real.pi / 1296000)) (fun y x => Complex.arg ⟨x, y⟩) (RoundedGcrs.product fl)
      (RoundedGcrs.matProduct fl) (transformVector fl) (mulVec fl) (fun x y => fl (x - y)) (exactClock fun _ => 37) (fun t => (t - 51544.5) / 36525) (fun _ => 37)
      twoDays
    ∃ S : V3 × V3, check [⟨row, S.1, S.2⟩, ⟨row, S.1, S.2⟩] = .ok 0 ∧ check [⟨row, S.1, S.2⟩, ⟨row, ⟨S.1.x + 0.1, S.1.y, S.1.z⟩, S.2⟩] = .abort := by
  intro fl row check
  have hu := u_pos
  have hj : noon.jcenturies = 4540 / 36525 := by
    show (((56084 : ℤ) : ℝ) + 0.5 - 51544.5) / 36525 = _; norm_num
  have ht : ((noon.mjd : ℤ) : ℝ) + noon.f = 56084.5 := by show ((56084 : ℤ) : ℝ) + 0.5 = _; norm_num
  have b1 : Between twoDays noon := by
    unfold Between
    rw [ht]
    exact ⟨⟨RoundedEop.sample 56084, by simp [twoDays], by norm_num [RoundedEop.sample]⟩, ⟨RoundedEop.sample 56085, by simp [twoDays], by norm_num [RoundedEop.sample]⟩⟩
  have s1 : size ⟨7e6, 0, 0⟩ = 7e6 := by unfold size; norm_num
  have s2 : size ⟨0, 7.5e3, 0⟩ = 7.5e3 := by unfold size; norm_num
  have ho := RoundedOrient.twoDays_ok
  have mem : ∀ {P : Rec ℝ → Prop}, P (RoundedEop.sample 56084) → P (RoundedEop.sample 56085) → ∀ r ∈ twoDays.vec, P r := by
    intro P p q r hr
    simp only [twoDays, List.mem_cons, List.not_mem_nil, or_false] at hr
    rcases hr with rfl | rfl
    · exact p
    · exact q
  have hread : Read (fun t => (t - 51544.5) / 36525) twoDays _ :=
    ⟨ho.cache, ho.daily, fun r hr => ⟨(ho.pole r hr).1, (ho.pole r hr).2.1, (ho.pole r hr).2.2.2.1, (ho.pole r hr).2.2.2.2⟩,
      mem (by norm_num [RoundedEop.sample, abs_le]) (by norm_num [RoundedEop.sample, abs_le]),
      mem ⟨by simp [hu.le], by norm_num [RoundedEop.sample, abs_le]⟩ ⟨by simp [hu.le], by norm_num [RoundedEop.sample, abs_le]⟩⟩
  have hT : Trig Real.sin Real.cos := ⟨fun x => by simp [hu.le], fun x => by simp [hu.le]⟩
  have epochs : ∀ (x : Ref), x.row = row → |x.row.tt.jcenturies| ≤ 0.999 ∧ Between twoDays x.row.tt := by
    intro x hx
    rw [hx]
    exact ⟨by show |noon.jcenturies| ≤ _; rw [hj]; norm_num [abs_of_pos], b1⟩
  obtain ⟨m, o, -, -, hg⟩ := raw_inside (rn_faithful b) hT (show InverseTrig Real.arctan _ from RoundedGcrs.inverse_exact) s2r_exact
    (RoundedGcrs.product_ok (rn_faithful b)) (RoundedGcrs.matProduct_ok (rn_faithful b)) (transformVector_ok (rn_faithful b)) (mulVec_ok (rn_faithful b))
    (RoundedEop.rounded_difference (rn_faithful b)) (fun _ => 37) (RoundedOrient.exactClock_ok _) hread row (epochs ⟨row, row.ri, row.ri⟩ rfl).1 (by norm_num) b1
  obtain ⟨⟨S, hS, -⟩, -⟩ := hg
  have two : ∀ {a c : Ref}, a.row = row → c.row = row → ∀ x ∈ [a, c], x.row = row := by
    intro a c ha hc x hx
    simp only [List.mem_cons, List.not_mem_nil, or_false] at hx
    rcases hx with rfl | rfl
    · exact ha
    · exact hc
  refine ⟨S, ?_, ?_⟩
  · refine check_accepts (rn_faithful b) hT (show InverseTrig Real.arctan _ from RoundedGcrs.inverse_exact) s2r_exact (RoundedGcrs.product_ok (rn_faithful b))
      (RoundedGcrs.matProduct_ok (rn_faithful b)) (transformVector_ok (rn_faithful b)) (mulVec_ok (rn_faithful b))
      (RoundedEop.rounded_difference (rn_faithful b)) (fun _ => 37) (fun _ => by norm_num) (RoundedOrient.exactClock_ok _) hread (by simp [twoDays]) _
      (fun x hx => (epochs x (two rfl rfl x hx)).1) (fun x hx => (epochs x (two rfl rfl x hx)).2) fun x hx S' hS' => ?_
    have e : x = ⟨row, S.1, S.2⟩ := by simpa using hx
    subst e
    rw [← truth_unique hS hS']
    simp only [Agrees, Closer, row, s1, s2]
    norm_num
  · refine check_rejects (rn_faithful b) hT (show InverseTrig Real.arctan _ from RoundedGcrs.inverse_exact) s2r_exact (RoundedGcrs.product_ok (rn_faithful b))
      (RoundedGcrs.matProduct_ok (rn_faithful b)) (transformVector_ok (rn_faithful b)) (mulVec_ok (rn_faithful b))
      (RoundedEop.rounded_difference (rn_faithful b)) (fun _ => 37) (fun _ => by norm_num) (RoundedOrient.exactClock_ok _) hread (by simp [twoDays]) _
      (fun x hx => (epochs x (two rfl rfl x hx)).1) (fun x hx => (epochs x (two rfl rfl x hx)).2)
      (x := ⟨row, ⟨S.1.x + 0.1, S.1.y, S.1.z⟩, S.2⟩) (by simp) hS ?_
    rintro ⟨⟨h, -⟩, -⟩
    simp only [row, s1] at h
    norm_num at h

end Verif.RoundedOptions
