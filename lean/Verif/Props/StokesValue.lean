import Verif.Proof.StokesValue
import Mathlib.Algebra.Ring.Int.Defs
/-
C91: a set of Stokes coefficients behaves as a value.
-/
namespace Verif.Stokes
open Verif Storage MatrixExpr

variable {α : Type}

/-- C91: what a program reads from an object is what its value holds. -/
theorem value_read {s : S α} {v : Values α} (h : Holds s v) {k : Nat} {c : Coeffs α} (hv : v k = some c) {n m : Int}
    (hc : c.Has n m) : getCoeff s k 0 n m = c.getC n m ∧ getCoeff s k 1 n m = c.getS n m := by
  obtain ⟨d, o, h1, _, _, _, h5, h6⟩ := (h k).2 c hv
  have hh := hc
  obtain ⟨w1, w2, w3⟩ := hc
  obtain ⟨i, rfl⟩ := Int.eq_ofNat_of_zero_le (show 0 ≤ n by omega)
  obtain ⟨j, rfl⟩ := Int.eq_ofNat_of_zero_le w1
  have key : ∀ b (f : Nat → Nat → α), MatVal (s.env (2 * k + b)) d c.rows f →
      getCoeff s k b i j = .ok (f i j) := by
    intro b f hm
    obtain ⟨u, hu, hr⟩ := entry_of_has (env := s.env) hm.1 (matVal_has hm (i := i) (j := j) (by omega) (by omega))
    simp only [getCoeff, obj_get h1, Res.bind_ok, hr]
    have := hm.2.2 i j (by omega) (by omega)
    unfold entry at hu
    rw [this] at hu
    injection hu with hu
    rw [hu]
  unfold Coeffs.getC Coeffs.getS
  rw [if_pos hh, if_pos hh]
  exact ⟨key 0 _ h5, key 1 _ h6⟩

/-- C91: every legal operation does to the memory what it does to the values: it throws iff the value level does,
otherwise it succeeds and leaves a state that holds the new values. -/
theorem value_step [Add α] [Mul α] [Zero α] {s : S α} {v : Values α} (h : Holds s v) {op : Op α} (hp : Pre s op) :
    (step s op = .throw ∧ ValueThrows v op) ∨
    (¬ ValueThrows v op ∧ ∃ s' v', step s op = .ok s' ∧ ValueStep v op v' ∧ Holds s' v') := by
  cases op with
  | construct k n m junk =>
    right
    refine ⟨fun h => h, ?_⟩
    obtain ⟨J, j1, j2⟩ := junk_exists (tri_matOk n (junkBuf (tri (n + 1)).numElements junk) (by rw [junkBuf_length]))
      (tri_matOk n (junkBuf (tri (n + 1)).numElements junk) (by rw [junkBuf_length])) (r := n + 1) rfl rfl
    have hm := hp.2
    have ho : (if 0 < m then m else (n : Int)) = ((if m > 0 then m.toNat else n : Nat) : Int) := by
      split <;> simp <;> omega
    exact ⟨_, v.set k ⟨n, if 0 < m then m else n, n + 1, J, fun i j => J j (i + 1), J 0 0, J 0 0, false⟩, rfl,
      ⟨_, rfl, rfl, rfl, rfl⟩, holds_put h k n _ _ _ rfl ho (by split <;> omega) j1 j2⟩
  | resize k d o junk =>
    right
    refine ⟨fun h => h, ?_⟩
    obtain ⟨⟨p, hk⟩, ho⟩ := hp
    obtain ⟨c, hv, _⟩ := holds_live h hk
    have hr : ∀ m : St × List α, (mresize m (d + 1) junk).1.rows = d + 1 := by
      intro m; unfold mresize; split <;> rfl
    obtain ⟨J, j1, j2⟩ := junk_exists (mresize_matOk (s.env (2 * k)) d junk)
      (mresize_matOk (s.env (2 * k + 1)) d junk) (hr _) (hr _)
    exact ⟨_, v.set k { c with deg := d, ord := o, rows := d + 1, C := J, S := fun i j => J j (i + 1) },
      by simp only [step, resize, obj_get hk, Res.bind_ok],
      ⟨c, J, _, hv, by unfold Coeffs.resize; rw [if_neg (by omega)]; rfl, rfl⟩, holds_put h k d o _ _ rfl rfl ho j1 j2⟩
  | cresize k d o junk =>
    right
    refine ⟨fun h => h, ?_⟩
    obtain ⟨⟨⟨d0, o0⟩, hk⟩, ho⟩ := hp
    obtain ⟨c, hv, _, _, _, _, h5, h6⟩ := holds_live h hk
    obtain ⟨p, p1, p2, p3, p4⟩ := mcresize_spec h5.1 d junk
    obtain ⟨q, q1, q2, q3, q4⟩ := mcresize_spec h6.1 d junk
    obtain ⟨J, j1, j2⟩ := junk_exists p2 q2 p3 q3
    exact ⟨_, v.set k { c with deg := d, ord := o, rows := d + 1,
                               C := fun i j => if i < c.rows then c.C i j else J i j,
                               S := fun i j => if i < c.rows then c.S i j else J j (i + 1) },
      by simp only [step, cresize, obj_get hk, Res.bind_ok, p1, q1],
      ⟨c, J, _, hv, by unfold Coeffs.cresize; rw [if_neg (by omega)]; rfl, rfl⟩,
      holds_put h k d o _ _ rfl rfl ho (matVal_cresize h5 j1 p4) (matVal_cresize h6 j2 q4)⟩
  | shrink k d o =>
    right
    refine ⟨fun h => h, ?_⟩
    obtain ⟨⟨d0, o0⟩, hk⟩ := hp
    obtain ⟨c, hv, hs, hd, ho, _, h5, h6⟩ := holds_live h hk
    simp only [step, shrink, obj_get hk, Res.bind_ok]
    by_cases hc : o ≤ d ∧ d ≤ d0 ∧ o ≤ o0
    · rw [if_pos hc, Res.bind_ok]
      have e : c.shrink d o = { c with deg := d, ord := o } := by
        unfold Coeffs.shrink; rw [if_pos]; simp only [hd, ho]; omega
      refine ⟨_, _, rfl, ⟨c, hv, rfl⟩, holds_set h ?_ (fun i hi => by simp [hi]) fun _ _ _ => rfl⟩
      rw [e]
      exact ⟨d, o, by simp, rfl, rfl, hc.1, matVal_mono h5 hc.2.1, matVal_mono h6 hc.2.1⟩
    · rw [if_neg hc, Res.bind_ok]
      have e : c.shrink d o = c := by
        unfold Coeffs.shrink; rw [if_neg]; simp only [hd, ho]; omega
      refine ⟨_, _, rfl, ⟨c, hv, rfl⟩, holds_set h ?_ (fun i hi => rfl) fun _ _ _ => rfl⟩
      rw [e]
      exact hs
  | clear k =>
    right
    refine ⟨fun h => h, ?_⟩
    obtain ⟨⟨d0, o0⟩, hk⟩ := hp
    obtain ⟨c, hv, _, hd, ho, hod, h5, h6⟩ := holds_live h hk
    exact ⟨_, v.set k c.clear, by simp only [step, clear, obj_get hk, Res.bind_ok], ⟨c, hv, rfl⟩,
      holds_put h k d0 o0 _ _ hd ho hod (matVal_clear h5) (matVal_clear h6)⟩
  | scale k f =>
    right
    refine ⟨fun h => h, ?_⟩
    obtain ⟨⟨d0, o0⟩, hk⟩ := hp
    obtain ⟨c, hv, hs, hd, ho, hod, h5, h6⟩ := holds_live h hk
    simp only [step, scale, obj_get hk, Res.bind_ok]
    simp only at hd
    by_cases hc : d0 ≠ 0
    · rw [if_pos hc]
      have e : c.scale f = { c with C := fun i j => c.C i j * f, S := fun i j => c.S i j * f } := by
        unfold Coeffs.scale; rw [if_pos]; omega
      refine ⟨_, _, rfl, ⟨c, hv, rfl⟩, ?_⟩
      rw [e]
      exact holds_put h k d0 o0 _ _ hd ho hod (matVal_multiply h5 f) (matVal_multiply h6 f)
    · rw [if_neg hc]
      have e : c.scale f = c := by
        unfold Coeffs.scale; rw [if_neg]; omega
      refine ⟨_, _, rfl, ⟨c, hv, rfl⟩, holds_set h ?_ (fun i hi => rfl) fun _ _ _ => rfl⟩
      rw [e]
      exact hs
  | set k b n m x =>
    right
    refine ⟨fun h => h, ?_⟩
    obtain ⟨hb, d, o, hk, w1, w2, w3, _⟩ := hp
    obtain ⟨c, hv, _, hd, ho, hod, h5, h6⟩ := holds_live h hk
    simp only at h5 h6 hd ho hod
    have hrows := h5.2.1
    have hlt := h5.1.2.2.1
    have hh : c.Has n m := ⟨w1, w2, by omega⟩
    obtain ⟨i, rfl⟩ := Int.eq_ofNat_of_zero_le (show 0 ≤ n by omega)
    obtain ⟨j, rfl⟩ := Int.eq_ofNat_of_zero_le w1
    have key : ∀ b (f : Nat → Nat → α), MatVal (s.env (2 * k + b)) d c.rows f →
        ∃ env', setCoeff s k b i j x = .ok ⟨s.obj, env'⟩ ∧ Agree (2 * k + b) s.env env' ∧
          MatVal (env' (2 * k + b)) d c.rows (Coeffs.put f i j x) := by
      intro b f hm
      obtain ⟨env', a1, a2, a3, a4⟩ := setCoeff_spec hk hm.1 (matVal_has hm (i := i) (j := j) (by omega) (by omega)) x
      refine ⟨env', a1, a2, matVal_agree a2 hm fun p q hq hp => ?_⟩
      unfold Coeffs.put
      by_cases hpq : p = i ∧ q = j
      · rw [if_pos hpq, hpq.1, hpq.2]; exact a3
      · rw [if_neg hpq, a4 p q (matVal_has hm hq hp) (by omega)]
        exact hm.2.2 p q hq hp
    rcases (show b = 0 ∨ b = 1 by omega) with rfl | rfl
    · obtain ⟨env', a1, a2, a3⟩ := key 0 _ h5
      refine ⟨_, v.set k { c with C := Coeffs.put c.C i j x }, a1, ⟨c, _, hv, ?_, rfl⟩, ?_⟩
      · simp only [if_true]; unfold Coeffs.setC; rw [if_pos hh]; rfl
      · refine holds_set h ⟨d, o, hk, hd, ho, hod, a3, ?_⟩ (fun _ _ => rfl) fun y h1 _ => a2.1 y h1
        simp only
        rw [a2.1 _ (by omega)]
        exact h6
    · obtain ⟨env', a1, a2, a3⟩ := key 1 _ h6
      refine ⟨_, v.set k { c with S := Coeffs.put c.S i j x }, a1, ⟨c, _, hv, ?_, rfl⟩, ?_⟩
      · rw [if_neg (by omega)]; unfold Coeffs.setS; rw [if_pos hh]; rfl
      · refine holds_set h ⟨d, o, hk, hd, ho, hod, ?_, a3⟩ (fun _ _ => rfl) fun y _ h1 => a2.1 y h1
        simp only
        rw [a2.1 _ (by omega)]
        exact h5
  | add k j =>
    obtain ⟨⟨⟨dk, ok⟩, hk⟩, ⟨dj, oj⟩, hj⟩ := hp
    obtain ⟨c, hv, _, hd, ho, hod, h5, h6⟩ := holds_live h hk
    obtain ⟨d, hv', _, hd', ho', hod', h5', h6'⟩ := holds_live h hj
    simp only at hd ho hod hd' ho' hod' h5 h6 h5' h6'
    by_cases hc : dk < dj ∨ ok < oj
    · left
      refine ⟨by simp only [step, addAssign, obj_get hk, obj_get hj, Res.bind_ok, hc, if_true], c, d, hv, hv', ?_⟩
      unfold Coeffs.addAssign
      rw [if_pos (by omega)]
    · right
      have e : c.addAssign d = .ok
          { c with C := fun i j => if (i : Int) ≤ d.deg ∧ (j : Int) ≤ d.ord ∧ j ≤ i then c.C i j + d.C i j else c.C i j,
                   S := fun i j => if (i : Int) ≤ d.deg ∧ (j : Int) ≤ d.ord ∧ j ≤ i then c.S i j + d.S i j else c.S i j } := by
        have r1 := h5.2.1
        have r2 := h5.1.2.2.1
        have r3 := h5'.2.1
        have r4 := h5'.1.2.2.1
        unfold Coeffs.addAssign
        rw [if_neg (by omega), if_pos (by omega)]
      refine ⟨?_, ?_⟩
      · rintro ⟨c2, d2, q1, q2, q3⟩
        rw [hv] at q1
        rw [hv'] at q2
        injection q1 with q1
        injection q2 with q2
        subst q1 q2
        rw [e] at q3
        cases q3
      obtain ⟨env1, a1, a2, a3⟩ := addCols_spec (ord := oj) h5.1 h5'.1 (by omega)
      obtain ⟨env2, b1, b2, b3⟩ := addCols_spec (ord := oj) (agree_matOk a2 h6.1) (agree_matOk a2 h6'.1)
        (by omega)
      have key : ∀ (env env' : Env α) (x y : Nat) (f g : Nat → Nat → α), MatVal (env x) dk c.rows f →
          MatVal (env y) dj d.rows g → Agree x env env' →
          (∀ n m : Int, (env x).1.HasElement n m →
            (Within dj oj n m → ∃ u v, entry env x n m = some u ∧ entry env y n m = some v ∧
              entry env' x n m = some (u + v)) ∧
            (¬ Within dj oj n m → entry env' x n m = entry env x n m)) →
          MatVal (env' x) dk c.rows
            (fun i j => if (i : Int) ≤ d.deg ∧ (j : Int) ≤ d.ord ∧ j ≤ i then f i j + g i j else f i j) := by
        intro env env' x y f g hx hy ha hE
        refine matVal_agree ha hx fun p q hq hp => ?_
        obtain ⟨e1, e2⟩ := hE p q (matVal_has hx hq hp)
        by_cases hw : (p : Int) ≤ d.deg ∧ (q : Int) ≤ d.ord ∧ q ≤ p
        · rw [if_pos hw]
          obtain ⟨u, w, f1, f2, f3⟩ := e1 ⟨by omega, by omega, by omega, by omega⟩
          have hr := hy.2.1
          have hr2 := hy.1.2.2.1
          have g1 := hx.2.2 p q hq hp
          have g2 := hy.2.2 p q hq (by omega)
          unfold entry at f1 f2
          rw [g1] at f1
          rw [g2] at f2
          injection f1 with f1
          injection f2 with f2
          rw [f3, f1, f2]
        · rw [if_neg hw, e2 (fun w => hw (by unfold Within at w; omega))]
          exact hx.2.2 p q hq hp
      refine ⟨⟨s.obj, env2⟩, _, ?_, ⟨c, d, _, hv, hv', e, rfl⟩, ?_⟩
      · simp only [step, addAssign, obj_get hk, obj_get hj, Res.bind_ok, hc, if_false, a1, b1]
      · have m1 := key _ _ _ _ _ _ h5 h5' a2 a3
        have m2 := key env1 env2 (2 * k + 1) (2 * j + 1) c.S d.S (by rw [a2.1 _ (by omega)]; exact h6)
          (by rw [a2.1 _ (by omega)]; exact h6') b2 b3
        refine holds_set h ⟨dk, ok, hk, hd, ho, hod, ?_, m2⟩ (fun _ _ => rfl) fun y h1 h2 => ?_
        · simp only
          rw [b2.1 _ (by omega)]
          exact m1
        · simp only
          rw [b2.1 y h2, a2.1 y h1]
  | copy k j =>
    right
    refine ⟨fun h => h, ?_⟩
    obtain ⟨⟨⟨dk, ok⟩, hk⟩, ⟨dj, oj⟩, hj⟩ := hp
    obtain ⟨d, hv', hs', hd', ho', hod', h5', h6'⟩ := holds_live h hj
    simp only [step, copyAssign, obj_get hk, obj_get hj, Res.bind_ok]
    by_cases hkj : k = j
    · rw [if_pos hkj]
      subst hkj
      exact ⟨_, _, rfl, ⟨d, hv', rfl⟩, holds_set h hs' (fun _ _ => rfl) fun _ _ _ => rfl⟩
    · rw [if_neg hkj]
      exact ⟨_, _, rfl, ⟨d, hv', rfl⟩, holds_put h k dj oj _ _ hd' ho' hod' (matVal_copy h5') (matVal_copy h6')⟩

/-- C91: a legal program run on objects is the same program run on values: whatever memory it started with, the
objects it ends with hold values the operations allow. -/
theorem value_run [Add α] [Mul α] [Zero α] {s s' : S α} {ops : List (Op α)} (hr : Runs s ops s') {v : Values α}
    (h : Holds s v) : ∃ v', ValueRuns v ops v' ∧ Holds s' v' := by
  induction hr generalizing v with
  | nil s => exact ⟨v, .nil v, h⟩
  | cons hp hs _ ih =>
    rcases value_step h hp with ⟨ht, _⟩ | ⟨_, s2, v2, h1, h2, h3⟩
    · rw [hs] at ht; cases ht
    · rw [hs] at h1; injection h1 with h1; subst h1
      obtain ⟨v', h4, h5⟩ := ih h3
      exact ⟨v', .cons h2 h4, h5⟩

/-- C91: and it begins with no values. -/
theorem value_init (env : Env α) : Holds ⟨fun _ => none, env⟩ fun _ => none :=
  fun _ => ⟨fun _ => rfl, fun _ e => (nomatch e)⟩

/-- A program that constructs two sets, writes a coefficient and adds: it runs. -/
example : ∃ s' : S Int, Runs ⟨fun _ => none, fun _ => (tri 0, [])⟩
    [.construct 0 2 (-1) (fun _ => 5), .construct 1 1 (-1) (fun _ => 7), .set 1 1 1 1 3, .add 0 1, .scale 0 2] s' ∧
    getCoeff s' 0 1 1 1 = .ok 16 ∧ getCoeff s' 0 0 1 1 = .ok 24 := by
  refine ⟨_, .cons ⟨rfl, by decide⟩ rfl (.cons ⟨rfl, by decide⟩ rfl (.cons ⟨by decide, 1, 1, rfl, by decide, by decide,
    by decide, by decide⟩ rfl (.cons ⟨⟨_, rfl⟩, _, rfl⟩ rfl (.cons ⟨_, rfl⟩ rfl (.nil _))))), rfl, rfl⟩

end Verif.Stokes
