import Verif.Spec.RoundedIcgem
import Verif.Proof.RoundedOceanPole
import Verif.Props.Icgem
/-
The readers of ICGEM models in double precision follow the exact ones.
-/
namespace Verif.RoundedIcgem
open Verif Verif.Icgem Verif.Rounded Verif.Rounding

variable {T : Type}

section
variable {fl : Arith} (hf : Faithful fl) {fsin fcos : ℝ → ℝ} (ht : Trig fsin fcos)

/-! ### The terms -/

include hf in
theorem value_sc (v : ℚ) : Sc 1 |(v : ℝ)| (fl v) v := Sc.of_rel (Rel.one hf.toRounds _)

include hf in
theorem arg_rel {e : Entry T} (hp : e.period ≠ 0) {dt' dt : ℝ} (h : Rounding.Rel 4 dt' dt) :
    Rounding.Rel 10 (arg fl e dt') (2 * Real.pi / e.period * dt) := by
  have R := hf.toRounds
  have hp' : (e.period : ℝ) ≠ 0 := by exact_mod_cast hp
  have a := ((RoundedOceanPole.d2pi_rel hf).div (Rel.one R (e.period : ℝ)) (by norm_num) (by norm_num) (by norm_num) (by norm_num) hp').fl R (by norm_num)
  exact ((a.mul h (by norm_num) (by norm_num) (by norm_num)).fl R (by norm_num)).mono (by norm_num)

include ht in
theorem sin_sc {x' x : ℝ} (h : Rounding.Rel 10 x' x) : Sc 12 (1 + |x|) (fsin x') (Real.sin x) := by
  have a := RoundedCip.app_sin ht (e := 10 * u * |x|) (x' := x') (x := x) ⟨0, by simpa [Rounding.Rel] using h⟩
  have := u_pos; have := abs_nonneg x
  exact ⟨a.1.trans (by linarith), a.2.trans (by nlinarith [mul_nonneg u_pos.le (abs_nonneg x)])⟩

include ht in
theorem cos_sc {x' x : ℝ} (h : Rounding.Rel 10 x' x) : Sc 12 (1 + |x|) (fcos x') (Real.cos x) := by
  have a := RoundedCip.app_cos ht (e := 10 * u * |x|) (x' := x') (x := x) ⟨0, by simpa [Rounding.Rel] using h⟩
  have := u_pos; have := abs_nonneg x
  exact ⟨a.1.trans (by linarith), a.2.trans (by nlinarith [mul_nonneg u_pos.le (abs_nonneg x)])⟩

include hf in
theorem times_sc (v : ℚ) {k M f' f : ℝ} (h : Sc k M f' f) (h0 : 0 ≤ k) (hk : k ≤ 12) : Sc 25 (|(v : ℝ)| * M) (times fl v f') (v * f) :=
  (Sc.mulp hf 0 (value_sc hf v) h (by norm_num) (by norm_num) h0 (by linarith)).mono (by linarith)

/-- The kind of record that an entry is. -/
def kindOf (e : Entry T) : Kind :=
  match e.key with
  | .gfc => .static
  | .gfct => .ref
  | .trnd => .trend
  | .asin => .sin e.period
  | .acos => .cos e.period

include hf ht in
theorem term2_sc {e : Entry T} (v : ℚ) {dt' dt : ℝ} (h : Rounding.Rel 4 dt' dt) (hp : e.key = .asin ∨ e.key = .acos → e.period ≠ 0) :
    Sc 25 (|(v : ℝ)| * Kind.size dt (kindOf e)) (term2 fl fsin fcos e v dt') (v * (kindOf e).factor dt) := by
  have c := value_sc hf v
  have d : Sc 4 |dt| dt' dt := ⟨le_rfl, h⟩
  have one : Sc 0 1 1 1 := Sc.num 1
  have zero : Sc 0 0 0 0 := Sc.num 0
  have base : ∀ {x y z : ℝ}, Sc 0 x x x → Sc 0 y y y → Sc 0 z z z →
      Sc 10 (|(v : ℝ)| * x + |(v : ℝ)| * y + |(v : ℝ)| * |dt| * z)
        (fl (fl (fl.pr 0 (fl v * x) + fl.pr 1 (fl v * y)) + fl.pr 2 (fl (fl v * dt') * z))) (v * x + v * y + v * dt * z) := by
    intro x y z hx hy hz
    exact (Sc.addf hf 8 (Sc.addf hf 3 (Sc.mulp hf 0 c hx) (Sc.mulp hf 1 c hy)) (Sc.mulp hf 2 (Sc.mulf hf c d) hz)).mono (by norm_num)
  unfold term2 kindOf
  cases hk : e.key with
  | gfc =>
    have := (base one zero zero).mono (l := 25) (by norm_num)
    simpa [flag, Kind.size, Kind.factor] using this
  | gfct =>
    have := (base zero one zero).mono (l := 25) (by norm_num)
    simpa [flag, Kind.size, Kind.factor] using this
  | trnd =>
    have := (base zero zero one).mono (l := 25) (by norm_num)
    simpa [flag, Kind.size, Kind.factor] using this
  | asin =>
    have ha := arg_rel hf (hp (.inl hk)) h
    have a := Sc.mulp hf 3 (Sc.mulf hf c (sin_sc ht ha)) one
    have b := Sc.mulp hf 4 (Sc.mulf hf c (cos_sc ht ha)) zero
    have := (Sc.addf hf 17 (base zero zero zero) (Sc.addf hf 15.1 a b)).mono (l := 25) (by norm_num)
    simpa [flag, Kind.size, Kind.factor] using this
  | acos =>
    have ha := arg_rel hf (hp (.inr hk)) h
    have a := Sc.mulp hf 3 (Sc.mulf hf c (sin_sc ht ha)) zero
    have b := Sc.mulp hf 4 (Sc.mulf hf c (cos_sc ht ha)) one
    have := (Sc.addf hf 17 (base zero zero zero) (Sc.addf hf 15.1 a b)).mono (l := 25) (by norm_num)
    simpa [flag, Kind.size, Kind.factor] using this

/-! ### The state -/

/-- Rounded and exact locals after the records `rs`: the same but for rounding. -/
structure Sim (size : List (Record T) → Record T → ℝ) (rs : List (Record T)) (st' st : St T) : Prop where
  same : st' = { st with co := { st.co with C := st'.co.C, S := st'.co.S }, dt := st'.dt }
  dt : Rounding.Rel 4 st'.dt st.dt
  C : (∀ r ∈ rs, PeriodOk r) → ∀ a b : Nat, count rs a b ≤ 400 →
    Sc (25 + 1.01 * count rs a b) (total size (fun r => |r.C|) rs a b) (st'.co.C a b) (st.co.C a b)
  S : (∀ r ∈ rs, PeriodOk r) → ∀ a b : Nat, count rs a b ≤ 400 →
    Sc (25 + 1.01 * count rs a b) (total size (fun r => |r.S|) rs a b) (st'.co.S a b) (st.co.S a b)

theorem count_snoc (rs : List (Record T)) (r : Record T) (a b : Int) :
    count (rs ++ [r]) a b = count rs a b + if r.n = a ∧ r.m = b then 1 else 0 := by
  unfold count
  rw [List.filter_append, List.length_append]
  congr 1
  by_cases h : r.n = a ∧ r.m = b
  · rw [if_pos h]; simp [h]
  · rw [if_neg h, List.filter_cons, if_neg (by simpa using h)]; rfl

/-- A coefficient that no term is added to. -/
theorem keep_sc {size : List (Record T) → Record T → ℝ} {val : Record T → ℚ} {rs : List (Record T)} {r : Record T} (hs : 0 ≤ size rs r) (hv : 0 ≤ val r)
    {a b : Nat} {x' x : ℝ} (h : count rs a b ≤ 400 → Sc (25 + 1.01 * count rs a b) (total size val rs a b) x' x)
    (hc : count (rs ++ [r]) a b ≤ 400) : Sc (25 + 1.01 * count (rs ++ [r]) a b) (total size val (rs ++ [r]) a b) x' x := by
  rw [count_snoc] at hc ⊢
  rw [total_snoc]
  have h1 := h (by omega)
  have hv' : (0 : ℝ) ≤ val r := by exact_mod_cast hv
  have hn : (0 : ℝ) ≤ count rs a b := Nat.cast_nonneg _
  split
  · refine (h1.mono ?_).le ?_ ?_
    · push_cast; linarith
    · push_cast; linarith
    · nlinarith [mul_nonneg hv' hs]
  · simpa using h1

include hf in
/-- The coefficient that a term is added to. -/
theorem add_sc {size : List (Record T) → Record T → ℝ} {val : Record T → ℚ} {rs : List (Record T)} {r : Record T}
    {a b : Nat} {x' x c' c : ℝ} (h : count rs a b ≤ 400 → Sc (25 + 1.01 * count rs a b) (total size val rs a b) x' x)
    (hr : r.n = a ∧ r.m = b) (ht : Sc 25 ((val r : ℝ) * size rs r) c' c)
    (hc : count (rs ++ [r]) a b ≤ 400) : Sc (25 + 1.01 * count (rs ++ [r]) a b) (total size val (rs ++ [r]) a b) (fl (x' + c')) (x + c) := by
  rw [count_snoc, if_pos hr] at hc ⊢
  rw [total_snoc, if_pos hr]
  have h1 := h (by omega)
  have hn : (0 : ℝ) ≤ count rs a b := Nat.cast_nonneg _
  have hn' : (count rs a b : ℝ) ≤ 400 := by exact_mod_cast (by omega : count rs a b ≤ 400)
  have := Sc.addf hf (25 + 1.01 * count rs a b) h1 ht le_rfl (by linarith) (by linarith)
  exact this.mono (by push_cast; linarith)

theorem Sim.skip {size : List (Record T) → Record T → ℝ} {rs : List (Record T)} {st' st : St T} (h : Sim size rs st' st) {r : Record T} (e : Entry T)
    (hs : 0 ≤ size rs r) : Sim size (rs ++ [r]) { st' with entry := e } { st with entry := e } := by
  refine ⟨?_, h.dt, fun hp a b hc => ?_, fun hp a b hc => ?_⟩
  · conv_lhs => rw [h.same]
  · exact keep_sc hs (abs_nonneg _) (h.C (fun x hx => hp x (by simp [hx])) a b) hc
  · exact keep_sc hs (abs_nonneg _) (h.S (fun x hx => hp x (by simp [hx])) a b) hc

include hf in
/-- Storing a term. -/
theorem Sim.store {size : List (Record T) → Record T → ℝ} {rs : List (Record T)} {st' st : St T} (h : Sim size rs st' st) {r : Record T} {e : Entry T}
    (hr : r.n = e.degree ∧ r.m = e.order ∧ r.C = e.C ∧ r.S = e.S) {f c' s' : ℝ} (hs : 0 ≤ size rs r)
    (hC : PeriodOk r → Sc 25 (|(e.C : ℝ)| * size rs r) c' (e.C * f)) (hS : PeriodOk r → Sc 25 (|(e.S : ℝ)| * size rs r) s' (e.S * f)) :
    (∃ s1 s1', Icgem.store st e f = .ok s1 ∧ store fl st' e c' s' = .ok s1' ∧ Sim size (rs ++ [r]) s1' s1) ∨
      (Icgem.store st e f = .ub ∧ store fl st' e c' s' = .ub) := by
  have hh : st'.co.Has e.degree e.order ↔ st.co.Has e.degree e.order := by
    rw [h.same]; rfl
  obtain ⟨h1, h2, h3, h4⟩ := hr
  by_cases g : st.co.Has e.degree e.order
  · left
    have g' := hh.mpr g
    have e1 : Icgem.store st e f = .ok { st with
        co := { st.co with
          C := Coeffs.put st.co.C e.degree.toNat e.order.toNat (st.co.C e.degree.toNat e.order.toNat + e.C * f)
          S := Coeffs.put st.co.S e.degree.toNat e.order.toNat (st.co.S e.degree.toNat e.order.toNat + e.S * f) }
        maxN := max st.maxN e.degree
        maxM := max st.maxM e.order
        entry := e } := by
      unfold Icgem.store Coeffs.addAt; rw [if_pos g]; rfl
    have e2 : RoundedIcgem.store fl st' e c' s' = .ok { st' with
        co := { st'.co with
          C := Coeffs.put st'.co.C e.degree.toNat e.order.toNat (fl (st'.co.C e.degree.toNat e.order.toNat + c'))
          S := Coeffs.put st'.co.S e.degree.toNat e.order.toNat (fl (st'.co.S e.degree.toNat e.order.toNat + s')) }
        maxN := max st'.maxN e.degree
        maxM := max st'.maxM e.order
        entry := e } := by
      unfold RoundedIcgem.store; rw [if_pos g']
    refine ⟨_, _, e1, e2, ?_⟩
    have hd : ((e.degree.toNat : Nat) : Int) = e.degree := by have := g.1; have := g.2.1; omega
    have ho : ((e.order.toNat : Nat) : Int) = e.order := by have := g.1; omega
    refine ⟨?_, h.dt, fun hp a b hc => ?_, fun hp a b hc => ?_⟩
    · conv_lhs => rw [h.same]
    · have hx := h.C (fun x hx => hp x (by simp [hx])) a b
      have hr' := hp r (by simp)
      simp only [Coeffs.put]
      by_cases hab : a = e.degree.toNat ∧ b = e.order.toNat
      · rw [if_pos hab, if_pos hab]
        obtain ⟨rfl, rfl⟩ := hab
        refine add_sc hf (val := fun r => |r.C|) hx ⟨by rw [h1, hd], by rw [h2, ho]⟩ ?_ hc
        simp only [h3, Rat.cast_abs]
        exact hC hr'
      · rw [if_neg hab, if_neg hab]
        exact keep_sc (val := fun r => |r.C|) hs (abs_nonneg _) hx hc
    · have hx := h.S (fun x hx => hp x (by simp [hx])) a b
      have hr' := hp r (by simp)
      simp only [Coeffs.put]
      by_cases hab : a = e.degree.toNat ∧ b = e.order.toNat
      · rw [if_pos hab, if_pos hab]
        obtain ⟨rfl, rfl⟩ := hab
        refine add_sc hf (val := fun r => |r.S|) hx ⟨by rw [h1, hd], by rw [h2, ho]⟩ ?_ hc
        simp only [h4, Rat.cast_abs]
        exact hS hr'
      · rw [if_neg hab, if_neg hab]
        exact keep_sc (val := fun r => |r.S|) hs (abs_nonneg _) hx hc
  · right
    refine ⟨?_, ?_⟩
    · unfold Icgem.store Coeffs.addAt; rw [if_neg g]; rfl
    · unfold RoundedIcgem.store; rw [if_neg (fun x => g (hh.mp x))]


theorem size_nonneg (dt : ℝ) (k : Kind) : 0 ≤ Kind.size dt k := by
  cases k <;> simp only [Kind.size] <;> positivity

theorem size1_nonneg (years : T → T → ℝ) (t : T) (before : List (Record T)) (r : Record T) : 0 ≤ size1 years t before r := by
  unfold size1
  split
  · norm_num
  · norm_num
  · exact size_nonneg _ _
  · exact le_rfl

theorem size2_nonneg [LinearOrder T] (years : T → T → ℝ) (t : T) (r : Record T) : 0 ≤ size2 years t r := by
  unfold size2
  split
  · norm_num
  · split
    · exact size_nonneg _ _
    · exact le_rfl
  · exact le_rfl

/-- What the loop bodies of the two readers do with an entry `e`, the record `r`. -/
def Steps (size : List (Record T) → Record T → ℝ) (rs : List (Record T)) (r : Record T) (x' x : Res (St T)) : Prop :=
  (∃ s1 s1', x = .ok s1 ∧ x' = .ok s1' ∧ Sim size (rs ++ [r]) s1' s1) ∨ (x = .ub ∧ x' = .ub) ∨ (x = .abort ∧ x' = .abort)

theorem Steps.of_store {size : List (Record T) → Record T → ℝ} {rs : List (Record T)} {r : Record T} {x' x : Res (St T)}
    (h : (∃ s1 s1', x = .ok s1 ∧ x' = .ok s1' ∧ Sim size (rs ++ [r]) s1' s1) ∨ (x = .ub ∧ x' = .ub)) : Steps size rs r x' x :=
  h.elim .inl fun h => .inr (.inl h)

theorem rec1_kind (e : Entry T) : (rec1 e).kind = kindOf e := by unfold rec1 kindOf; cases e.key <;> rfl

theorem rec2_kind (e : Entry T) : (rec2 e).kind = kindOf e := by unfold rec2 kindOf; cases e.key <;> rfl

theorem Sim.cur {size : List (Record T) → Record T → ℝ} {rs : List (Record T)} {st' st : St T} (h : Sim size rs st' st) :
    st'.curN = st.curN ∧ st'.curM = st.curM := by rw [h.same]; exact ⟨rfl, rfl⟩

theorem Sim.has {size : List (Record T) → Record T → ℝ} {rs : List (Record T)} {st' st : St T} (h : Sim size rs st' st) (i j : Int) :
    st'.co.Has i j ↔ st.co.Has i j := by rw [h.same]; rfl

include hf ht in
theorem use1_sim {cal : Cal T} {yr : T → T → ℝ} (hy : YearDifference cal.years yr) {n m : Int} {t : T} {rs : List (Record T)} {st' st : St T}
    (h : Sim (size1 cal.years t) rs st' st) (hc : Cur cal.years t n m rs st) (e : Entry T) :
    Steps (size1 cal.years t) rs (rec1 e) (use1 fl fsin fcos yr n m t st' e) (Icgem.use1 cal n m t st e) := by
  have hs := size1_nonneg cal.years t rs (rec1 e)
  unfold use1 Icgem.use1
  by_cases hw : e.degree ≤ n ∧ e.order ≤ m
  swap
  · rw [if_neg hw, if_neg hw]
    exact .inl ⟨_, _, rfl, rfl, h.skip e hs⟩
  rw [if_pos hw, if_pos hw]
  have plain : ∀ v : ℚ, size1 cal.years t rs (rec1 e) = 1 → Sc 25 (|(v : ℝ)| * size1 cal.years t rs (rec1 e)) (fl v) (v * 1) := by
    intro v h1
    rw [h1, mul_one, mul_one]
    exact (value_sc hf v).mono (by norm_num)
  -- the terms that depend on time
  have other : ∀ (f : ℝ) (c' : ℚ → ℝ), (rec1 e).kind ≠ .static → (rec1 e).kind ≠ .ref →
      (∀ v : ℚ, PeriodOk (rec1 e) → Sc 25 (|(v : ℝ)| * Kind.size st.dt (rec1 e).kind) (c' v) (v * f)) →
      Steps (size1 cal.years t) rs (rec1 e) (if st'.curN = e.degree ∧ st'.curM = e.order then store fl st' e (c' e.C) (c' e.S) else .abort)
        (if st.curN = e.degree ∧ st.curM = e.order then Icgem.store st e f else .abort) := by
    intro f c' k1 k2 hterm
    rw [h.cur.1, h.cur.2]
    by_cases hcur : st.curN = e.degree ∧ st.curM = e.order
    swap
    · rw [if_neg hcur, if_neg hcur]; exact .inr (.inr ⟨rfl, rfl⟩)
    rw [if_pos hcur, if_pos hcur]
    by_cases g : st.co.Has e.degree e.order
    swap
    · refine .inr (.inl ⟨?_, ?_⟩)
      · unfold Icgem.store Coeffs.addAt; rw [if_neg g]; rfl
      · unfold RoundedIcgem.store; rw [if_neg (fun x => g ((h.has _ _).mp x))]
    obtain ⟨f1, f2, _, _⟩ := rec1_fields e
    have hsize : size1 cal.years t rs (rec1 e) = Kind.size st.dt (rec1 e).kind := by
      rcases hl : lastRef n m rs with _ | r
      · unfold Cur at hc; rw [hl] at hc; simp only at hc
        have := g.1; have := g.2.1; omega
      · unfold Cur at hc; rw [hl] at hc
        obtain ⟨c1, c2, t0, c3, c4⟩ := hc
        obtain ⟨e1, _, _⟩ := epoch_of_last hl
        have g1 : r.n = (rec1 e).n := by rw [f1, ← hcur.1, c1]
        have g2 : r.m = (rec1 e).m := by rw [f2, ← hcur.2, c2]
        unfold size1
        rw [← g1, ← g2, e1, c3, c4]
        cases hk : (rec1 e).kind <;> simp [hk] at k1 k2 ⊢
    refine .of_store (h.store hf (rec1_fields e) hs ?_ ?_)
    · rw [hsize]; exact hterm _
    · rw [hsize]; exact hterm _
  have hd : Sc 4 |st.dt| st'.dt st.dt := ⟨le_rfl, h.dt⟩
  cases hk : e.key with
  | gfc =>
    have h1 : size1 cal.years t rs (rec1 e) = 1 := by unfold size1 rec1; rw [hk]
    exact .of_store (h.store hf (rec1_fields e) hs (fun _ => plain _ h1) (fun _ => plain _ h1))
  | gfct =>
    have h1 : size1 cal.years t rs (rec1 e) = 1 := by unfold size1 rec1; rw [hk]
    have h2 : Sim (size1 cal.years t) rs { st' with curN := e.degree, curM := e.order, dt := yr t e.t0 }
        { st with curN := e.degree, curM := e.order, dt := cal.years t e.t0 } := by
      refine ⟨?_, hy _ _, h.C, h.S⟩
      conv_lhs => rw [h.same]
    exact .of_store (h2.store hf (rec1_fields e) hs (fun _ => plain _ h1) (fun _ => plain _ h1))
  | trnd =>
    have hkind : (rec1 e).kind = .trend := by unfold rec1; rw [hk]
    refine other st.dt (fun v => times fl v st'.dt) (by rw [hkind]; simp) (by rw [hkind]; simp) fun v _ => ?_
    rw [hkind]
    exact times_sc hf v hd (by norm_num) (by norm_num)
  | asin =>
    have hkind : (rec1 e).kind = .sin e.period := by unfold rec1; rw [hk]
    refine other _ (fun v => times fl v (fsin (arg fl e st'.dt))) (by rw [hkind]; simp) (by rw [hkind]; simp) fun v hp => ?_
    rw [hkind]
    exact times_sc hf v (sin_sc ht (arg_rel hf (hp _ (.inl hkind)) h.dt)) (by norm_num) (by norm_num)
  | acos =>
    have hkind : (rec1 e).kind = .cos e.period := by unfold rec1; rw [hk]
    refine other _ (fun v => times fl v (fcos (arg fl e st'.dt))) (by rw [hkind]; simp) (by rw [hkind]; simp) fun v hp => ?_
    rw [hkind]
    exact times_sc hf v (cos_sc ht (arg_rel hf (hp _ (.inr hkind)) h.dt)) (by norm_num) (by norm_num)

include hf ht in
theorem use2_sim [LinearOrder T] {cal : Cal T} {yr : T → T → ℝ} (hy : YearDifference cal.years yr) {n m : Int} {t : T} {rs : List (Record T)} {st' st : St T}
    (h : Sim (fun _ r => size2 cal.years t r) rs st' st) (e : Entry T) :
    Steps (fun _ r => size2 cal.years t r) rs (rec2 e) (use2 fl fsin fcos yr n m t st' e) (Icgem.use2 cal n m t st e) := by
  have hs := size2_nonneg cal.years t (rec2 e)
  unfold use2 Icgem.use2
  by_cases hw : e.t0 ≤ t ∧ t < e.t1 ∧ e.degree ≤ n ∧ e.order ≤ m
  swap
  · rw [if_neg hw, if_neg hw]
    exact .inl ⟨_, _, rfl, rfl, h.skip e hs⟩
  rw [if_pos hw, if_pos hw]
  have hexact : (match e.key with
      | .gfc => Icgem.store st e 1
      | .gfct => Icgem.store st e 1
      | .trnd => Icgem.store st e (cal.years t e.t0)
      | .asin => Icgem.store st e (Real.sin (2 * Real.pi / e.period * cal.years t e.t0))
      | .acos => Icgem.store st e (Real.cos (2 * Real.pi / e.period * cal.years t e.t0))) =
      Icgem.store st e ((kindOf e).factor (cal.years t e.t0)) := by
    unfold kindOf; cases e.key <;> rfl
  have hsize : size2 cal.years t (rec2 e) = Kind.size (cal.years t e.t0) (kindOf e) := by
    unfold size2 rec2 kindOf
    cases hk : e.key <;> simp only [if_pos (⟨hw.1, hw.2.1⟩ : e.t0 ≤ t ∧ t < e.t1)] <;> rfl
  have hper : PeriodOk (rec2 e) → (e.key = .asin ∨ e.key = .acos → e.period ≠ 0) := by
    rintro hp (hk | hk)
    · exact hp _ (.inl (by unfold rec2; rw [hk]))
    · exact hp _ (.inr (by unfold rec2; rw [hk]))
  show Steps _ _ _ _ (match e.key with
      | .gfc => Icgem.store st e 1
      | .gfct => Icgem.store st e 1
      | .trnd => Icgem.store st e (cal.years t e.t0)
      | .asin => Icgem.store st e (Real.sin (2 * Real.pi / e.period * cal.years t e.t0))
      | .acos => Icgem.store st e (Real.cos (2 * Real.pi / e.period * cal.years t e.t0)))
  rw [hexact]
  refine .of_store (h.store hf (rec2_fields e) hs (fun hp => ?_) (fun hp => ?_))
  · rw [hsize]; exact term2_sc hf ht _ (hy _ _) (hper hp)
  · rw [hsize]; exact term2_sc hf ht _ (hy _ _) (hper hp)

/-! ### The loops -/

include hf ht in
theorem loop1_ok {cal : Cal T} {yr : T → T → ℝ} (hy : YearDifference cal.years yr) {er : ErrorModel} {n m : Int} {t : T} {all : List (Record T)}
    (hg : Grouped n m all) (htri : ∀ r ∈ all, Within n m r → Triangle r) :
    ∀ {lines : List (List Char)} {rs' : List (Record T)} (_ : List.Forall₂ (GoodLine1 true cal er) lines rs')
      {rs : List (Record T)} {st' st : St T}, all = rs ++ rs' → Sim (size1 cal.years t) rs st' st →
      Inv n m (factor1 cal.years t) (Within n m) rs st → Cur cal.years t n m rs st →
      ∃ s' s, loop (resolve1 cal er) (use1 fl fsin fcos yr n m t) lines st' 0 = .ok (0, s') ∧ Sim (size1 cal.years t) all s' s ∧
        Inv n m (factor1 cal.years t) (Within n m) all s := by
  intro lines rs' hl
  induction hl with
  | nil =>
    intro rs st' st hall hm hi hc
    rw [List.append_nil] at hall
    subst hall
    exact ⟨st', st, by simp [loop], hm, hi⟩
  | cons h hl ih =>
    rename_i line r lines rs'
    intro rs st' st hall hm hi hc
    obtain ⟨hlen, line', h1, h2, h3⟩ := h
    obtain ⟨e, he, hr⟩ := resolve1_ok cal er h1 h2 hlen h3 st'.entry
    have hmem : r ∈ all := by rw [hall]; simp
    obtain ⟨st1, hu⟩ := use1_ok (e := e) hi hc (by rw [hr]; exact htri r hmem) (by
      rw [hr]
      intro hw k1 k2
      have := hg rs.length r (by rw [hall]; simp) hw k1 k2
      rw [hall] at this
      simpa [lastRef] using this)
    obtain ⟨hi1, hc1, _⟩ := use1_inv hi hc hu
    rw [hr] at hi1 hc1
    rcases use1_sim hf ht hy hm hc e with ⟨s1, s1', q1, q2, q3⟩ | ⟨q, _⟩ | ⟨q, _⟩
    · rw [hu] at q1
      injection q1 with q1
      subst q1
      rw [hr] at q3
      obtain ⟨s', s, h4, h5⟩ := ih (rs := rs ++ [r]) (by rw [hall]; simp) q3 hi1 hc1
      refine ⟨s', s, ?_, h5⟩
      rw [loop_step (by omega), he]
      simp only [Res.bind, q2]
      exact h4
    · rw [hu] at q; cases q
    · rw [hu] at q; cases q

include hf ht in
theorem loop1_sound {cal : Cal T} {yr : T → T → ℝ} (hy : YearDifference cal.years yr) {er : ErrorModel} {n m : Int} {t : T} :
    ∀ {lines : List (List Char)} {rs : List (Record T)} {st' st s' : St T}, Sim (size1 cal.years t) rs st' st →
      Inv n m (factor1 cal.years t) (Within n m) rs st → Cur cal.years t n m rs st →
      loop (resolve1 cal er) (use1 fl fsin fcos yr n m t) lines st' 0 = .ok (0, s') →
      ∃ rs' s, List.Forall₂ (GoodLine1 false cal er) lines rs' ∧ Sim (size1 cal.years t) (rs ++ rs') s' s ∧
        Inv n m (factor1 cal.years t) (Within n m) (rs ++ rs') s := by
  intro lines
  induction lines with
  | nil =>
    intro rs st' st s' hm hi hc h
    simp only [loop, Res.ok.injEq, Prod.mk.injEq] at h
    obtain ⟨_, rfl⟩ := h
    exact ⟨[], st, .nil, by rw [List.append_nil]; exact hm, by rw [List.append_nil]; exact hi⟩
  | cons line lines ih =>
    intro rs st' st s' hm hi hc h
    by_cases hl : line.length < 256
    swap
    · rw [loop, if_pos (by omega)] at h; cases h
    rw [loop_step hl] at h
    rcases hr : resolve1 cal er line st'.entry with ⟨k, e⟩ | _ | _ | _ <;> rw [hr] at h
    · simp only [Res.bind] at h
      rcases use1_sim hf ht hy hm hc e with ⟨s1, s1', q1, q2, q3⟩ | ⟨_, q⟩ | ⟨_, q⟩
      · rw [q2] at h
        simp only at h
        by_cases hk : k = 0
        swap
        · rw [loop_error lines s1' hk] at h; cases h
        subst hk
        obtain ⟨hi1, hc1, _⟩ := use1_inv hi hc q1
        obtain ⟨rs', s, g1, g2, g3⟩ := ih q3 hi1 hc1 h
        exact ⟨rec1 e :: rs', s, .cons (resolve1_sound hr) g1, by rwa [List.append_cons], by rwa [List.append_cons]⟩
      · rw [q] at h; cases h
      · rw [q] at h; cases h
    · cases h
    · cases h
    · cases h

include hf ht in
theorem loop2_ok [LinearOrder T] {cal : Cal T} {yr : T → T → ℝ} (hy : YearDifference cal.years yr) {er : ErrorModel} {n m : Int} {t : T}
    (hmin : cal.min ≤ t) (hmax : t < cal.max) :
    ∀ {lines : List (List Char)} {rs' : List (Record T)} (_ : List.Forall₂ (GoodLine2 true cal er) lines rs')
      {rs : List (Record T)} {st' st : St T}, (∀ r ∈ rs', Within n m r → Triangle r) → Sim (fun _ r => size2 cal.years t r) rs st' st →
      Inv n m (fun _ r => factor2 cal.years t r) (Used2 n m t) rs st →
      ∃ s' s, loop (resolve2 cal er) (use2 fl fsin fcos yr n m t) lines st' 0 = .ok (0, s') ∧
        Sim (fun _ r => size2 cal.years t r) (rs ++ rs') s' s ∧ Inv n m (fun _ r => factor2 cal.years t r) (Used2 n m t) (rs ++ rs') s := by
  intro lines rs' hl
  induction hl with
  | nil =>
    intro rs st' st _ hm hi
    exact ⟨st', st, by simp [loop], by rw [List.append_nil]; exact hm, by rw [List.append_nil]; exact hi⟩
  | cons h hl ih =>
    rename_i line r lines rs'
    intro rs st' st htri hm hi
    obtain ⟨hlen, h3⟩ := h
    obtain ⟨e, he, hr, hgfc⟩ := resolve2_ok cal er h3 st'.entry
    obtain ⟨st1, hu⟩ := use2_ok (cal := cal) (t := t) (e := e) hi (by rw [hr]; exact htri r (by simp))
    have hi1 := use2_inv hmin hmax hi hgfc hu
    rw [hr] at hi1
    rcases use2_sim (n := n) (m := m) hf ht hy hm e with ⟨s1, s1', q1, q2, q3⟩ | ⟨q, _⟩ | ⟨q, _⟩
    · rw [hu] at q1
      injection q1 with q1
      subst q1
      rw [hr] at q3
      obtain ⟨s', s, h4, h5⟩ := ih (rs := rs ++ [r]) (fun x hx => htri x (by simp [hx])) q3 hi1
      refine ⟨s', s, ?_, by rw [List.append_cons]; exact h5⟩
      rw [loop_step (by omega), he]
      simp only [Res.bind, q2]
      exact h4
    · rw [hu] at q; cases q
    · rw [hu] at q; cases q

include hf ht in
theorem loop2_sound [LinearOrder T] {cal : Cal T} {yr : T → T → ℝ} (hy : YearDifference cal.years yr) {er : ErrorModel} {n m : Int} {t : T}
    (hmin : cal.min ≤ t) (hmax : t < cal.max) :
    ∀ {lines : List (List Char)} {rs : List (Record T)} {st' st s' : St T}, Sim (fun _ r => size2 cal.years t r) rs st' st →
      Inv n m (fun _ r => factor2 cal.years t r) (Used2 n m t) rs st →
      loop (resolve2 cal er) (use2 fl fsin fcos yr n m t) lines st' 0 = .ok (0, s') →
      ∃ rs' s, List.Forall₂ (GoodLine2 false cal er) lines rs' ∧ Sim (fun _ r => size2 cal.years t r) (rs ++ rs') s' s ∧
        Inv n m (fun _ r => factor2 cal.years t r) (Used2 n m t) (rs ++ rs') s := by
  intro lines
  induction lines with
  | nil =>
    intro rs st' st s' hm hi h
    simp only [loop, Res.ok.injEq, Prod.mk.injEq] at h
    obtain ⟨_, rfl⟩ := h
    exact ⟨[], st, .nil, by rw [List.append_nil]; exact hm, by rw [List.append_nil]; exact hi⟩
  | cons line lines ih =>
    intro rs st' st s' hm hi h
    by_cases hl : line.length < 256
    swap
    · rw [loop, if_pos (by omega)] at h; cases h
    rw [loop_step hl] at h
    rcases hr : resolve2 cal er line st'.entry with ⟨k, e⟩ | _ | _ | _ <;> rw [hr] at h
    · simp only [Res.bind] at h
      rcases use2_sim (n := n) (m := m) hf ht hy hm e with ⟨s1, s1', q1, q2, q3⟩ | ⟨_, q⟩ | ⟨_, q⟩
      · rw [q2] at h
        simp only at h
        by_cases hk : k = 0
        swap
        · rw [loop_error lines s1' hk] at h; cases h
        subst hk
        obtain ⟨g1, g2⟩ := resolve2_sound hr
        obtain ⟨rs', s, p1, p2, p3⟩ := ih q3 (use2_inv hmin hmax hi g2 q1) h
        exact ⟨rec2 e :: rs', s, .cons ⟨hl, g1⟩ p1, by rwa [List.append_cons], by rwa [List.append_cons]⟩
      · rw [q] at h; cases h
      · rw [q] at h; cases h
    · cases h
    · cases h
    · cases h

/-- The states at the begin of the loops. -/
theorem sim_start (size : List (Record T) → Record T → ℝ) (co : Coeffs ℝ) (e : Entry T) :
    Sim size [] ⟨co.clear, 0, 0, -1, -1, 0, e⟩ ⟨co.clear, 0, 0, -1, -1, 0, e⟩ := by
  refine ⟨rfl, by simp [Rounding.Rel], fun _ a b _ => ?_, fun _ a b _ => ?_⟩ <;>
    simp [Sc, total_nil, Coeffs.clear]

theorem getC_with (X : Coeffs ℝ) (f g : Nat → Nat → ℝ) (a b : Nat) {v : ℝ} (h : X.getC a b = .ok v) :
    ({ X with C := f, S := g } : Coeffs ℝ).getC a b = .ok (f a b) ∧ v = X.C a b := by
  unfold Coeffs.getC at h ⊢
  by_cases hh : X.Has a b
  · rw [if_pos hh] at h
    injection h with h
    exact ⟨if_pos hh, h.symm⟩
  · rw [if_neg hh] at h; cases h

theorem getS_with (X : Coeffs ℝ) (f g : Nat → Nat → ℝ) (a b : Nat) {v : ℝ} (h : X.getS a b = .ok v) :
    ({ X with C := f, S := g } : Coeffs ℝ).getS a b = .ok (g a b) ∧ v = X.S a b := by
  unfold Coeffs.getS at h ⊢
  by_cases hh : X.Has a b
  · rw [if_pos hh] at h
    injection h with h
    exact ⟨if_pos hh, h.symm⟩
  · rw [if_neg hh] at h; cases h

/-- The states at the end give the result. -/
theorem result_of {h : Header} {n m : Int} {fac size : List (Record T) → Record T → ℝ} {used : Record T → Prop} {rs : List (Record T)}
    {st' st : St T} (hn : 0 ≤ n) (hm : 0 ≤ m) (hs : Sim size rs st' st) (hi : Inv n m fac used rs st) (hp : ∀ r ∈ rs, PeriodOk r) :
    Result h n m fac size used rs
      (({ st'.co with gm := h.gm, re := h.re, normalized := h.normalized } : Coeffs ℝ).shrink st'.maxN st'.maxM) := by
  have R := Icgem.result_of (h := h) hn hm hi
  have e : (({ st'.co with gm := h.gm, re := h.re, normalized := h.normalized } : Coeffs ℝ).shrink st'.maxN st'.maxM) =
      { (({ st.co with gm := h.gm, re := h.re, normalized := h.normalized } : Coeffs ℝ).shrink st.maxN st.maxM) with
        C := st'.co.C
        S := st'.co.S } := by
    rw [hs.same]
    unfold Coeffs.shrink
    split <;> rfl
  have keep : (({ st.co with gm := h.gm, re := h.re, normalized := h.normalized } : Coeffs ℝ).shrink st.maxN st.maxM).C = st.co.C ∧
      (({ st.co with gm := h.gm, re := h.re, normalized := h.normalized } : Coeffs ℝ).shrink st.maxN st.maxM).S = st.co.S := by
    unfold Coeffs.shrink
    split <;> exact ⟨rfl, rfl⟩
  rw [e]
  refine ⟨fun a b hb ha hbm hc => ?_, fun a b hb ha hbm hc => ?_, R.deg, R.ord, R.gm, R.re, R.normalized, R.rows⟩
  · obtain ⟨q1, q2⟩ := getC_with _ st'.co.C st'.co.S a b (R.C a b hb ha hbm)
    refine ⟨_, q1, ?_⟩
    rw [q2, keep.1]
    exact (hs.C hp a b hc).2
  · obtain ⟨q1, q2⟩ := getS_with _ st'.co.C st'.co.S a b (R.S a b hb ha hbm)
    refine ⟨_, q1, ?_⟩
    rw [q2, keep.2]
    exact (hs.S hp a b hc).2

end

end Verif.RoundedIcgem
