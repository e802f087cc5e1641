import Verif.Spec.StokesValue
import Verif.Proof.StokesOps
/- Helper lemmas: sets of Stokes coefficients as values. -/
namespace Verif.Stokes
open Verif Storage MatrixExpr

variable {α : Type}

theorem matVal_has {m : St × List α} {d r : Nat} {f : Nat → Nat → α} (h : MatVal m d r f) {i j : Nat} (hj : j ≤ i)
    (hi : i < r) : m.1.HasElement i j := by
  have := h.2.1
  exact has_tri h.1.1 h.1.2.1 (by omega) (by omega) (by omega)

/-- every well-formed matrix holds something -/
theorem matVal_exists {m : St × List α} {d : Nat} (h : MatOk m d) : ∃ f, MatVal m d m.1.rows f := by
  have key : ∀ i j : Nat, j ≤ i → i < m.1.rows → ∃ v, m.2[(m.1.index i j).toNat]? = some v := by
    intro i j hj hi
    have he := has_tri h.1 h.2.1 (n := i) (m := j) (by omega) (by omega) (by omega)
    have hb := index_in_bounds _ (matOk_wf h) _ _ he
    have hl := h.2.2.2
    exact ⟨m.2[(m.1.index i j).toNat]'(by omega), List.getElem?_eq_getElem _⟩
  obtain ⟨z, _⟩ := key 0 0 (by omega) (by have := h.2.2.1; omega)
  classical
  refine ⟨fun i j => if hc : j ≤ i ∧ i < m.1.rows then Classical.choose (key i j hc.1 hc.2) else z, h, rfl, ?_⟩
  intro i j hj hi
  simp only
  rw [dif_pos ⟨hj, hi⟩]
  exact Classical.choose_spec (key i j hj hi)

theorem matVal_congr {m : St × List α} {d r : Nat} {f g : Nat → Nat → α} (h : MatVal m d r f)
    (hg : ∀ i j, j ≤ i → i < r → g i j = f i j) : MatVal m d r g :=
  ⟨h.1, h.2.1, fun i j hj hi => by rw [hg i j hj hi]; exact h.2.2 i j hj hi⟩

/-- an object that is left alone keeps its value -/
theorem sees_other {s s' : S α} {i : Nat} {c : Coeffs α} (h : Sees s i c) (ho : s'.obj i = s.obj i)
    (h0 : s'.env (2 * i) = s.env (2 * i)) (h1 : s'.env (2 * i + 1) = s.env (2 * i + 1)) : Sees s' i c := by
  unfold Sees at *
  rw [ho, h0, h1]
  exact h

/-- replacing one object -/
theorem holds_set {s s' : S α} {v : Values α} (h : Holds s v) {k : Nat} {c : Coeffs α} (hk : Sees s' k c)
    (ho : ∀ i, i ≠ k → s'.obj i = s.obj i)
    (he : ∀ y, y ≠ 2 * k → y ≠ 2 * k + 1 → s'.env y = s.env y) : Holds s' (v.set k c) := by
  intro i
  unfold Values.set
  by_cases hi : i = k
  · subst hi
    simp only [if_true]
    exact ⟨fun e => (nomatch e), fun c' e => (by injection e with e; subst e; exact hk)⟩
  · simp only [if_neg hi]
    refine ⟨fun e => by rw [ho i hi]; exact (h i).1 e, fun c' e => ?_⟩
    exact sees_other ((h i).2 c' e) (ho i hi) (he _ (by omega) (by omega)) (he _ (by omega) (by omega))

theorem sees_put (s : S α) (k d o : Nat) (p q : St × List α) {c : Coeffs α} (hd : c.deg = d) (ho : c.ord = o)
    (hod : o ≤ d) (hp : MatVal p d c.rows c.C) (hq : MatVal q d c.rows c.S) : Sees (s.put k d o p q) k c :=
  ⟨d, o, by simp [put_obj], hd, ho, hod, by rw [put_C]; exact hp, by rw [put_S]; exact hq⟩

theorem holds_put {s : S α} {v : Values α} (h : Holds s v) (k d o : Nat) (p q : St × List α) {c : Coeffs α}
    (hd : c.deg = d) (ho : c.ord = o) (hod : o ≤ d) (hp : MatVal p d c.rows c.C) (hq : MatVal q d c.rows c.S) :
    Holds (s.put k d o p q) (v.set k c) :=
  holds_set h (sees_put s k d o p q hd ho hod hp hq) (fun i hi => by simp [put_obj, hi])
    fun _ h1 h2 => put_other _ _ _ _ _ _ h1 h2

/-- a live object has a value -/
theorem holds_live {s : S α} {v : Values α} (h : Holds s v) {k : Nat} {p : Nat × Nat} (hk : s.obj k = some p) :
    ∃ c, v k = some c ∧ Sees s k c ∧ c.deg = p.1 ∧ c.ord = p.2 ∧ p.2 ≤ p.1 ∧
      MatVal (s.env (2 * k)) p.1 c.rows c.C ∧ MatVal (s.env (2 * k + 1)) p.1 c.rows c.S := by
  cases hv : v k with
  | none => rw [(h k).1 hv] at hk; cases hk
  | some c =>
    have hs := (h k).2 c hv
    obtain ⟨d, o, h1, h2, h3, h4, h5, h6⟩ := hs
    rw [hk] at h1; injection h1 with h1; subst h1
    exact ⟨c, rfl, (h k).2 c hv, h2, h3, h4, h5, h6⟩

/-- contents of both matrices of a new set, in one function -/
theorem junk_exists {p q : St × List α} {d r : Nat} (hp : MatOk p d) (hq : MatOk q d) (h1 : p.1.rows = r)
    (h2 : q.1.rows = r) :
    ∃ J : Nat → Nat → α, MatVal p d r J ∧ MatVal q d r fun i j => J j (i + 1) := by
  obtain ⟨f, hf⟩ := matVal_exists hp
  obtain ⟨g, hg⟩ := matVal_exists hq
  rw [h1] at hf
  rw [h2] at hg
  refine ⟨fun i j => if j ≤ i then f i j else g (j - 1) i, matVal_congr hf ?_, matVal_congr hg ?_⟩
  · intro i j hj _
    simp [hj]
  · intro i j hj _
    simp only
    rw [if_neg (by omega)]
    simp

theorem matVal_cresize {m m' : St × List α} {d0 r0 d : Nat} {f g : Nat → Nat → α} (h : MatVal m d0 r0 f)
    (hm : MatVal m' d (d + 1) g)
    (hk : ∀ n j : Int, m.1.HasElement n j → m'.1.HasElement n j →
      m'.2[(m'.1.index n j).toNat]? = m.2[(m.1.index n j).toNat]?) :
    MatVal m' d (d + 1) fun i j => if i < r0 then f i j else g i j := by
  refine ⟨hm.1, hm.2.1, fun i j hj hi => ?_⟩
  by_cases hr : i < r0
  · simp only [if_pos hr]
    rw [hk i j (matVal_has h hj hr) (matVal_has hm hj hi)]
    exact h.2.2 i j hj hr
  · simp only [if_neg hr]
    exact hm.2.2 i j hj hi

theorem matVal_mono {m : St × List α} {d d' r : Nat} {f : Nat → Nat → α} (h : MatVal m d r f) (hd : d' ≤ d) :
    MatVal m d' r f := ⟨matOk_mono h.1 hd, h.2⟩

theorem matVal_clear [Zero α] {m : St × List α} {d r : Nat} {f : Nat → Nat → α} (h : MatVal m d r f) :
    MatVal (m.1, List.replicate m.2.length (0 : α)) d r fun _ _ => 0 := by
  refine ⟨⟨h.1.1, h.1.2.1, h.1.2.2.1, by simpa using h.1.2.2.2⟩, h.2.1, fun i j hj hi => ?_⟩
  have hbd := index_in_bounds _ (matOk_wf h.1) _ _ (matVal_has h hj hi)
  have := h.1.2.2.2
  simp only
  rw [List.getElem?_replicate, if_pos (by omega)]

theorem matVal_multiply [Mul α] {m : St × List α} {d r : Nat} {f : Nat → Nat → α} (h : MatVal m d r f) (x : α) :
    MatVal (mmultiply m x) d r fun i j => f i j * x := by
  refine ⟨mmultiply_matOk h.1 x, h.2.1, fun i j hj hi => ?_⟩
  have hbd := index_in_bounds _ (matOk_wf h.1) _ _ (matVal_has h hj hi)
  have := h.1.2.2.2
  simp only [mmultiply]
  rw [List.getElem?_append_left (by simp; omega), List.getElem?_map, List.getElem?_take, if_pos (by omega),
    h.2.2 i j hj hi]
  rfl

theorem matVal_copy {m q : St × List α} {d r : Nat} {f : Nat → Nat → α} (h : MatVal m d r f) :
    MatVal (mcopy q m) d r f := by
  refine ⟨mcopy_matOk h.1, ?_, fun i j hj hi => ?_⟩
  · unfold mcopy; split <;> exact h.2.1
  · have hbd := index_in_bounds _ (matOk_wf h.1) _ _ (matVal_has h hj hi)
    have hl := h.1.2.2.2
    have hv := h.2.2 i j hj hi
    unfold mcopy
    split
    · simp only
      rw [List.getElem?_take, if_pos (by omega), hv]
    · simp only
      rw [List.getElem?_append_left (by simp; omega), List.getElem?_take, if_pos (by omega), hv]

/-- changing one element of the matrix `x` -/
theorem matVal_agree {env env' : Env α} {x : Nat} (ha : Agree x env env') {d r : Nat} {f g : Nat → Nat → α}
    (h : MatVal (env x) d r f)
    (hg : ∀ i j : Nat, j ≤ i → i < r → entry env' x i j = some (g i j)) : MatVal (env' x) d r g :=
  ⟨agree_matOk ha h.1, by rw [ha.2.1]; exact h.2.1, fun i j hj hi => hg i j hj hi⟩

end Verif.Stokes
