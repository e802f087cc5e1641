import Verif.Proof.RoundedAod1b
import Verif.Proof.RoundNearest
import Verif.Props.Aod1bHistory
/-
C116: dealiasing coefficients in double precision, after every history of queries.
-/
namespace Verif.RoundedAod1b
open Verif Verif.Aod1b Verif.Chars Verif.Icgem Verif.Rounding

section
variable {T : Type} [LinearOrder T] {fl : Rounded.Arith} (hf : Faithful fl) {dd : T → T → ℝ} {E : Env T} (hdd : DayDifference E.day dd)
include hf hdd

/-- C116: queries to a stream in double precision, on a file or on the first of a series of files: each is answered or refused as the machine of the
specification says (the same as in exact arithmetic, `stream_history`), and an answer is on the lines through the values of two data sets up to rounding. -/
theorem stream_rounded (hday : StrictMono E.day) {d : Ds T} {sets : List (DataSet T)} {later : List (List (DataSet T))}
    (hfile : FileOf E.date E.ty d.a sets) (hlen : 4 ≤ sets.length) (hc : Chron E.min (sets ++ later.flatten)) (hnew : d.New)
    (hfirst : ∀ s ∈ sets.head?, d.a.first = s.epoch) (hmore : d.dir = true ∧ Series E.date E.ty E.feed d.a later ∨ d.dir = false ∧ later = [])
    (qs : List (T × Coeffs ℝ)) (hq : ∀ q ∈ qs, Fits d.a.maxDegree q.2) :
    ∃ d0 w, Ds.init E d = .ok (0, d0) ∧ Window.top sets = some w ∧ ∃ rs d', run fl dd E qs d0 = .ok (rs, d') ∧ rs.length = qs.length ∧
      List.Forall₂ (fun (qr : (T × Coeffs ℝ) × (Int × Coeffs ℝ)) ans => RoundedAod1b.Answered E.day d.a.maxDegree qr.1 qr.2 ans) (qs.zip rs)
        (Desk.answers E.min ⟨sets, w, later⟩ (qs.map Prod.fst)) := by
  obtain ⟨d0, w, e0, ha, hw, hk⟩ := keeps_start hfile hlen hc hnew hfirst hmore
  have h := history_run hf hdd hday qs d0 _ hk (by rw [ha]; exact hq)
  rw [ha] at h
  exact ⟨d0, w, e0, hw, h⟩

omit hf hdd in
theorem forall₂_answered {day : T → ℝ} {n : Int} {P : T → Option (DataSet T × DataSet T) → Prop} {R : T × Coeffs ℝ → Int × Coeffs ℝ → Prop}
    (hR : ∀ q r ans, RoundedAod1b.Answered day n q r ans → P q.1 ans → R q r) :
    ∀ (qs : List (T × Coeffs ℝ)) (rs : List (Int × Coeffs ℝ)) (as : List (Option (DataSet T × DataSet T))), rs.length = qs.length →
    List.Forall₂ (fun (qr : (T × Coeffs ℝ) × (Int × Coeffs ℝ)) ans => RoundedAod1b.Answered day n qr.1 qr.2 ans) (qs.zip rs) as →
    List.Forall₂ P (qs.map Prod.fst) as → List.Forall₂ R qs rs
  | [], [], _, _, _, _ => .nil
  | [], _ :: _, _, hl, _, _ => by simp at hl
  | _ :: _, [], _, hl, _, _ => by simp at hl
  | _ :: _, _ :: _, [], _, hr, _ => by simp at hr
  | q :: qs, r :: rs, a :: as, hl, hr, hs => by
    simp only [List.zip_cons_cons, List.forall₂_cons, List.map_cons] at hr hs
    exact .cons (hR q r a hr.1 hs.1) (forall₂_answered hR qs rs as (by simpa using hl) hr.2 hs.2)

/-- C116 for every sequence of queries to a stream on a file: a query either is refused, with status 1 and the caller's set as it was, or gives, up to
rounding, the values at its epoch of the lines through two data sets of the file, the earlier of them not after the query. Which data sets these are, and which
queries are refused, is C35. -/
theorem stream_rounded_file (hday : StrictMono E.day) {d : Ds T} {sets : List (DataSet T)} (hfile : FileOf E.date E.ty d.a sets)
    (hlen : 4 ≤ sets.length) (hc : Chron E.min sets) (hnew : d.New) (hfirst : ∀ s ∈ sets.head?, d.a.first = s.epoch) (hdir : d.dir = false)
    (qs : List (T × Coeffs ℝ)) (hq : ∀ q ∈ qs, Fits d.a.maxDegree q.2) :
    ∃ d0, Ds.init E d = .ok (0, d0) ∧ ∃ rs d', run fl dd E qs d0 = .ok (rs, d') ∧
      List.Forall₂ (fun q r => (r.1 = 1 ∧ r.2 = q.2) ∨
        (r.1 = 0 ∧ ∃ s1 ∈ sets, ∃ s2 ∈ sets, s1.epoch ≤ q.1 ∧ s1.epoch < s2.epoch ∧ NearLine E.day d.a.maxDegree q.1 s1 s2 q.2 r.2)) qs rs := by
  obtain ⟨d0, w, e0, hw, rs, d', e, hl, hr⟩ := stream_rounded hf hdd hday (later := []) hfile hlen (by simpa using hc) hnew hfirst (Or.inr ⟨hdir, rfl⟩) qs hq
  refine ⟨d0, e0, rs, d', e, ?_⟩
  obtain ⟨m0, m1, m2, mr⟩ := top_all (P := fun s => s ∈ sets) (fun _ hs => hs) hw
  refine forall₂_answered (P := fun _ ans => ∀ a b, ans = some (a, b) → a ∈ sets ∧ b ∈ sets) ?_ qs rs _ hl hr
    (answers_all (fun k t h => answer_one hc k t h) _ _ ⟨rfl, rfl, m0, m1, Or.inl m2, mr⟩)
  intro q r ans h1 h2
  cases ans with
  | none => exact Or.inl h1
  | some p =>
    obtain ⟨s1, s2⟩ := p
    obtain ⟨k1, k2, k3, k4⟩ := h1
    obtain ⟨g1, g2⟩ := h2 s1 s2 rfl
    exact Or.inr ⟨k1, s1, g1, s2, g2, k2, k3, k4⟩

/-- C116: every query answered in double precision is answered in exact arithmetic, with the same data sets, and conversely. -/
theorem stream_rounded_same (hday : StrictMono E.day) {d : Ds T} {sets : List (DataSet T)} {later : List (List (DataSet T))}
    (hfile : FileOf E.date E.ty d.a sets) (hlen : 4 ≤ sets.length) (hc : Chron E.min (sets ++ later.flatten)) (hnew : d.New)
    (hfirst : ∀ s ∈ sets.head?, d.a.first = s.epoch) (hmore : d.dir = true ∧ Series E.date E.ty E.feed d.a later ∨ d.dir = false ∧ later = [])
    (qs : List (T × Coeffs ℝ)) (hq : ∀ q ∈ qs, Fits d.a.maxDegree q.2) :
    ∃ d0 rs rs' d1 d2, Ds.init E d = .ok (0, d0) ∧ Ds.run E qs d0 = .ok (rs, d1) ∧ run fl dd E qs d0 = .ok (rs', d2) ∧
      rs'.map Prod.fst = rs.map Prod.fst := by
  obtain ⟨d0, w, e0, hw, rs', d2, e2, hl2, hr2⟩ := stream_rounded hf hdd hday hfile hlen hc hnew hfirst hmore qs hq
  obtain ⟨d0', w', e0', hw', rs, d1, e1, hl1, hr1⟩ := stream_history hday hfile hlen hc hnew hfirst hmore qs hq
  rw [e0] at e0'; obtain ⟨-, rfl⟩ := Prod.mk.inj (Res.ok.inj e0')
  rw [hw] at hw'; obtain rfl := Option.some.inj hw'
  refine ⟨d0, rs, rs', d1, d2, e0, e1, e2, ?_⟩
  clear e0 e1 e2 hq e0' hw'
  generalize Desk.answers E.min ⟨sets, w, later⟩ (qs.map Prod.fst) = as at hr1 hr2
  induction qs generalizing rs rs' as with
  | nil =>
    obtain rfl := List.length_eq_zero_iff.mp hl1
    obtain rfl := List.length_eq_zero_iff.mp hl2
    rfl
  | cons q qs ih =>
    match rs, rs', hl1, hl2 with
    | r :: rs, r' :: rs', hl1, hl2 =>
      match as, hr1, hr2 with
      | a :: as, hr1, hr2 =>
        simp only [List.zip_cons_cons, List.forall₂_cons] at hr1 hr2
        have := ih rs' (by simpa using hl2) rs (by simpa using hl1) as hr1.2 hr2.2
        simp only [List.map_cons, this, List.cons.injEq, and_true]
        have a1 := hr1.1; have a2 := hr2.1
        cases a with
        | none => exact a2.1.trans a1.1.symm
        | some p => exact a2.1.trans a1.1.symm

end

/-! ### A small file -/

/-- Epochs in whole days: their differences are exact. -/
theorem nat_days : DayDifference smallEnv.day (fun a b : Nat => (a : ℝ) - b) := fun a b => by
  have : (0 : ℝ) ≤ 4 * u * (|smallEnv.day a - smallEnv.day b| + 1) := by have := u_pos; positivity
  simpa [smallEnv] using this

/-- Any queries at all on the small file, rounded to nearest with any choice of fused products. -/
example (s : ℕ → Bool) (h : Hdr Nat) (qs : List Nat) : ∃ d0, Ds.init smallEnv (smallStream h) = .ok (0, d0) ∧
    ∃ rs d', run (rnArith s) (fun a b : Nat => (a : ℝ) - b) smallEnv (qs.map fun t => (t, zeroSet)) d0 = .ok (rs, d') ∧
    List.Forall₂ (fun q r => (r.1 = 1 ∧ r.2 = q.2) ∨ (r.1 = 0 ∧
      ∃ s1 ∈ smallSets, ∃ s2 ∈ smallSets, s1.epoch ≤ q.1 ∧ s1.epoch < s2.epoch ∧ NearLine smallEnv.day 0 q.1 s1 s2 q.2 r.2)) (qs.map fun t => (t, zeroSet)) rs :=
  stream_rounded_file (rn_faithful s) nat_days smallEnv_day (d := smallStream h) smallFile_sets (by simp [smallSets]) smallSets_chron
    ⟨⟨rfl, rfl, rfl⟩, ⟨rfl, rfl, rfl⟩, ⟨rfl, rfl, rfl⟩⟩ (by simp [smallSets, oneSet, smallStream, smallFile, digitFile]) rfl _
    (by simp [Fits, zeroSet, smallStream, smallFile, digitFile])

/-- A query halfway between the first two data sets, with values 1 and 0: one half, up to 27 half units in the last place of 1. -/
example (s : ℕ → Bool) (h : Hdr Nat) : ∃ d0, Ds.init smallEnv (smallStream h) = .ok (0, d0) ∧
    ∃ cs' d', run (rnArith s) (fun a b : Nat => (a : ℝ) - b) smallEnv [(2, zeroSet)] d0 = .ok ([(0, cs')], d') ∧ |cs'.C 0 0 - 1 / 2| ≤ 27 * u := by
  obtain ⟨d0, w, e0, hw, rs, d', e, hl, hr⟩ := stream_rounded (rn_faithful s) nat_days smallEnv_day (d := smallStream h) (later := []) smallFile_sets
    (by simp [smallSets]) (by simpa using smallSets_chron) ⟨⟨rfl, rfl, rfl⟩, ⟨rfl, rfl, rfl⟩, ⟨rfl, rfl, rfl⟩⟩
    (by simp [smallSets, oneSet, smallStream, smallFile, digitFile]) (Or.inr ⟨rfl, rfl⟩) [(2, zeroSet)]
    (by simp [Fits, zeroSet, smallStream, smallFile, digitFile])
  obtain rfl := Option.some.inj hw
  have a : Desk.answers smallEnv.min ⟨smallSets, ⟨oneSet '1' true, oneSet '3' false, oneSet '5' false, [oneSet '7' false, oneSet '9' false]⟩, []⟩ [2] =
      [some (oneSet '1' true, oneSet '3' false)] := by
    simp [Desk.answers, Desk.answer, Window.seek, Window.look, oneSet]
  match rs, hl with
  | [r], _ =>
    simp only [List.map_cons, List.map_nil] at hr
    erw [a] at hr
    simp only [List.zip_cons_cons, List.zip_nil_right, List.forall₂_cons] at hr
    obtain ⟨⟨k1, -, -, -, -, k⟩, -⟩ := hr
    obtain ⟨r1, cs'⟩ := r
    simp only at k1
    subst k1
    refine ⟨d0, e0, cs', d', e, ?_⟩
    have := (k (by simp [smallEnv, oneSet]; norm_num) 0 0 le_rfl (by simp [zeroSet]) (by simp [zeroSet])).1
    simp [slack, lineAt, smallEnv, oneSet, smallStream, smallFile, digitFile, lastValue, Row.In] at this
    norm_num at this ⊢
    linarith

end Verif.RoundedAod1b
