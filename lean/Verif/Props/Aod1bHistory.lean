import Verif.Proof.Aod1bHistory
/-
C35: every history of queries to a dealiasing stream.
-/
namespace Verif.Aod1b
open Verif.Chars Verif.Icgem

variable {T : Type} {E : Env T} [LinearOrder T]

/-- C35 for every sequence of queries to a stream on a file, or on the first of a series of files, with at least four data sets each: each query is
answered or refused, as the machine of the specification says, and never ends in undefined behaviour. -/
theorem stream_history (hday : StrictMono E.day) {d : Ds T} {sets : List (DataSet T)} {later : List (List (DataSet T))}
    (hfile : FileOf E.date E.ty d.a sets) (hlen : 4 ≤ sets.length) (hc : Chron E.min (sets ++ later.flatten)) (hnew : d.New)
    (hfirst : ∀ s ∈ sets.head?, d.a.first = s.epoch) (hmore : d.dir = true ∧ Series E.date E.ty E.feed d.a later ∨ d.dir = false ∧ later = [])
    (qs : List (T × Coeffs ℝ)) (hq : ∀ q ∈ qs, Fits d.a.maxDegree q.2) :
    ∃ d0 w, Ds.init E d = .ok (0, d0) ∧ Window.top sets = some w ∧ ∃ rs d', Ds.run E qs d0 = .ok (rs, d') ∧ rs.length = qs.length ∧
      List.Forall₂ (fun (qr : (T × Coeffs ℝ) × (Int × Coeffs ℝ)) ans => Answered E.day d.a.maxDegree qr.1 qr.2 ans) (qs.zip rs)
        (Desk.answers E.min ⟨sets, w, later⟩ (qs.map Prod.fst)) := by
  obtain ⟨d0, w, e0, ha, hw, hk⟩ := keeps_start hfile hlen hc hnew hfirst hmore
  have h := history_run hday qs d0 _ hk (by rw [ha]; exact hq)
  rw [ha] at h
  exact ⟨d0, w, e0, hw, h⟩

theorem forall₂_answered {day : T → ℝ} {n : Int} {P : T → Option (DataSet T × DataSet T) → Prop} {R : T × Coeffs ℝ → Int × Coeffs ℝ → Prop}
    (hR : ∀ q r ans, Answered day n q r ans → P q.1 ans → R q r) : ∀ (qs : List (T × Coeffs ℝ)) (rs : List (Int × Coeffs ℝ)) (as : List (Option (DataSet T × DataSet T))),
    rs.length = qs.length → List.Forall₂ (fun (qr : (T × Coeffs ℝ) × (Int × Coeffs ℝ)) ans => Answered day n qr.1 qr.2 ans) (qs.zip rs) as →
    List.Forall₂ P (qs.map Prod.fst) as → List.Forall₂ R qs rs
  | [], [], _, _, _, _ => .nil
  | [], _ :: _, _, hl, _, _ => by simp at hl
  | _ :: _, [], _, hl, _, _ => by simp at hl
  | _ :: _, _ :: _, [], _, hr, _ => by simp at hr
  | q :: qs, r :: rs, a :: as, hl, hr, hs => by
    simp only [List.zip_cons_cons, List.forall₂_cons, List.map_cons] at hr hs
    exact .cons (hR q r a hr.1 hs.1) (forall₂_answered hR qs rs as (by simpa using hl) hr.2 hs.2)

/-- C35 for every sequence of queries to a stream on a file: a query either is refused, with status 1 and the caller's set as it was, or gives the
values at its epoch of the lines through two data sets of the file, the earlier of them not after the query. Queries before the first data set
are refused. Missing: that the two are adjacent and around the query (`stream_jump_fails`, `stream_gap_fails`), and that no query within
the file is refused (`stream_exact_fails`). -/
theorem stream_history_partial (hday : StrictMono E.day) {d : Ds T} {sets : List (DataSet T)} (hfile : FileOf E.date E.ty d.a sets)
    (hlen : 4 ≤ sets.length) (hc : Chron E.min sets) (hnew : d.New) (hfirst : ∀ s ∈ sets.head?, d.a.first = s.epoch) (hdir : d.dir = false)
    (qs : List (T × Coeffs ℝ)) (hq : ∀ q ∈ qs, Fits d.a.maxDegree q.2) :
    ∃ d0, Ds.init E d = .ok (0, d0) ∧ ∃ rs d', Ds.run E qs d0 = .ok (rs, d') ∧
      List.Forall₂ (fun q r => (r.1 = 1 ∧ r.2 = q.2) ∨
        (r.1 = 0 ∧ d.a.first ≤ q.1 ∧ ∃ s1 ∈ sets, ∃ s2 ∈ sets, s1.epoch ≤ q.1 ∧ s1.epoch < s2.epoch ∧ OnLine E.day d.a.maxDegree q.1 s1 s2 q.2 r.2)) qs rs := by
  obtain ⟨d0, w, e0, hw, rs, d', e, hl, hr⟩ := stream_history hday (later := []) hfile hlen (by simpa using hc) hnew hfirst (Or.inr ⟨hdir, rfl⟩) qs hq
  refine ⟨d0, e0, rs, d', e, ?_⟩
  obtain ⟨m0, m1, m2, mr⟩ := top_all (P := fun s => s ∈ sets) (fun _ hs => hs) hw
  refine forall₂_answered (P := fun _ ans => ∀ a b, ans = some (a, b) → a ∈ sets ∧ b ∈ sets) ?_ qs rs _ hl hr
    (answers_all (fun k t h => answer_one hc k t h) _ _ ⟨rfl, rfl, m0, m1, Or.inl m2, mr⟩)
  intro q r ans h1 h2
  cases ans with
  | none => exact Or.inl h1
  | some p =>
    obtain ⟨s1, s2⟩ := p
    obtain ⟨k1, k2, k3, k4⟩ := h1
    obtain ⟨g1, g2⟩ := h2 s1 s2 rfl
    refine Or.inr ⟨k1, ?_, s1, g1, s2, g2, k2, k3, k4⟩
    obtain ⟨x0, x1, x2, x3, xs, rfl⟩ := four hlen
    rw [hfirst x0 (by simp)]
    rcases List.mem_cons.mp g1 with rfl | g1
    · exact k2
    · exact (((List.pairwise_cons.mp hc.1).1 s1 g1).trans_le k2).le

/-- C35 for every sequence of queries to a stream on the first of a series of files: a query either is refused, with status 1 and the caller's set as it
was, or gives the values at its epoch of the lines through two data sets in order, the first not after the query, each of them a data
set of the series or the records of one under the epoch that marks the end. Missing: that the marked ones are never used (`stream_marked_fails`), and what
is missing for a single file. -/
theorem stream_series_partial (hday : StrictMono E.day) {d : Ds T} {sets : List (DataSet T)} {later : List (List (DataSet T))}
    (hfile : FileOf E.date E.ty d.a sets) (hlen : 4 ≤ sets.length) (hc : Chron E.min (sets ++ later.flatten)) (hnew : d.New)
    (hfirst : ∀ s ∈ sets.head?, d.a.first = s.epoch) (hdir : d.dir = true) (hser : Series E.date E.ty E.feed d.a later)
    (qs : List (T × Coeffs ℝ)) (hq : ∀ q ∈ qs, Fits d.a.maxDegree q.2) :
    ∃ d0, Ds.init E d = .ok (0, d0) ∧ ∃ rs d', Ds.run E qs d0 = .ok (rs, d') ∧
      List.Forall₂ (fun q r => (r.1 = 1 ∧ r.2 = q.2) ∨
        (r.1 = 0 ∧ ∃ s1 s2, Origin E.min (sets ++ later.flatten) s1 ∧ Origin E.min (sets ++ later.flatten) s2 ∧ s1.epoch ≤ q.1 ∧ s1.epoch < s2.epoch ∧
          OnLine E.day d.a.maxDegree q.1 s1 s2 q.2 r.2)) qs rs := by
  obtain ⟨d0, w, e0, hw, rs, d', e, hl, hr⟩ := stream_history hday hfile hlen hc hnew hfirst (Or.inl ⟨hdir, hser⟩) qs hq
  refine ⟨d0, e0, rs, d', e, ?_⟩
  refine forall₂_answered (P := fun _ ans => ∀ a b, ans = some (a, b) → Origin E.min (sets ++ later.flatten) a ∧ Origin E.min (sets ++ later.flatten) b)
    ?_ qs rs _ hl hr (answers_all (fun k t h => answer_origin (all := sets ++ later.flatten) k t h) _ _ ⟨fun s hs => List.mem_append_left _ hs,
      fun f hf s hs => List.mem_append_right _ (List.mem_flatten.mpr ⟨f, hf, hs⟩), top_all (fun s hs => Or.inl (List.mem_append_left _ hs)) hw⟩)
  intro q r ans h1 h2
  cases ans with
  | none => exact Or.inl h1
  | some p =>
    obtain ⟨s1, s2⟩ := p
    obtain ⟨k1, k2, k3, k4⟩ := h1
    obtain ⟨g1, g2⟩ := h2 s1 s2 rfl
    exact Or.inr ⟨k1, s1, s2, g1, g2, k2, k3, k4⟩

/-- Any queries at all on the small file. -/
example (h : Hdr Nat) (qs : List Nat) : ∃ d0, Ds.init smallEnv (smallStream h) = .ok (0, d0) ∧ ∃ rs d', Ds.run smallEnv (qs.map fun t => (t, zeroSet)) d0 = .ok (rs, d') ∧
    List.Forall₂ (fun q r => (r.1 = 1 ∧ r.2 = q.2) ∨ (r.1 = 0 ∧ 1 ≤ q.1 ∧
      ∃ s1 ∈ smallSets, ∃ s2 ∈ smallSets, s1.epoch ≤ q.1 ∧ s1.epoch < s2.epoch ∧ OnLine smallEnv.day 0 q.1 s1 s2 q.2 r.2)) (qs.map fun t => (t, zeroSet)) rs :=
  stream_history_partial smallEnv_day (d := smallStream h) smallFile_sets (by simp [smallSets]) smallSets_chron
    ⟨⟨rfl, rfl, rfl⟩, ⟨rfl, rfl, rfl⟩, ⟨rfl, rfl, rfl⟩⟩ (by simp [smallSets, oneSet, smallStream, smallFile, digitFile]) rfl _
    (by simp [Fits, zeroSet, smallStream, smallFile, digitFile])

/-- C35 fails: on every file with four or more data sets, the first query after initialisation is refused if it is at the very epoch of the fourth
data set. -/
theorem stream_exact_fails (hday : StrictMono E.day) {d : Ds T} {x0 x1 x2 x3 : DataSet T} {xs : List (DataSet T)}
    (hfile : FileOf E.date E.ty d.a (x0 :: x1 :: x2 :: x3 :: xs)) (hc : Chron E.min (x0 :: x1 :: x2 :: x3 :: xs)) (hnew : d.New)
    (hfirst : d.a.first = x0.epoch) (hdir : d.dir = false) (cs : Coeffs ℝ) (hf : Fits d.a.maxDegree cs) :
    ∃ d0, Ds.init E d = .ok (0, d0) ∧ ∃ d', Ds.run E [(x3.epoch, cs)] d0 = .ok ([(1, cs)], d') := by
  obtain ⟨d0, w, e0, hw, rs, d', e, hl, hr⟩ := stream_history hday (later := []) hfile (by simp) (by simpa using hc) hnew (by simpa using hfirst)
    (Or.inr ⟨hdir, rfl⟩) [(x3.epoch, cs)] (by simpa using hf)
  refine ⟨d0, e0, d', ?_⟩
  rw [e]
  obtain rfl := Option.some.inj hw
  have hp := hc.1
  simp only [List.pairwise_cons, List.mem_cons] at hp
  have p13 : x1.epoch < x3.epoch := hp.2.1 x3 (by simp)
  have p23 : x2.epoch < x3.epoch := hp.2.2.1 x3 (by simp)
  match rs, hl with
  | [r], _ =>
    have a : Desk.answers E.min ⟨x0 :: x1 :: x2 :: x3 :: xs, ⟨x0, x1, x2, x3 :: xs⟩, []⟩ [x3.epoch] = [none] := by
      simp [Desk.answers, Desk.answer, Window.seek, Window.look, Window.forward, not_lt.mpr p13.le, not_lt.mpr p23.le, p23.le]
    simp only [List.map_cons, List.map_nil] at hr
    rw [a] at hr
    simp only [List.zip_cons_cons, List.zip_nil_right, List.forall₂_cons] at hr
    obtain ⟨⟨k1, k2⟩, -⟩ := hr
    obtain ⟨r1, r2⟩ := r
    simp only at k1 k2
    rw [k1, k2]

/-- C35: after a query that ran ahead of the buffered data sets, queries between the first and the fourth data set are
interpolated between these two, whatever lies between them. -/
theorem stream_gap (hday : StrictMono E.day) {d : Ds T} {x0 x1 x2 x3 : DataSet T} {xs : List (DataSet T)}
    (hfile : FileOf E.date E.ty d.a (x0 :: x1 :: x2 :: x3 :: xs)) (hc : Chron E.min (x0 :: x1 :: x2 :: x3 :: xs)) (hnew : d.New)
    (hfirst : d.a.first = x0.epoch) (hdir : d.dir = false) {t t' : T} (ht : x3.epoch < t) (h1 : x0.epoch ≤ t') (h2 : t' < x3.epoch)
    (cs : Coeffs ℝ) (hf : Fits d.a.maxDegree cs) :
    ∃ d0, Ds.init E d = .ok (0, d0) ∧ ∃ d' r r', Ds.run E [(t, cs), (t', cs)] d0 = .ok ([(0, r), (0, r')], d') ∧
      OnLine E.day d.a.maxDegree t' x0 x3 cs r' := by
  have hp := hc.1
  simp only [List.pairwise_cons, List.mem_cons] at hp
  have p13 : x1.epoch < x3.epoch := hp.2.1 x3 (by simp)
  have p23 : x2.epoch < x3.epoch := hp.2.2.1 x3 (by simp)
  obtain ⟨d0, w, e0, hw, rs, d', e, hl, hr⟩ := stream_history hday (later := []) hfile (by simp) (by simpa using hc) hnew (by simpa using hfirst)
    (Or.inr ⟨hdir, rfl⟩) [(t, cs), (t', cs)] (by simpa using hf)
  refine ⟨d0, e0, d', ?_⟩
  rw [e]
  obtain rfl := Option.some.inj hw
  match rs, hl with
  | [r, r'], _ =>
    have a : Desk.answers E.min ⟨x0 :: x1 :: x2 :: x3 :: xs, ⟨x0, x1, x2, x3 :: xs⟩, []⟩ [t, t'] = [some (x0, x3), some (x0, x3)] := by
      cases xs <;> simp [Desk.answers, Desk.answer, Window.seek, Window.look, Window.forward, not_lt.mpr (p13.trans ht).le, not_lt.mpr (p23.trans ht).le,
        (p23.trans ht).le, ht.not_gt, ht.ne', h1, h2]
    simp only [List.map_cons, List.map_nil] at hr
    rw [a] at hr
    simp only [List.zip_cons_cons, List.zip_nil_right, List.forall₂_cons] at hr
    obtain ⟨⟨k1, -⟩, ⟨k2, -, -, k3⟩, -⟩ := hr
    obtain ⟨r1, r2⟩ := r
    obtain ⟨r1', r2'⟩ := r'
    simp only at k1 k2 k3
    exact ⟨r2, r2', by rw [k1, k2], k3⟩

/-- C35: at the end of a file of four data sets, with another file to follow: a query after the last data set of the file, asked twice, is answered
first on the line through the first and the last data set of the file; then on the line through the first data set of the next file and the
records of the third data set of this one taken at the epoch that marks the end. -/
theorem stream_marked (hday : StrictMono E.day) {d : Ds T} {x0 x1 x2 x3 y0 y1 y2 y3 : DataSet T} {ys : List (DataSet T)} {later : List (List (DataSet T))}
    (hfile : FileOf E.date E.ty d.a [x0, x1, x2, x3]) (hc : Chron E.min ([x0, x1, x2, x3] ++ ((y0 :: y1 :: y2 :: y3 :: ys) :: later).flatten)) (hnew : d.New)
    (hfirst : d.a.first = x0.epoch) (hdir : d.dir = true) (hser : Series E.date E.ty E.feed d.a ((y0 :: y1 :: y2 :: y3 :: ys) :: later))
    {t : T} (h1 : x3.epoch < t) (h2 : t < y0.epoch) (cs : Coeffs ℝ) (hf : Fits d.a.maxDegree cs) :
    ∃ d0, Ds.init E d = .ok (0, d0) ∧ ∃ d' r r', Ds.run E [(t, cs), (t, cs)] d0 = .ok ([(0, r), (0, r')], d') ∧
      OnLine E.day d.a.maxDegree t x0 x3 cs r ∧ OnLine E.day d.a.maxDegree t ⟨E.min, x2.rows⟩ y0 cs r' := by
  obtain ⟨d0, w, e0, hw, rs, d', e, hl, hr⟩ := stream_history hday hfile (by simp) hc hnew (by simpa using hfirst)
    (Or.inl ⟨hdir, hser⟩) [(t, cs), (t, cs)] (by simpa using hf)
  refine ⟨d0, e0, d', ?_⟩
  rw [e]
  obtain rfl := Option.some.inj hw
  have hp := hc.1
  simp only [List.cons_append, List.pairwise_cons, List.mem_cons] at hp
  have p03 : x0.epoch < t := (hp.1 x3 (by simp)).trans h1
  have p13 : x1.epoch < t := (hp.2.1 x3 (by simp)).trans h1
  have p23 : x2.epoch < t := (hp.2.2.1 x3 (by simp)).trans h1
  have m3 : E.min < t := (hc.2 x3 (by simp)).trans h1
  match rs, hl with
  | [r, r'], _ =>
    have a : Desk.answers E.min ⟨[x0, x1, x2, x3], ⟨x0, x1, x2, [x3]⟩, (y0 :: y1 :: y2 :: y3 :: ys) :: later⟩ [t, t] =
        [some (x0, x3), some (⟨E.min, x2.rows⟩, y0)] := by
      simp [Desk.answers, Desk.answer, Window.seek, Window.look, Window.forward, not_lt.mpr p03.le, not_lt.mpr p13.le, not_lt.mpr p23.le, p23.le,
        h1.not_gt, h1.ne', m3.le, m3.not_gt, h2]
    simp only [List.map_cons, List.map_nil] at hr
    rw [a] at hr
    simp only [List.zip_cons_cons, List.zip_nil_right, List.forall₂_cons] at hr
    obtain ⟨⟨k1, -, -, k4⟩, ⟨k2, -, -, k3⟩, -⟩ := hr
    obtain ⟨r1, r2⟩ := r
    obtain ⟨r1', r2'⟩ := r'
    simp only at k1 k2 k3 k4
    exact ⟨r2, r2', by rw [k1, k2], k4, k3⟩

/-- C35 fails: on the small file the query at 4 after one at 8 has the value 1/2, where the data sets around it, at 3 and 5, have the value zero; asked
first it has the value zero. -/
theorem stream_gap_fails (h : Hdr Nat) : ∃ d0, Ds.init smallEnv (smallStream h) = .ok (0, d0) ∧
    (∃ d' r r', Ds.run smallEnv [(8, zeroSet), (4, zeroSet)] d0 = .ok ([(0, r), (0, r')], d') ∧ r'.C 0 0 = 1 / 2) ∧
    ∃ d' r, Ds.run smallEnv [(4, zeroSet)] d0 = .ok ([(0, r)], d') ∧ r.C 0 0 = 0 := by
  have hnew : (smallStream h).New := ⟨⟨rfl, rfl, rfl⟩, ⟨rfl, rfl, rfl⟩, ⟨rfl, rfl, rfl⟩⟩
  obtain ⟨d0, e0, d', r, r', e, hl⟩ := stream_gap smallEnv_day (d := smallStream h) (t := 8) (t' := 4) smallFile_sets smallSets_chron hnew rfl rfl
    (by simp [oneSet]) (by simp [oneSet]) (by simp [oneSet]) zeroSet (by simp [Fits, zeroSet, smallStream, smallFile, digitFile])
  obtain ⟨d0', w, e0', hw, rs, d2, e2, hl2, hr⟩ := stream_history smallEnv_day (d := smallStream h) (later := []) smallFile_sets (by simp [smallSets])
    (by simpa using smallSets_chron) hnew (by simp [smallSets, oneSet, smallStream, smallFile, digitFile]) (Or.inr ⟨rfl, rfl⟩) [(4, zeroSet)]
    (by simp [Fits, zeroSet, smallStream, smallFile, digitFile])
  obtain rfl : d0 = d0' := by rw [e0] at e0'; simpa using e0'
  obtain rfl := Option.some.inj hw
  refine ⟨d0, e0, ⟨d', r, r', e, ?_⟩, d2, ?_⟩
  · rw [(hl.2.2.2 0 0 (le_refl _) (by simp [zeroSet]) (by simp [zeroSet])).1]
    simp [lineAt, lastValue, oneSet, smallEnv, smallStream, smallFile, digitFile, Row.In]
    norm_num
  · match rs, hl2 with
    | [q], _ =>
      have a : Desk.answers smallEnv.min ⟨smallSets, ⟨oneSet '1' true, oneSet '3' false, oneSet '5' false, [oneSet '7' false, oneSet '9' false]⟩, []⟩ [4] =
          [some (oneSet '3' false, oneSet '5' false)] := by
        simp [Desk.answers, Desk.answer, Window.seek, Window.look, oneSet]
      simp only [List.map_cons, List.map_nil] at hr
      rw [a] at hr
      simp only [List.zip_cons_cons, List.zip_nil_right, List.forall₂_cons] at hr
      obtain ⟨⟨k1, -, -, k2⟩, -⟩ := hr
      refine ⟨q.2, by rw [e2, ← k1], ?_⟩
      rw [(k2.2.2.2 0 0 (le_refl _) (by simp [zeroSet]) (by simp [zeroSet])).1]
      simp [lineAt, lastValue, oneSet, smallEnv, smallStream, smallFile, digitFile, Row.In]

/-- The query at 7 on the small file. -/
example (h : Hdr Nat) : ∃ d0, Ds.init smallEnv (smallStream h) = .ok (0, d0) ∧ ∃ d', Ds.run smallEnv [(7, zeroSet)] d0 = .ok ([(1, zeroSet)], d') :=
  stream_exact_fails smallEnv_day (d := smallStream h) smallFile_sets smallSets_chron ⟨⟨rfl, rfl, rfl⟩, ⟨rfl, rfl, rfl⟩, ⟨rfl, rfl, rfl⟩⟩ rfl rfl zeroSet
    (by simp [Fits, zeroSet, smallStream, smallFile, digitFile])

/-- Two files: data sets at 1, 2, 3, 4, the third with the value one, and at 6, 7, 8, 9. -/
def dayOne : List (Char × Bool) := [('1', false), ('2', false), ('3', true), ('4', false)]
def dayTwo : List (Char × Bool) := [('6', false), ('7', false), ('8', false), ('9', false)]

/-- The second follows the first, and nothing the second. -/
noncomputable def daysEnv : Env Nat :=
  ⟨exDate, fun t => t, 0, .atm, fun a => .ok (if a.first = 1 then some { digitFile dayTwo with first := 6 } else none), fun _ _ => 0⟩

def daysStream (h : Hdr Nat) : Ds Nat :=
  ⟨digitFile dayOne, ⟨In.start (digitFile dayOne).text, h⟩, h, h, h, zeroSet, zeroSet, zeroSet, true⟩

theorem days_series (h : Hdr Nat) : Series daysEnv.date daysEnv.ty daysEnv.feed (daysStream h).a [digitSets dayTwo] :=
  .next (a' := { digitFile dayTwo with first := 6 }) (by simp [daysEnv, daysStream, digitFile, dayOne]) (digitFile_sets dayTwo (by decide) (by decide)) (by simp [digitSets, dayTwo])
    (by simp [digitSets, dayTwo, digitFile, oneSet]) rfl (.last (by simp [daysEnv, digitFile, dayTwo]))

/-- Any queries at all on the two files. -/
example (h : Hdr Nat) (qs : List Nat) : ∃ d0, Ds.init daysEnv (daysStream h) = .ok (0, d0) ∧ ∃ rs d', Ds.run daysEnv (qs.map fun t => (t, zeroSet)) d0 = .ok (rs, d') ∧
    List.Forall₂ (fun q r => (r.1 = 1 ∧ r.2 = q.2) ∨ (r.1 = 0 ∧ ∃ s1 s2, Origin 0 (digitSets dayOne ++ [digitSets dayTwo].flatten) s1 ∧
      Origin 0 (digitSets dayOne ++ [digitSets dayTwo].flatten) s2 ∧ s1.epoch ≤ q.1 ∧ s1.epoch < s2.epoch ∧ OnLine daysEnv.day 0 q.1 s1 s2 q.2 r.2))
      (qs.map fun t => (t, zeroSet)) rs :=
  stream_series_partial (E := daysEnv) (fun a b h => by simpa [daysEnv] using h) (d := daysStream h) (digitFile_sets _ (by decide) (by decide))
    (by simp [digitSets, dayOne]) (by simp [Chron, digitSets, oneSet, daysEnv, dayOne, dayTwo]) ⟨⟨rfl, rfl, rfl⟩, ⟨rfl, rfl, rfl⟩, ⟨rfl, rfl, rfl⟩⟩
    (by simp [digitSets, dayOne, daysStream, digitFile, oneSet]) rfl (days_series h) _ (by simp [Fits, zeroSet, daysStream, digitFile])

/-- C35 fails: on two files with data sets at 1, 2, 3, 4 and 6, 7, 8, 9, the query at 5 is between data sets that have the value zero at 4 and 6. Asked twice
it has the value zero, then the value 1/6, from the data set at 3 taken at the mark, here 0. -/
theorem stream_marked_fails (h : Hdr Nat) : ∃ d0, Ds.init daysEnv (daysStream h) = .ok (0, d0) ∧ ∃ d' r r',
    Ds.run daysEnv [(5, zeroSet), (5, zeroSet)] d0 = .ok ([(0, r), (0, r')], d') ∧ r.C 0 0 = 0 ∧ r'.C 0 0 = 1 / 6 := by
  obtain ⟨d0, e0, d', r, r', e, h1, h2⟩ := stream_marked (E := daysEnv) (fun a b h => by simpa [daysEnv] using h) (d := daysStream h) (t := 5)
    (x0 := oneSet '1' false) (x1 := oneSet '2' false) (x2 := oneSet '3' true) (x3 := oneSet '4' false)
    (digitFile_sets dayOne (by decide) (by decide)) (by simp [Chron, digitSets, oneSet, daysEnv, dayOne, dayTwo])
    ⟨⟨rfl, rfl, rfl⟩, ⟨rfl, rfl, rfl⟩, ⟨rfl, rfl, rfl⟩⟩ rfl rfl (days_series h) (by simp [oneSet]) (by simp [oneSet]) zeroSet
    (by simp [Fits, zeroSet, daysStream, digitFile])
  refine ⟨d0, e0, d', r, r', e, ?_, ?_⟩
  · rw [(h1.2.2.2 0 0 (le_refl _) (by simp [zeroSet]) (by simp [zeroSet])).1]
    simp [lineAt, lastValue, oneSet, daysEnv, daysStream, digitFile, Row.In]
  · rw [(h2.2.2.2 0 0 (le_refl _) (by simp [zeroSet]) (by simp [zeroSet])).1]
    simp [lineAt, lastValue, oneSet, daysEnv, daysStream, digitFile, Row.In]
    norm_num

end Verif.Aod1b
