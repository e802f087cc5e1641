import Verif.Proof.Aod1bStream
import Mathlib.Tactic.NormNum
/-
The dealiasing stream: C35.
-/
namespace Verif.Aod1b
open Verif.Chars Verif.Icgem

variable {T : Type} [LinearOrder T] {E : Env T}

theorem position_iff {min : T} {sets p q : List (DataSet T)} {s : DataSet T} (h : Chron min sets) (he : sets = p ++ s :: q) (t : T) :
    s.epoch ≤ t ↔ p.length < position sets t := by
  have hp := h.1
  rw [he, List.pairwise_append, List.pairwise_cons] at hp
  obtain ⟨-, ⟨h2, -⟩, h3⟩ := hp
  unfold position
  rw [he, List.filter_append, List.length_append]
  constructor
  · intro hs
    have e : p.filter (fun s => decide (s.epoch ≤ t)) = p := by
      rw [List.filter_eq_self]
      intro x hx
      simpa using (h3 x hx s (by simp)).le.trans hs
    rw [e, List.filter_cons_of_pos (by simpa using hs)]
    simp
  · intro hl
    by_contra hs
    rw [not_le] at hs
    have e : (s :: q).filter (fun s => decide (s.epoch ≤ t)) = [] := by
      rw [List.filter_eq_nil_iff]
      intro x hx
      rcases List.mem_cons.mp hx with rfl | hx
      · simpa using hs
      · simpa using hs.trans (h2 x hx)
    rw [e] at hl
    have := List.length_filter_le (fun s : DataSet T => decide (s.epoch ≤ t)) p
    simp only [List.length_nil, Nat.add_zero] at hl
    omega

theorem position_lt {min : T} {sets p q : List (DataSet T)} {s : DataSet T} (h : Chron min sets) (he : sets = p ++ s :: q) (t : T) :
    t < s.epoch ↔ position sets t ≤ p.length := by
  rw [← not_le, position_iff h he t, not_lt]

/-- One query that steps on from buffers holding `s0, s1, s2`. -/
theorem step_forward (hday : StrictMono E.day) {sets past later : List (DataSet T)} {s0 s1 s2 : DataSet T} {fut : List (DataSet T)} {d : Ds T}
    (hc : Chron E.min sets) (he : sets = past ++ s0 :: s1 :: s2 :: (fut ++ later)) (hi : Inv E d s0 s1 s2 fut)
    (hdir : later ≠ [] → d.dir = true) (hfiles : Files E.date E.ty E.feed d.a later) {t : T}
    (h1 : past.length + 1 ≤ position sets t) (h2 : position sets t ≤ past.length + 3) (h3 : position sets t < sets.length)
    {cs : Coeffs ℝ} (hf : Fits d.a.maxDegree cs) :
    ∃ d' cs', Ds.coeffsAt E t d cs = .ok (0, d', cs') ∧ Interpolated E.day d.a.maxDegree sets t cs cs' ∧
      d'.a.maxDegree = d.a.maxDegree ∧ d'.dir = d.dir ∧ (later = [] → d'.a = d.a) ∧
      ∃ past' s0' s1' s2' fut' later', sets = past' ++ s0' :: s1' :: s2' :: (fut' ++ later') ∧ Inv E d' s0' s1' s2' fut' ∧
        Files E.date E.ty E.feed d'.a later' ∧ (later = [] → later' = []) ∧ past'.length + 1 ≤ position sets t ∧ position sets t ≤ past'.length + 2 := by
  have hp := hc.1
  rw [he, List.pairwise_append] at hp
  have hp2 := hp.2.1
  simp only [List.pairwise_cons, List.mem_cons] at hp2
  have p01 : s0.epoch < s1.epoch := hp2.1 s1 (by simp)
  have p12 : s1.epoch < s2.epoch := hp2.2.1 s2 (by simp)
  have hmin : ∀ s ∈ fut, E.min < s.epoch := fun s hs => hc.2 s (by rw [he]; simp [hs])
  have q0 : s0.epoch ≤ t := (position_iff hc he t).mpr (by omega)
  have e2 : sets = (past ++ [s0, s1]) ++ s2 :: (fut ++ later) := by rw [he]; simp
  have l2 := position_lt hc e2 t
  have e1 : sets = (past ++ [s0]) ++ s1 :: (s2 :: (fut ++ later)) := by rw [he]; simp
  have l1 := position_lt hc e1 t
  simp only [List.length_append, List.length_cons, List.length_nil] at l1 l2
  -- an upper bound from the position
  by_cases hfut : position sets t ≤ past.length + 2 ∨ fut ≠ []
  · have hub : t < s2.epoch ∨ ∃ s ∈ fut.head?, t < s.epoch := by
      by_cases hpos : position sets t ≤ past.length + 2
      · exact Or.inl (l2.mpr (by omega))
      · obtain ⟨s3, fut', rfl⟩ : ∃ s3 fut', fut = s3 :: fut' := by
          cases fut with
          | nil => simp at hfut; omega
          | cons x xs => exact ⟨x, xs, rfl⟩
        have e3 : sets = (past ++ [s0, s1, s2]) ++ s3 :: (fut' ++ later) := by rw [he]; simp
        have l3 := position_lt hc e3 t
        simp only [List.length_append, List.length_cons, List.length_nil] at l3
        exact Or.inr ⟨s3, by simp, l3.mpr (by omega)⟩
    rcases query_ok hday hi p01 p12 hmin q0 hub hf with ⟨cs', e, hl⟩ | ⟨d', cs', s3, fut', rfl, c1, c2, e, hl, hi', ha, hdir'⟩
    · refine ⟨d, cs', e, ?_, rfl, rfl, fun _ => rfl, past, s0, s1, s2, fut, later, he, hi, hfiles, id, h1, ?_⟩
      · rcases hl with ⟨hlt, hl⟩ | ⟨hge, hlt, hl⟩
        · exact ⟨s0, s1, ⟨past, _, he⟩, q0, hlt, hl⟩
        · exact ⟨s1, s2, ⟨past ++ [s0], fut ++ later, by rw [he]; simp⟩, hge, hlt, hl⟩
      · rcases hl with ⟨hlt, _⟩ | ⟨_, hlt, _⟩
        · have := l1.mp hlt; omega
        · have := l2.mp hlt; omega
    · have := (position_iff hc e2 t).mp c1
      simp only [List.length_append, List.length_cons, List.length_nil] at this
      refine ⟨d', cs', e, ⟨s2, s3, ⟨past ++ [s0, s1], fut' ++ later, by rw [he]; simp⟩, c1, c2, hl⟩, by rw [ha], hdir', fun _ => ha,
        past ++ [s0], s1, s2, s3, fut', later, by rw [he]; simp, hi', by rw [ha]; exact hfiles, id, ?_, ?_⟩
      · simp; omega
      · simp; omega
  · rw [not_or, not_not, not_le] at hfut
    obtain ⟨hpos, rfl⟩ := hfut
    rw [List.nil_append] at he e2
    cases hfiles with
    | last =>
      exfalso
      rw [he] at h3
      simp at h3
      rw [← he] at h3
      omega
    | @next _ a' sets' later' hfeed hfile hlen hsame hnext =>
      obtain ⟨x0, x1, xs, rfl⟩ : ∃ x0 x1 xs, sets' = x0 :: x1 :: xs := by
        rcases sets' with _ | ⟨x0, _ | ⟨x1, xs⟩⟩
        · simp at hlen
        · simp at hlen
        · exact ⟨x0, x1, xs, rfl⟩
      have c1 : s2.epoch ≤ t := (position_iff hc e2 t).mpr (by simp; omega)
      have e3 : sets = (past ++ [s0, s1, s2]) ++ x0 :: (x1 :: xs ++ later') := by rw [he]; simp
      have c2 : t < x0.epoch := (position_lt hc e3 t).mpr (by simp; omega)
      obtain ⟨d', cs', e, hl, hi', ha, hd⟩ := query_feed hday hi p12 p01 (hdir (by simp)) hfeed hfile hsame c1 c2 hf
      refine ⟨d', cs', e, ⟨s2, x0, ⟨past ++ [s0, s1], x1 :: xs ++ later', by rw [he]; simp⟩, c1, c2, hl⟩, by rw [ha, hsame],
        by rw [hd, hdir (by simp)], fun h => by simp at h, past ++ [s0], s1, s2, x0, x1 :: xs, later', by rw [he]; simp, hi',
        by rw [ha]; exact hnext, fun h => by simp at h, ?_, ?_⟩
      · simp; omega
      · simp; omega

/-- C35 for a file with at least four data sets, for every sequence of queries that never runs ahead more than to the next
interval of the file (backward queries may go anywhere among the first four data sets): initialisation succeeds, every query
succeeds and gives the linear interpolation between the adjacent data sets around its epoch. Missing: queries that jump
further, where the result is wrong (`stream_jump_fails`). -/
theorem stream_interpolates_partial (hday : StrictMono E.day) {d : Ds T} {sets : List (DataSet T)}
    (hfile : FileOf E.date E.ty d.a sets) (hlen : 4 ≤ sets.length) (hc : Chron E.min sets) (hnew : d.New)
    (hfirst : ∀ s ∈ sets.head?, d.a.first ≤ s.epoch) (qs : List (T × Coeffs ℝ)) (hq : Steps sets 0 (qs.map Prod.fst))
    (hfits : ∀ q ∈ qs, Fits d.a.maxDegree q.2) :
    ∃ d0, Ds.init E d = .ok (0, d0) ∧ ∃ rs d', Ds.run E qs d0 = .ok (rs, d') ∧
      List.Forall₂ (fun q r => r.1 = 0 ∧ Interpolated E.day d.a.maxDegree sets q.1 q.2 r.2) qs rs := by
  obtain ⟨x0, x1, x2, x3, xs, rfl⟩ : ∃ x0 x1 x2 x3 xs, sets = x0 :: x1 :: x2 :: x3 :: xs := by
    rcases sets with _ | ⟨x0, _ | ⟨x1, _ | ⟨x2, _ | ⟨x3, xs⟩⟩⟩⟩
    all_goals first | (simp at hlen; done) | exact ⟨_, _, _, _, _, rfl⟩
  obtain ⟨d0, e0, hi0, ha0, -⟩ := init_inv hfile hnew.1 hnew.2.1 hnew.2.2
  refine ⟨d0, by simpa using e0, ?_⟩
  set sets := x0 :: x1 :: x2 :: x3 :: xs with hsets
  -- the invariant: buffers somewhere in the file, the last query in them
  have key : ∀ (qs : List (T × Coeffs ℝ)) (p : Nat) (d1 : Ds T) (past : List (DataSet T)) (s0 s1 s2 : DataSet T) (fut : List (DataSet T)),
      d1.a = d.a → sets = past ++ s0 :: s1 :: s2 :: fut → Inv E d1 s0 s1 s2 fut →
      (p = 0 ∧ past = [] ∨ past.length + 1 ≤ p ∧ p ≤ past.length + 2) → Steps sets p (qs.map Prod.fst) →
      (∀ q ∈ qs, Fits d.a.maxDegree q.2) →
      ∃ rs d', Ds.run E qs d1 = .ok (rs, d') ∧
        List.Forall₂ (fun q r => r.1 = 0 ∧ Interpolated E.day d.a.maxDegree sets q.1 q.2 r.2) qs rs := by
    intro qs
    induction qs with
    | nil => intro p d1 _ _ _ _ _ _ _ _ _ _ _; exact ⟨[], d1, rfl, .nil⟩
    | cons q qs ih =>
      intro p d1 past s0 s1 s2 fut ha he hi hp hs hf
      obtain ⟨t, cs⟩ := q
      obtain ⟨k1, k2, k3, k4⟩ := hs
      simp only at k1 k2 k3 k4
      have hcs : Fits d.a.maxDegree cs := hf (t, cs) (by simp)
      have hf' : ∀ q ∈ qs, Fits d.a.maxDegree q.2 := fun q hq => hf q (by simp [hq])
      have hpw := hc.1
      rw [he, List.pairwise_append] at hpw
      have hpw2 := hpw.2.1
      simp only [List.pairwise_cons, List.mem_cons] at hpw2
      have p01 : s0.epoch < s1.epoch := hpw2.1 s1 (by simp)
      have p12 : s1.epoch < s2.epoch := hpw2.2.1 s2 (by simp)
      rw [Ds.run]
      by_cases hback : position sets t ≤ past.length
      · -- back to the start
        have hb : t < s0.epoch := (position_lt hc he t).mpr hback
        have h3 : position sets t ≤ 3 := by omega
        have hx0 : x0.epoch ≤ t := (position_iff hc (p := []) (q := x1 :: x2 :: x3 :: xs) rfl t).mpr (by simp; omega)
        have hx3 : t < x3.epoch := (position_lt hc (p := [x0, x1, x2]) (q := xs) rfl t).mpr (by simpa using h3)
        obtain ⟨d2, cs', e, ha2, hdir2, hint, hinv⟩ := query_back hday hi p01 p12 (by rw [ha]; exact hfile) hc hb
          (by rw [ha]; exact (hfirst x0 (by simp [hsets])).trans hx0) hx0 hx3 (by rw [ha]; exact hcs)
        rw [ha] at hint
        rcases hinv with ⟨hinv, hlt⟩ | ⟨hinv, hge⟩
        · have hlt := (position_lt hc (p := [x0, x1]) (q := x3 :: xs) rfl t).mp hlt
          obtain ⟨rs, d', er, hr⟩ := ih (position sets t) d2 [] x0 x1 x2 (x3 :: xs) (ha2.trans ha) rfl hinv
            (Or.inr ⟨by simpa using k1, by simpa using hlt⟩) k4 hf'
          refine ⟨(0, cs') :: rs, d', ?_, .cons ⟨rfl, hint⟩ hr⟩
          simp only [e, Res.bind, er]
        · have hge := (position_iff hc (p := [x0, x1]) (q := x3 :: xs) rfl t).mp hge
          simp at hge
          obtain ⟨rs, d', er, hr⟩ := ih (position sets t) d2 [x0] x1 x2 x3 xs (ha2.trans ha) rfl hinv
            (Or.inr ⟨by simp; omega, by simp; omega⟩) k4 hf'
          refine ⟨(0, cs') :: rs, d', ?_, .cons ⟨rfl, hint⟩ hr⟩
          simp only [e, Res.bind, er]
      · -- in the buffers or the next block
        have hub : position sets t ≤ past.length + 3 := by
          rcases k3 with k3 | k3 | k3 <;> rcases hp with ⟨rfl, rfl⟩ | hp <;> omega
        obtain ⟨d2, cs', e, hint, -, -, ha2, past', s0', s1', s2', fut', later', he', hi', -, hl', q1, q2⟩ :=
          step_forward hday hc (later := []) (by rw [List.append_nil]; exact he) hi (by simp) .last (by omega) hub k2 (by rw [ha]; exact hcs)
        rw [ha] at hint
        rw [hl' rfl, List.append_nil] at he'
        obtain ⟨rs, d', er, hr⟩ := ih (position sets t) d2 past' s0' s1' s2' fut' ((ha2 rfl).trans ha) he' hi' (Or.inr ⟨q1, q2⟩) k4 hf'
        refine ⟨(0, cs') :: rs, d', ?_, .cons ⟨rfl, hint⟩ hr⟩
        simp only [e, Res.bind, er]
  exact key qs 0 d0 [] x0 x1 x2 (x3 :: xs) ha0 rfl hi0 (Or.inl ⟨rfl, rfl⟩) hq hfits

/-- The stream has answered a query at position `p` of a series of data sets, and can go on with the files that follow. -/
def Stands (E : Env T) (n : Int) (all : List (DataSet T)) (p : Nat) (d : Ds T) : Prop :=
  ∃ past s0 s1 s2 fut later, d.a.maxDegree = n ∧ d.dir = true ∧ all = past ++ s0 :: s1 :: s2 :: (fut ++ later) ∧
    Inv E d s0 s1 s2 fut ∧ Files E.date E.ty E.feed d.a later ∧ past.length + 1 ≤ p ∧ p ≤ past.length + 2

theorem stands_init {d : Ds T} {sets later : List (DataSet T)}
    (hfile : FileOf E.date E.ty d.a sets) (hlen : 4 ≤ sets.length) (hfiles : Files E.date E.ty E.feed d.a later)
    (hdir : d.dir = true) (hnew : d.New) (p : Nat) (hp : p = 1 ∨ p = 2) :
    ∃ d0, Ds.init E d = .ok (0, d0) ∧ Stands E d.a.maxDegree (sets ++ later) p d0 := by
  obtain ⟨x0, x1, x2, x3, xs, rfl⟩ : ∃ x0 x1 x2 x3 xs, sets = x0 :: x1 :: x2 :: x3 :: xs := by
    rcases sets with _ | ⟨x0, _ | ⟨x1, _ | ⟨x2, _ | ⟨x3, xs⟩⟩⟩⟩
    all_goals first | (simp at hlen; done) | exact ⟨_, _, _, _, _, rfl⟩
  obtain ⟨d0, e0, hi0, ha0, hd0⟩ := init_inv hfile hnew.1 hnew.2.1 hnew.2.2
  exact ⟨d0, by simpa using e0, [], x0, x1, x2, x3 :: xs, later, by rw [ha0], by rw [hd0]; exact hdir, rfl, hi0, by rw [ha0]; exact hfiles,
    by simp; omega, by simp; omega⟩

theorem stands_step (hday : StrictMono E.day) {n : Int} {all : List (DataSet T)} (hc : Chron E.min all) {p : Nat} {d : Ds T}
    (h : Stands E n all p d) {t : T} {ts : List T} (hq : Forward all p (t :: ts)) {cs : Coeffs ℝ} (hf : Fits n cs) :
    ∃ d' cs', Ds.coeffsAt E t d cs = .ok (0, d', cs') ∧ Interpolated E.day n all t cs cs' ∧ Stands E n all (position all t) d' := by
  obtain ⟨past, s0, s1, s2, fut, later, rfl, hdir, he, hi, hfl, h1, h2⟩ := h
  obtain ⟨k2, k3, -⟩ := hq
  obtain ⟨d2, cs', e, hint, hn2, hdir2, -, past', s0', s1', s2', fut', later', he', hi', hfl', -, q1, q2⟩ :=
    step_forward hday hc he hi (fun _ => hdir) hfl (by omega) (by omega) k2 hf
  exact ⟨d2, cs', e, hint, past', s0', s1', s2', fut', later', hn2, hdir2.trans hdir, he', hi', hfl', q1, q2⟩

theorem stands_run (hday : StrictMono E.day) {n : Int} {all : List (DataSet T)} (hc : Chron E.min all) : ∀ (qs : List (T × Coeffs ℝ)) (p : Nat) (d : Ds T),
    Stands E n all p d → Forward all p (qs.map Prod.fst) → (∀ q ∈ qs, Fits n q.2) →
    ∃ rs d', Ds.run E qs d = .ok (rs, d') ∧ List.Forall₂ (fun q r => r.1 = 0 ∧ Interpolated E.day n all q.1 q.2 r.2) qs rs
  | [], _, d, _, _, _ => ⟨[], d, rfl, .nil⟩
  | (t, cs) :: qs, p, d, h, hq, hf => by
    obtain ⟨d2, cs', e, hint, h2⟩ := stands_step hday hc h hq (hf (t, cs) (by simp))
    obtain ⟨rs, d', er, hr⟩ := stands_run hday hc qs _ d2 h2 hq.2.2 (fun q hq => hf q (by simp [hq]))
    refine ⟨(0, cs') :: rs, d', ?_, .cons ⟨rfl, hint⟩ hr⟩
    rw [Ds.run]
    simp only [e, Res.bind, er]

/-- C35 over several files: with a directory, a stream on the first of a series of files (the first with at least four data
sets, the others with at least two) answers every sequence of queries that goes forward at most one interval at a time; each
result is the linear interpolation between adjacent data sets of the series, which may lie in different files. -/
theorem stream_files_partial (hday : StrictMono E.day) {d : Ds T} {sets later : List (DataSet T)}
    (hfile : FileOf E.date E.ty d.a sets) (hlen : 4 ≤ sets.length) (hfiles : Files E.date E.ty E.feed d.a later)
    (hdir : d.dir = true) (hc : Chron E.min (sets ++ later)) (hnew : d.New) (qs : List (T × Coeffs ℝ))
    (p : Nat) (hp : p = 1 ∨ p = 2) (hq : Forward (sets ++ later) p (qs.map Prod.fst)) (hfits : ∀ q ∈ qs, Fits d.a.maxDegree q.2) :
    ∃ d0, Ds.init E d = .ok (0, d0) ∧ ∃ rs d', Ds.run E qs d0 = .ok (rs, d') ∧
      List.Forall₂ (fun q r => r.1 = 0 ∧ Interpolated E.day d.a.maxDegree (sets ++ later) q.1 q.2 r.2) qs rs := by
  obtain ⟨d0, e0, h0⟩ := stands_init hfile hlen hfiles hdir hnew p hp
  exact ⟨d0, e0, stands_run hday hc qs p d0 h0 hq hfits⟩

/-- C35: at the epoch of a data set the interpolation is that data set. -/
theorem interpolated_at_epoch {min : T} {sets : List (DataSet T)} (hc : Chron min sets) {day : T → ℝ} {n : Int} {s : DataSet T} (hs : s ∈ sets)
    {cs cs' : Coeffs ℝ} (h : Interpolated day n sets s.epoch cs cs') (l m : Nat) (hml : m ≤ l) (hl : (l : Int) ≤ cs.deg) (hm : (m : Int) ≤ cs.ord) :
    cs'.C l m = lastValue n n Row.C s.rows l m ∧ cs'.S l m = lastValue n n Row.S s.rows l m := by
  obtain ⟨s1, s2, ⟨p, q, he⟩, h1, h2, -, -, -, hv⟩ := h
  have hss : s = s1 := by
    have hpw := hc.1
    rw [he, List.pairwise_append] at hpw
    obtain ⟨-, hpw2, hpw3⟩ := hpw
    simp only [List.pairwise_cons] at hpw2
    rw [he] at hs
    rcases List.mem_append.mp hs with hs | hs
    · exact absurd (hpw3 s hs s1 (by simp)) (not_lt.mpr h1)
    · rcases List.mem_cons.mp hs with rfl | hs
      · rfl
      · rcases List.mem_cons.mp hs with rfl | hs
        · exact absurd h2 (lt_irrefl _)
        · exact absurd (hpw2.2.1 s hs) (not_lt.mpr h2.le)
  subst hss
  obtain ⟨v1, v2⟩ := hv l m hml hl hm
  rw [v1, v2]
  simp [lineAt]

/-- A stream whose file has only three data sets of its type cannot be initialised. -/
theorem stream_three_fails {d : Ds T} {s0 s1 s2 : DataSet T} (hfile : FileOf E.date E.ty d.a [s0, s1, s2]) (hnew : d.New) :
    ∃ d', Ds.init E d = .ok (1, d') := by
  obtain ⟨d', e, -⟩ := init_inv hfile hnew.1 hnew.2.1 hnew.2.2
  exact ⟨d', by simpa using e⟩

/-- C35 fails: the first query after initialisation, if it is after the fourth data set, succeeds but lies on the line through
the first and the fourth data set, beyond both. The stream then holds the fourth and the fifth data set: a later query between
these is answered right, so the same query asked twice may have two answers. -/
theorem stream_jump (hday : StrictMono E.day) {d : Ds T} {s0 s1 s2 s3 : DataSet T} {fut : List (DataSet T)}
    (hfile : FileOf E.date E.ty d.a (s0 :: s1 :: s2 :: s3 :: fut)) (hc : Chron E.min (s0 :: s1 :: s2 :: s3 :: fut)) (hnew : d.New)
    {t : T} (ht : s3.epoch < t) (cs : Coeffs ℝ) (hf : Fits d.a.maxDegree cs) :
    ∃ d0, Ds.init E d = .ok (0, d0) ∧ ∃ d' cs', Ds.coeffsAt E t d0 cs = .ok (0, d', cs') ∧ OnLine E.day d.a.maxDegree t s0 s3 cs cs' ∧
      ∀ s4 ∈ fut.head?, ∀ t', s3.epoch ≤ t' → t' < s4.epoch → ∀ cs1, Fits d.a.maxDegree cs1 →
        ∃ cs2, Ds.coeffsAt E t' d' cs1 = .ok (0, d', cs2) ∧ OnLine E.day d.a.maxDegree t' s3 s4 cs1 cs2 := by
  obtain ⟨d0, e0, hi, ha0, -⟩ := init_inv hfile hnew.1 hnew.2.1 hnew.2.2
  refine ⟨d0, by simpa using e0, ?_⟩
  have hp := hc.1
  simp only [List.pairwise_cons, List.mem_cons] at hp
  have p12 : s1.epoch < s2.epoch := hp.2.1 s2 (by simp)
  have p23 : s2.epoch < s3.epoch := hp.2.2.1 s3 (by simp)
  have p03 : s0.epoch < s3.epoch := hp.1 s3 (by simp)
  obtain ⟨d', e, b0, b1, ha', hi'⟩ := hunt_far hi p12 p23 (hc.2 s3 (by simp)) ht
  rw [ha0] at b0 b1
  obtain ⟨cs', e2, hl⟩ := interp_ok (E := E) (t := t) b0 b1 hf (hday p03).ne
  refine ⟨d', cs', ?_, hl, fun s4 hs4 t' h3 h4 cs1 hf1 => ?_⟩
  swap
  · obtain ⟨fut', rfl⟩ : ∃ fut', fut = s4 :: fut' := by
      cases fut with
      | nil => simp at hs4
      | cons x xs => simp at hs4; exact ⟨xs, by rw [hs4]⟩
    rw [ha0] at ha'
    rcases query_ok hday (hi' s4 fut' rfl) p03 (lt_of_le_of_lt h3 h4) (fun s hs => hc.2 s (by simp [hs])) (p03.le.trans h3) (Or.inl h4)
      (by rw [ha']; exact hf1) with ⟨cs2, e2, hl2⟩ | ⟨_, _, _, _, _, hh, _⟩
    · rw [ha'] at hl2
      rcases hl2 with ⟨hh, _⟩ | ⟨_, _, hl2⟩
      · exact absurd hh (not_lt.mpr h3)
      · exact ⟨cs2, e2, hl2⟩
    · exact absurd h4 (not_lt.mpr hh)
  unfold Ds.coeffsAt
  rw [hi.b0.1, hi.b1.1, hi.b2.1, if_neg (fun hh => absurd hh.2 (not_lt.mpr (p12.trans (p23.trans ht)).le)),
    if_neg (fun hh => absurd hh.2 (not_lt.mpr (p23.trans ht).le)), e]
  simp only [Res.bind]
  rw [if_pos (by omega)]
  unfold Ds.atIndex
  rw [if_pos rfl, e2]
  rfl

/-! ### A small file -/

/-- A block with one record: degree 0, with the value one or zero. -/
def oneBlock (e : Char) (one : Bool) : Block Nat :=
  ⟨"DATA SET 01: 1 COEFFICIENTS FOR ".toList ++ e :: " OF TYPE atm".toList, ⟨1, 1, e.toNat - 48, .atm⟩,
    ["0 0 ".toList ++ (if one then '1' else '0') :: " 0".toList]⟩

/-- What the block holds. -/
def oneSet (e : Char) (one : Bool) : DataSet Nat := ⟨e.toNat - 48, [⟨0, 0, if one then 1 else 0, 0⟩]⟩

theorem oneBlock_ok (e : Char) (one : Bool) (he : isDig e = true) : (oneBlock e one).Ok exDate := by
  have hne : e ≠ '\n' ∧ e ≠ ' ' := by constructor <;> rintro rfl <;> revert he <;> decide
  refine ⟨?_, ?_, ?_, rfl⟩
  · refine ⟨" 01: 1 COEFFICIENTS FOR ".toList ++ e :: " OF TYPE atm".toList, " 1 COEFFICIENTS FOR ".toList ++ e :: " OF TYPE atm".toList,
      e :: " OF TYPE atm".toList, 1, [], rfl,
      ⟨[' '], ⟨false, ['0', '1']⟩, by decide, ⟨by decide, by decide⟩, rfl, rfl, by simp; decide,
        show (_ : Int) ≤ 1 by decide, show (1 : Int) ≤ _ by decide⟩,
      ⟨[' '], ⟨false, ['1']⟩, by decide, ⟨by decide, by decide⟩, rfl, rfl, by simp; decide,
        show (_ : Int) ≤ 1 by decide, show (1 : Int) ≤ _ by decide⟩, by simpa using hne.2, ?_⟩
    simp only [exDate, he, if_true]
    rfl
  · refine ⟨?_, (by decide : 45 < 124)⟩
    show '\n' ∉ "DATA SET 01: 1 COEFFICIENTS FOR ".toList ++ e :: " OF TYPE atm".toList
    rw [List.mem_append, List.mem_cons]
    rintro (h | h | h)
    · exact absurd h (by decide)
    · exact hne.1 h.symm
    · exact absurd h (by decide)
  · intro l hl
    rw [List.mem_singleton.mp hl]
    cases one <;> (unfold ShortLine; decide)

theorem oneBlock_set (e : Char) (one : Bool) : SetOf 0 (oneBlock e one) (oneSet e one) := by
  refine ⟨rfl, .cons ?_ .nil, ?_, ?_, ?_⟩
  · refine ⟨" 0 ".toList ++ (if one then '1' else '0') :: " 0".toList, ' ' :: (if one then '1' else '0') :: " 0".toList,
      ⟨[], ⟨false, ['0']⟩, by decide, ⟨by decide, by decide⟩, rfl, rfl, by simp; decide, by simp [oneSet], by simp [oneSet]⟩,
      ⟨" ".toList, ⟨false, ['0']⟩, by decide, ⟨by decide, by decide⟩, rfl, rfl, by simp; decide, by simp [oneSet], by simp [oneSet]⟩,
      fun _ => ⟨" 0".toList, [], ?_, ?_⟩⟩
    · cases one
      · exact ⟨" ".toList, ⟨false, ['0'], none, none⟩, by decide, Dec.ok_of (by decide), by decide +kernel, rfl,
          fun _ => by unfold Ends; decide⟩
      · exact ⟨" ".toList, ⟨false, ['1'], none, none⟩, by decide, Dec.ok_of (by decide), by decide +kernel, rfl,
          fun _ => by unfold Ends; decide⟩
    · exact ⟨" ".toList, ⟨false, ['0'], none, none⟩, by decide, Dec.ok_of (by decide),
          show Dec.value ⟨false, ['0'], none, none⟩ = 0 by decide +kernel, rfl, fun _ => by unfold Ends; decide⟩
  · simp [oneSet, Row.Triangle]
  · simp [Top, oneSet]
  · simp [Top, oneSet]

/-- A file of such blocks, open. -/
def digitFile (l : List (Char × Bool)) : Aod Nat :=
  ⟨unlines ["END OF HEADER".toList] ++ blocksText (l.map fun x => oneBlock x.1 x.2), 0, l.length, 1, 9, []⟩

/-- Its data sets. -/
def digitSets (l : List (Char × Bool)) : List (DataSet Nat) := l.map fun x => oneSet x.1 x.2

theorem digitFile_sets (l : List (Char × Bool)) (h : ∀ x ∈ l, isDig x.1 = true) (hl : l ≠ []) :
    FileOf exDate .atm (digitFile l) (digitSets l) := by
  refine ⟨["END OF HEADER".toList], l.map fun x => oneBlock x.1 x.2, ⟨[], _, rfl, by simp, by unfold ShortLine; decide, by decide⟩,
    by decide, rfl, ?_, by simp [digitFile], le_refl _, ?_⟩
  · intro b hb
    obtain ⟨x, hx, rfl⟩ := List.mem_map.mp hb
    exact oneBlock_ok _ _ (h x hx)
  · have e : (l.map fun x => oneBlock x.1 x.2).filter (fun b => decide (b.hdr.type = .atm)) = l.map fun x => oneBlock x.1 x.2 := by
      rw [List.filter_eq_self]
      intro b hb
      obtain ⟨x, hx, rfl⟩ := List.mem_map.mp hb
      rfl
    unfold SetsOf
    rw [e, digitSets, List.forall₂_map_left_iff, List.forall₂_map_right_iff, List.forall₂_same]
    intro x _
    exact oneBlock_set _ _

/-- The small file: epochs 1, 3, 5, 7, 9; the value is one at epoch 1 and zero afterwards. -/
def smallList : List (Char × Bool) := [('1', true), ('3', false), ('5', false), ('7', false), ('9', false)]
def smallFile : Aod Nat := digitFile smallList
def smallSets : List (DataSet Nat) := [oneSet '1' true, oneSet '3' false, oneSet '5' false, oneSet '7' false, oneSet '9' false]

/-- Epochs are days; there is no next file. -/
noncomputable def smallEnv : Env Nat := ⟨exDate, fun t => t, 0, .atm, fun _ => .ok none, fun _ _ => 0⟩

theorem smallFile_sets : FileOf smallEnv.date smallEnv.ty smallFile smallSets :=
  digitFile_sets smallList (by decide) (by decide)

theorem smallSets_chron : Chron smallEnv.min smallSets := by
  refine ⟨?_, ?_⟩
  · simp [smallSets, oneSet]
  · simp [smallSets, oneSet, smallEnv]

theorem smallEnv_day : StrictMono smallEnv.day := by
  intro a b h
  simpa [smallEnv] using h

/-- A new set of degree 0. -/
def zeroSet : Coeffs ℝ := ⟨0, 0, 1, fun _ _ => 0, fun _ _ => 0, 1, 1, true⟩

/-- A new stream on the small file. -/
def smallStream (h : Hdr Nat) : Ds Nat := ⟨smallFile, ⟨In.start smallFile.text, h⟩, h, h, h, zeroSet, zeroSet, zeroSet, false⟩

/-- Queries at 2, 3, 6, 8 (forward) and 2 again are interpolated. -/
example (h : Hdr Nat) : ∃ d0, Ds.init smallEnv (smallStream h) = .ok (0, d0) ∧ ∃ rs d',
    Ds.run smallEnv [(2, zeroSet), (3, zeroSet), (6, zeroSet), (8, zeroSet), (2, zeroSet)] d0 = .ok (rs, d') ∧
    List.Forall₂ (fun q r => r.1 = 0 ∧ Interpolated smallEnv.day 0 smallSets q.1 q.2 r.2)
      [(2, zeroSet), (3, zeroSet), (6, zeroSet), (8, zeroSet), (2, zeroSet)] rs :=
  stream_interpolates_partial smallEnv_day (d := smallStream h) smallFile_sets (by simp [smallSets]) smallSets_chron
    ⟨⟨rfl, rfl, rfl⟩, ⟨rfl, rfl, rfl⟩, ⟨rfl, rfl, rfl⟩⟩ (by simp [smallSets, oneSet, smallStream, smallFile, digitFile]) _
    (by simp [Steps, position, smallSets, oneSet]) (by simp [Fits, zeroSet, smallStream, smallFile, digitFile])

/-- Two files: the second one, with epochs 8 and 9, follows the first one, with four data sets. -/
noncomputable def twoEnv : Env Nat :=
  ⟨exDate, fun t => t, 0, .atm, fun a => if a.numSets = 4 then .ok (some (digitFile [('8', true), ('9', false)])) else .ok none, fun _ _ => 0⟩

/-- A new stream on the first of the two files, with a directory. -/
def twoStream (h : Hdr Nat) : Ds Nat :=
  ⟨digitFile [('1', true), ('3', false), ('5', false), ('7', false)], ⟨In.start [], h⟩, h, h, h, zeroSet, zeroSet, zeroSet, true⟩

/-- Queries at 2, 4, 6, 7 (between the two files) and 8 are interpolated. -/
example (h : Hdr Nat) : ∃ d0, Ds.init twoEnv (twoStream h) = .ok (0, d0) ∧ ∃ rs d',
    Ds.run twoEnv [(2, zeroSet), (4, zeroSet), (6, zeroSet), (7, zeroSet), (8, zeroSet)] d0 = .ok (rs, d') ∧
    List.Forall₂ (fun q r => r.1 = 0 ∧ Interpolated twoEnv.day 0
        (digitSets [('1', true), ('3', false), ('5', false), ('7', false)] ++ (digitSets [('8', true), ('9', false)] ++ [])) q.1 q.2 r.2)
      [(2, zeroSet), (4, zeroSet), (6, zeroSet), (7, zeroSet), (8, zeroSet)] rs :=
  stream_files_partial (E := twoEnv) (fun a b h => by simpa [twoEnv] using h) (d := twoStream h)
    (digitFile_sets _ (by decide) (by decide)) (by simp [digitSets])
    (.next (a' := digitFile [('8', true), ('9', false)]) (by simp [twoEnv, twoStream, digitFile])
      (digitFile_sets _ (by decide) (by decide)) (by simp [digitSets]) rfl .last)
    rfl (by simp [Chron, digitSets, oneSet, twoEnv])
    ⟨⟨rfl, rfl, rfl⟩, ⟨rfl, rfl, rfl⟩, ⟨rfl, rfl, rfl⟩⟩ _ 1 (Or.inl rfl) (by simp [Forward, position, digitSets, oneSet])
    (by simp [Fits, zeroSet, twoStream, digitFile])

/-- A file with three data sets. -/
example (h : Hdr Nat) : ∃ d', Ds.init smallEnv { smallStream h with a := digitFile [('1', true), ('3', false), ('5', false)] } = .ok (1, d') :=
  stream_three_fails (E := smallEnv) (digitFile_sets [('1', true), ('3', false), ('5', false)] (by decide) (by decide))
    ⟨⟨rfl, rfl, rfl⟩, ⟨rfl, rfl, rfl⟩, ⟨rfl, rfl, rfl⟩⟩

/-- C35 fails: on the small file the query at 8 directly after initialisation succeeds with the value -1/6, where every data
set around it has the value zero. The same query asked again has the value zero. -/
theorem stream_jump_fails (h : Hdr Nat) : ∃ d0, Ds.init smallEnv (smallStream h) = .ok (0, d0) ∧ ∃ d' cs',
    Ds.coeffsAt smallEnv 8 d0 zeroSet = .ok (0, d', cs') ∧ cs'.C 0 0 = -1 / 6 ∧
    ¬ Interpolated smallEnv.day 0 smallSets 8 zeroSet cs' ∧
    ∃ cs2, Ds.coeffsAt smallEnv 8 d' zeroSet = .ok (0, d', cs2) ∧ cs2.C 0 0 = 0 := by
  obtain ⟨d0, e0, d', cs', e, hl, hagain⟩ := stream_jump smallEnv_day (d := smallStream h) (t := 8) smallFile_sets smallSets_chron
    ⟨⟨rfl, rfl, rfl⟩, ⟨rfl, rfl, rfl⟩, ⟨rfl, rfl, rfl⟩⟩ (by simp [oneSet]) zeroSet (by simp [Fits, zeroSet, smallStream, smallFile, digitFile])
  have hv : cs'.C 0 0 = -1 / 6 := by
    rw [(hl.2.2.2 0 0 (le_refl _) (by simp [zeroSet]) (by simp [zeroSet])).1]
    simp [lineAt, lastValue, oneSet, smallEnv, smallStream, smallFile, digitFile, Row.In]
    norm_num
  obtain ⟨cs2, e2, hl2⟩ := hagain (oneSet '9' false) (by simp) 8 (by simp [oneSet]) (by simp [oneSet]) zeroSet
    (by simp [Fits, zeroSet, smallStream, smallFile, digitFile])
  have hv2 : cs2.C 0 0 = 0 := by
    rw [(hl2.2.2.2 0 0 (le_refl _) (by simp [zeroSet]) (by simp [zeroSet])).1]
    simp [lineAt, lastValue, oneSet, smallEnv, smallStream, smallFile, digitFile, Row.In]
  refine ⟨d0, e0, d', cs', e, hv, ?_, cs2, e2, hv2⟩
  rintro ⟨s1, s2, ⟨p, q, hpq⟩, h1, h2, -, -, -, hi⟩
  have hc := (hi 0 0 (le_refl _) (by simp [zeroSet]) (by simp [zeroSet])).1
  have hz : s1 = oneSet '7' false ∧ s2 = oneSet '9' false := by
    unfold smallSets at hpq
    rcases p with _ | ⟨a, _ | ⟨b, _ | ⟨c, _ | ⟨d, _ | ⟨e, p⟩⟩⟩⟩⟩
    all_goals simp at hpq
    · obtain ⟨rfl, rfl, -⟩ := hpq; simp [oneSet] at h2
    · obtain ⟨-, rfl, rfl, -⟩ := hpq; simp [oneSet] at h2
    · obtain ⟨-, -, rfl, rfl, -⟩ := hpq; simp [oneSet] at h2
    · obtain ⟨-, -, -, rfl, rfl, -⟩ := hpq; exact ⟨rfl, rfl⟩
  rw [hv, hz.1, hz.2] at hc
  simp [lineAt, lastValue, oneSet, Row.In] at hc

end Verif.Aod1b
