import Verif.Spec.Aod1bStream
import Verif.Props.Aod1b
import Mathlib.Tactic.FieldSimp
import Mathlib.Tactic.Ring
/-
The dealiasing stream: what the buffers and the iterator hold.
-/
namespace Verif.Aod1b
open Verif.Chars Verif.Icgem

variable {T : Type} (E : Env T)

/-- The iterator has read the header of a block that holds the first of the data sets to come. -/
def AtSet (a : Aod T) (it : It T) : List (DataSet T) → Prop
  | [] => it.hdr.epoch = E.min ∧ it.s.eof = true
  | s :: fut => ∃ b post, it = ⟨At (unlines b.lines ++ blocksText post), b.hdr⟩ ∧ Block.Ok E.date b ∧ SetOf a.maxDegree b s ∧
      (∀ x ∈ post, Block.Ok E.date x) ∧ (post.length : Int) ≤ a.numSets - 1 ∧ SetsOf a.maxDegree E.ty post fut

/-- The iterator has taken a block; these data sets are to come. -/
def Before (a : Aod T) (it : It T) (fut : List (DataSet T)) : Prop :=
  ∃ post, it.s = At (blocksText post) ∧ (∀ x ∈ post, Block.Ok E.date x) ∧ (post.length : Int) ≤ a.numSets - 1 ∧
    SetsOf a.maxDegree E.ty post fut

/-- A buffer holds a data set. -/
def Buf (n : Int) (c : Coeffs ℝ) (h : Hdr T) (s : DataSet T) : Prop := h.epoch = s.epoch ∧ Room n c ∧ Holds n n s.rows c.rows c

variable {E}

theorem coll_ok {a : Aod T} (hn : 0 ≤ a.maxDegree) {it : It T} {s : DataSet T} {fut : List (DataSet T)}
    (h : AtSet E a it (s :: fut)) {c : Coeffs ℝ} (hc : Room a.maxDegree c) :
    ∃ it' c', Ds.coll E a it c = .ok (0, it', c') ∧ it'.hdr = it.hdr ∧ Before E a it' fut ∧ Buf a.maxDegree c' it.hdr s := by
  obtain ⟨b, post, rfl, hb, ⟨h1, h2, h3, h4, h5⟩, hp, hl, hs⟩ := h
  obtain ⟨r1, r2, r3⟩ := hc
  obtain ⟨c', e, d1, d2, d3, d4⟩ := collect_complete a hn (le_refl _) (le_refl _) c (by omega) (by omega) (by omega) h2 hb.lines h3
    h4 h5 (blocksText post) E.junk
  refine ⟨⟨At (blocksText post), b.hdr⟩, c', ?_, rfl, ⟨post, rfl, hp, hl, hs⟩, h1, ⟨by omega, by omega, by omega⟩, by rw [d3]; exact d4⟩
  unfold Ds.coll It.collect
  simp only [if_pos (show (-1 : Int) < 0 by omega), hb.count, e]
  rfl

theorem adv_ok {a : Aod T} {it : It T} {fut : List (DataSet T)} (h : Before E a it fut) :
    ∃ it', Ds.adv E a it = .ok (if fut = [] then -1 else 0, it') ∧ AtSet E a it' fut := by
  obtain ⟨post, h1, h2, h3, h4⟩ := h
  obtain ⟨its, ih⟩ := it
  simp only at h1
  subst h1
  unfold Ds.adv It.advance
  simp only []
  cases fut with
  | nil =>
    unfold SetsOf at h4
    rw [List.forall₂_nil_right_iff, List.filter_eq_nil_iff] at h4
    obtain ⟨h', e⟩ := goto_none h2 (ty := E.ty) (fun b hb => by simpa using h4 b hb) (a.numSets - 1).toNat (by omega) ih
    unfold gotoNext
    rw [e]
    exact ⟨_, rfl, rfl, rfl⟩
  | cons s fut =>
    unfold SetsOf at h4
    rw [List.forall₂_cons_right_iff] at h4
    obtain ⟨b, bs, hb, hbs, hf⟩ := h4
    rw [List.filter_eq_cons_iff] at hf
    obtain ⟨pre, post', rfl, hpre, hty, hpost⟩ := hf
    have e := (goto_next_partial E.date a E.ty (pre ++ b :: post') h2 h3 ih).1 pre b post' rfl
      (fun x hx => by simpa using hpre x hx) (by simpa using hty)
    rw [e]
    refine ⟨_, rfl, b, post', rfl, h2 b (by simp), hb, fun x hx => h2 x (by simp [hx]), ?_, ?_⟩
    · simp at h3; omega
    · unfold SetsOf; rw [hpost]; exact hbs

theorem begin_ok {a : Aod T} {sets : List (DataSet T)} (h : FileOf E.date E.ty a sets) (h2 : 2 ≤ sets.length) (it : It T) :
    ∃ it', Ds.begin E a it = .ok it' ∧ AtSet E a it' sets := by
  obtain ⟨hd, bs, f1, f2, f3, f4, f5, f6, f7⟩ := h
  obtain ⟨s, fut, rfl⟩ : ∃ s fut, sets = s :: fut := by
    cases sets with
    | nil => simp at h2
    | cons s fut => exact ⟨s, fut, rfl⟩
  unfold SetsOf at f7
  rw [List.forall₂_cons_right_iff] at f7
  obtain ⟨b, bs', hb, hbs, hf⟩ := f7
  rw [List.filter_eq_cons_iff] at hf
  obtain ⟨pre, post, rfl, hpre, hty, hpost⟩ := hf
  have hpne : post ≠ [] := by
    rintro rfl
    have := hbs.length_eq
    rw [← hpost] at this
    simp at this h2
    omega
  unfold Ds.begin It.setBegin
  rw [skipHeader_ok f1 f2 f3 it.s.clear rfl]
  simp only []
  rw [goto_begin_partial E.date a E.ty pre post b (fun x hx => f4 x (by
      simp only [List.mem_append, List.mem_singleton, List.mem_cons] at hx ⊢; tauto)) f5 hpne
    (fun x hx => by simpa using hpre x hx) (by simpa using hty)]
  refine ⟨_, rfl, b, post, rfl, f4 b (by simp), hb, fun x hx => f4 x (by simp [hx]), ?_, ?_⟩
  · simp at f5; omega
  · unfold SetsOf; rw [hpost]; exact hbs

/-- The buffers hold three data sets, the iterator stands at the next. -/
structure Inv (E : Env T) (d : Ds T) (s0 s1 s2 : DataSet T) (fut : List (DataSet T)) : Prop where
  n : 0 ≤ d.a.maxDegree
  b0 : Buf d.a.maxDegree d.c0 d.h0 s0
  b1 : Buf d.a.maxDegree d.c1 d.h1 s1
  b2 : Buf d.a.maxDegree d.c2 d.h2 s2
  it : AtSet E d.a d.it fut

theorem init_inv {d : Ds T} {s0 s1 s2 : DataSet T} {fut : List (DataSet T)} (h : FileOf E.date E.ty d.a (s0 :: s1 :: s2 :: fut))
    (r0 : Room d.a.maxDegree d.c0) (r1 : Room d.a.maxDegree d.c1) (r2 : Room d.a.maxDegree d.c2) :
    ∃ d', Ds.init E d = .ok (if fut = [] then 1 else 0, d') ∧ Inv E d' s0 s1 s2 fut ∧ d'.a = d.a ∧ d'.dir = d.dir := by
  have hn : 0 ≤ d.a.maxDegree := by obtain ⟨hd, bs, -, -, -, -, -, h, -⟩ := h; exact h
  obtain ⟨it0, e0, a0⟩ := begin_ok h (by simp) d.it
  obtain ⟨it1, c0, e1, k1, a1, b1⟩ := coll_ok hn a0 r0
  obtain ⟨it2, e2, a2⟩ := adv_ok a1
  obtain ⟨it3, c1, e3, k3, a3, b3⟩ := coll_ok hn a2 r1
  obtain ⟨it4, e4, a4⟩ := adv_ok a3
  obtain ⟨it5, c2, e5, k5, a5, b5⟩ := coll_ok hn a4 r2
  obtain ⟨it6, e6, a6⟩ := adv_ok a5
  have hj : (if (0 : Int) + 0 + (if fut = [] then -1 else 0) ≠ 0 then (1 : Int) else 0) = if fut = [] then 1 else 0 := by
    by_cases hfut : fut = [] <;> simp [hfut]
  unfold Ds.init
  simp only [e0, Res.bind, e1, e2, e3, e4, e5, e6, reduceCtorEq, if_false]
  rw [if_neg (by simp), if_neg (by simp), hj]
  exact ⟨_, rfl, ⟨hn, by rw [k1]; exact b1, by rw [k3]; exact b3, by rw [k5]; exact b5, a6⟩, rfl, rfl⟩

/-! ### Queries -/

variable [LinearOrder T]

omit [LinearOrder T] in
theorem interp_ok {n : Int} {t : T} {h1 h2 : Hdr T} {b1 b2 cs : Coeffs ℝ} {s1 s2 : DataSet T} (hb1 : Buf n b1 h1 s1) (hb2 : Buf n b2 h2 s2)
    (hf : Fits n cs) (hd : E.day s1.epoch ≠ E.day s2.epoch) :
    ∃ cs', Ds.interp E t h1.epoch h2.epoch b1 b2 cs = .ok cs' ∧ OnLine E.day n t s1 s2 cs cs' := by
  obtain ⟨e1, ⟨r1, r2, r3⟩, v1⟩ := hb1
  obtain ⟨e2, ⟨q1, q2, q3⟩, v2⟩ := hb2
  obtain ⟨f1, f2⟩ := hf
  unfold Ds.interp
  rw [if_pos (by omega)]
  refine ⟨_, rfl, rfl, rfl, rfl, ?_⟩
  intro l m hml hl hm
  obtain ⟨x1, x2⟩ := v1 l m hml (by omega)
  obtain ⟨y1, y2⟩ := v2 l m hml (by omega)
  simp only [hml, hl, hm, and_self, if_true, x1, x2, y1, y2, e1, e2]
  have hne : E.day s2.epoch - E.day s1.epoch ≠ 0 := sub_ne_zero.mpr (Ne.symm hd)
  unfold lineAt
  constructor <;> (field_simp; ring)

variable (hday : StrictMono E.day)
include hday

theorem at_first {d : Ds T} {s0 s1 s2 : DataSet T} {fut : List (DataSet T)} (h : Inv E d s0 s1 s2 fut) {t : T}
    (h1 : s0.epoch ≤ t) (h2 : t < s1.epoch) {cs : Coeffs ℝ} (hf : Fits d.a.maxDegree cs) :
    ∃ cs', Ds.atIndex E t 0 d cs = .ok (0, d, cs') ∧ OnLine E.day d.a.maxDegree t s0 s1 cs cs' := by
  obtain ⟨cs', e, hl⟩ := interp_ok (t := t) h.b0 h.b1 hf (hday (lt_of_le_of_lt h1 h2)).ne
  unfold Ds.atIndex
  rw [if_pos rfl, e]
  exact ⟨cs', rfl, hl⟩

theorem at_second {d : Ds T} {s0 s1 s2 : DataSet T} {fut : List (DataSet T)} (h : Inv E d s0 s1 s2 fut) {t : T}
    (h1 : s1.epoch ≤ t) (h2 : t < s2.epoch) {cs : Coeffs ℝ} (hf : Fits d.a.maxDegree cs) :
    ∃ cs', Ds.atIndex E t 1 d cs = .ok (0, d, cs') ∧ OnLine E.day d.a.maxDegree t s1 s2 cs cs' := by
  obtain ⟨cs', e, hl⟩ := interp_ok (t := t) h.b1 h.b2 hf (hday (lt_of_le_of_lt h1 h2)).ne
  unfold Ds.atIndex
  rw [if_neg (by omega), if_pos rfl, e]
  exact ⟨cs', rfl, hl⟩

omit hday in
/-- Going on by one block. -/
theorem hunt_next {d : Ds T} {s0 s1 s2 s3 : DataSet T} {fut : List (DataSet T)} (h : Inv E d s0 s1 s2 (s3 :: fut))
    (h01 : s0.epoch < s1.epoch) (h12 : s1.epoch < s2.epoch) (hmin : E.min < s3.epoch) {t : T}
    (h1 : s2.epoch ≤ t) (h2 : t < s3.epoch) :
    ∃ d', Ds.hunt1 E t d = .ok (some (1, d')) ∧ Inv E d' s1 s2 s3 fut ∧ d'.a = d.a ∧ d'.dir = d.dir := by
  have hit : d.it.hdr.epoch = s3.epoch := by obtain ⟨b, post, e, -, hs, -⟩ := h.it; rw [e]; exact hs.1
  have heof : Ds.eof E d.it = false := by
    unfold Ds.eof; rw [hit]; simp [hmin.ne']
  have hc2 : Room d.a.maxDegree d.c0 := h.b0.2.1
  obtain ⟨it1, c2, e1, k1, a1, b1⟩ := coll_ok h.n h.it hc2
  obtain ⟨it2, e2, a2⟩ := adv_ok a1
  unfold Ds.hunt1
  rw [h.b0.1, h.b1.1, h.b2.1, heof]
  rw [if_neg (fun hh => absurd hh.2 (not_lt.mpr (le_trans h12.le h1))), if_neg (fun hh => absurd hh.2 (not_lt.mpr h1)),
    if_pos ⟨h1, rfl⟩]
  unfold Ds.huntOn
  rw [hit, if_pos h2]
  simp only [e1, e2, Res.bind]
  exact ⟨_, rfl, ⟨h.n, h.b1, h.b2, b1, a2⟩, rfl, rfl⟩

/-- A query from the first buffered set up to the set where the iterator stands. -/
theorem query_ok {d : Ds T} {s0 s1 s2 : DataSet T} {fut : List (DataSet T)} (h : Inv E d s0 s1 s2 fut)
    (h01 : s0.epoch < s1.epoch) (h12 : s1.epoch < s2.epoch) (hmin : ∀ s ∈ fut, E.min < s.epoch) {t : T}
    (h1 : s0.epoch ≤ t) (h2 : t < s2.epoch ∨ ∃ s ∈ fut.head?, t < s.epoch) {cs : Coeffs ℝ} (hf : Fits d.a.maxDegree cs) :
    (∃ cs', Ds.coeffsAt E t d cs = .ok (0, d, cs') ∧ ((t < s1.epoch ∧ OnLine E.day d.a.maxDegree t s0 s1 cs cs') ∨
      (s1.epoch ≤ t ∧ t < s2.epoch ∧ OnLine E.day d.a.maxDegree t s1 s2 cs cs'))) ∨
    (∃ d' cs' s3 fut', fut = s3 :: fut' ∧ s2.epoch ≤ t ∧ t < s3.epoch ∧ Ds.coeffsAt E t d cs = .ok (0, d', cs') ∧
      OnLine E.day d.a.maxDegree t s2 s3 cs cs' ∧ Inv E d' s1 s2 s3 fut' ∧ d'.a = d.a ∧ d'.dir = d.dir) := by
  unfold Ds.coeffsAt
  rw [h.b0.1, h.b1.1, h.b2.1]
  by_cases c1 : t < s1.epoch
  · obtain ⟨cs', e, hl⟩ := at_first hday h h1 c1 hf
    rw [if_pos ⟨h1, c1⟩]
    exact Or.inl ⟨cs', e, Or.inl ⟨c1, hl⟩⟩
  · rw [not_lt] at c1
    rw [if_neg (fun hh => absurd hh.2 (not_lt.mpr c1))]
    by_cases c2 : t < s2.epoch
    · obtain ⟨cs', e, hl⟩ := at_second hday h c1 c2 hf
      rw [if_pos ⟨c1, c2⟩]
      exact Or.inl ⟨cs', e, Or.inr ⟨c1, c2, hl⟩⟩
    · have c3 : s2.epoch ≤ t := not_lt.mp c2
      rw [if_neg (fun hh => absurd hh.2 c2)]
      rcases h2 with h2 | ⟨s3, hs3, h2⟩
      · exact absurd h2 c2
      · obtain ⟨fut', rfl⟩ : ∃ fut', fut = s3 :: fut' := by
          cases fut with
          | nil => simp at hs3
          | cons x xs => simp at hs3; exact ⟨xs, by rw [hs3]⟩
        obtain ⟨d', e, hi, ha, hdir⟩ := hunt_next h h01 h12 (hmin s3 (by simp)) c3 h2
        obtain ⟨cs', e2, hl⟩ := at_second hday hi c3 h2 (by rw [ha]; exact hf)
        refine Or.inr ⟨d', cs', s3, fut', rfl, c3, h2, ?_, by rw [ha] at hl; exact hl, hi, ha, hdir⟩
        unfold Ds.hunt
        simp only [e, Res.bind]
        rw [if_pos (by omega), e2]

omit hday in
/-- Going back. -/
theorem hunt_back {d : Ds T} {s0 s1 s2 : DataSet T} {fut : List (DataSet T)} (h : Inv E d s0 s1 s2 fut)
    (h01 : s0.epoch < s1.epoch) (h12 : s1.epoch < s2.epoch) {x0 x1 x2 x3 : DataSet T} {xs : List (DataSet T)}
    (hfile : FileOf E.date E.ty d.a (x0 :: x1 :: x2 :: x3 :: xs)) {t : T} (hb : t < s0.epoch) (hfirst : d.a.first ≤ t) :
    ∃ d', Inv E d' x0 x1 x2 (x3 :: xs) ∧ d'.a = d.a ∧ d'.dir = d.dir ∧ Ds.hunt E t d = (Ds.hunt1 E t d').bind fun
      | some r => .ok r
      | none => .ub := by
  obtain ⟨d', e, hi, ha, hdir⟩ := init_inv hfile h.b0.2.1 h.b1.2.1 h.b2.2.1
  refine ⟨d', hi, ha, hdir, ?_⟩
  unfold Ds.hunt
  have e1 : Ds.hunt1 E t d = .ok none := by
    unfold Ds.hunt1
    rw [h.b0.1, h.b1.1, h.b2.1, if_neg (fun hh => absurd hh.1 (not_le.mpr hb)),
      if_neg (fun hh => absurd hh.1 (not_le.mpr (hb.trans h01))),
      if_neg (fun hh => absurd hh.1 (not_le.mpr (hb.trans (h01.trans h12)))), if_pos hb, if_neg (not_lt.mpr hfirst)]
  rw [e1]
  simp only [Res.bind, e]
  rw [if_neg (by simp)]
  rfl

/-- A query before the buffered sets, among the first four of the file. -/
theorem query_back {d : Ds T} {s0 s1 s2 : DataSet T} {fut : List (DataSet T)} (h : Inv E d s0 s1 s2 fut)
    (h01 : s0.epoch < s1.epoch) (h12 : s1.epoch < s2.epoch) {x0 x1 x2 x3 : DataSet T} {xs : List (DataSet T)}
    (hfile : FileOf E.date E.ty d.a (x0 :: x1 :: x2 :: x3 :: xs)) (hx : Chron E.min (x0 :: x1 :: x2 :: x3 :: xs)) {t : T}
    (hb : t < s0.epoch) (hfirst : d.a.first ≤ t) (hx0 : x0.epoch ≤ t) (hx3 : t < x3.epoch) {cs : Coeffs ℝ}
    (hf : Fits d.a.maxDegree cs) :
    ∃ d' cs', Ds.coeffsAt E t d cs = .ok (0, d', cs') ∧ d'.a = d.a ∧ d'.dir = d.dir ∧
      Interpolated E.day d.a.maxDegree (x0 :: x1 :: x2 :: x3 :: xs) t cs cs' ∧
      (Inv E d' x0 x1 x2 (x3 :: xs) ∧ t < x2.epoch ∨ Inv E d' x1 x2 x3 xs ∧ x2.epoch ≤ t) := by
  obtain ⟨d1, hi, ha, hdir, e⟩ := hunt_back h h01 h12 hfile hb hfirst
  have hp := hx.1
  simp only [List.pairwise_cons, List.mem_cons] at hp
  have p01 : x0.epoch < x1.epoch := hp.1 x1 (by simp)
  have p12 : x1.epoch < x2.epoch := hp.2.1 x2 (by simp)
  have p3 : E.min < x3.epoch := hx.2 x3 (by simp)
  have ha' : d1.a.maxDegree = d.a.maxDegree := by rw [ha]
  have hf' : Fits d1.a.maxDegree cs := by rw [ha]; exact hf
  unfold Ds.coeffsAt
  rw [h.b0.1, h.b1.1, h.b2.1, if_neg (fun hh => absurd hh.1 (not_le.mpr hb)),
      if_neg (fun hh => absurd hh.1 (not_le.mpr (hb.trans h01))), e]
  by_cases c1 : t < x1.epoch
  · obtain ⟨cs', e2, hl⟩ := at_first hday hi hx0 c1 hf'
    have e1 : Ds.hunt1 E t d1 = .ok (some (0, d1)) := by
      unfold Ds.hunt1; rw [hi.b0.1, hi.b1.1, if_pos ⟨hx0, c1⟩]
    rw [e1]
    refine ⟨d1, cs', ?_, ha, hdir, ⟨x0, x1, ⟨[], _, rfl⟩, hx0, c1, by rw [← ha']; exact hl⟩, Or.inl ⟨hi, c1.trans p12⟩⟩
    simp only [Res.bind]
    rw [if_pos (by omega), e2]
  · rw [not_lt] at c1
    by_cases c2 : t < x2.epoch
    · obtain ⟨cs', e2, hl⟩ := at_second hday hi c1 c2 hf'
      have e1 : Ds.hunt1 E t d1 = .ok (some (1, d1)) := by
        unfold Ds.hunt1
        rw [hi.b0.1, hi.b1.1, hi.b2.1, if_neg (fun hh => absurd hh.2 (not_lt.mpr c1)), if_pos ⟨c1, c2⟩]
      rw [e1]
      refine ⟨d1, cs', ?_, ha, hdir, ⟨x1, x2, ⟨[x0], _, rfl⟩, c1, c2, by rw [← ha']; exact hl⟩, Or.inl ⟨hi, c2⟩⟩
      simp only [Res.bind]
      rw [if_pos (by omega), e2]
    · rw [not_lt] at c2
      obtain ⟨d2, e1, hi2, ha2, hdir2⟩ := hunt_next hi p01 p12 p3 c2 hx3
      obtain ⟨cs', e2, hl⟩ := at_second hday hi2 c2 hx3 (by rw [ha2]; exact hf')
      rw [e1]
      refine ⟨d2, cs', ?_, ha2.trans ha, hdir2.trans hdir, ⟨x2, x3, ⟨[x0, x1], _, rfl⟩, c2, hx3, by rw [← ha', ← ha2]; exact hl⟩,
        Or.inr ⟨hi2, c2⟩⟩
      simp only [Res.bind]
      rw [if_pos (by omega), e2]

omit hday in
/-- Beyond the set where the iterator stands: the buffers are left with sets that are not adjacent. -/
theorem hunt_far {d : Ds T} {s0 s1 s2 s3 : DataSet T} {fut : List (DataSet T)} (h : Inv E d s0 s1 s2 (s3 :: fut))
    (h12 : s1.epoch < s2.epoch) (h23 : s2.epoch < s3.epoch) (hmin : E.min < s3.epoch) {t : T} (h3 : s3.epoch < t) :
    ∃ d', Ds.hunt E t d = .ok (0, d') ∧ Buf d.a.maxDegree d'.c0 d'.h0 s0 ∧ Buf d.a.maxDegree d'.c1 d'.h1 s3 ∧
      d'.a = d.a ∧ ∀ s4 fut', fut = s4 :: fut' → Inv E d' s0 s3 s4 fut' := by
  have hit : d.it.hdr.epoch = s3.epoch := by obtain ⟨b, post, e, -, hs, -⟩ := h.it; rw [e]; exact hs.1
  have heof : Ds.eof E d.it = false := by
    unfold Ds.eof; rw [hit]; simp [hmin.ne']
  obtain ⟨it1, c1, e1, k1, a1, b1⟩ := coll_ok h.n h.it h.b1.2.1
  obtain ⟨it2, e2, a2⟩ := adv_ok a1
  have hs : Ds.skipTo E t (d.it.s.rest.length + 2) 0 d = .ok (0, d) := by
    rw [Ds.skipTo, if_neg (by rw [hit]; exact fun hh => absurd hh.1 (not_le.mpr h3))]
  unfold Ds.hunt Ds.hunt1
  rw [h.b0.1, h.b1.1, h.b2.1, heof]
  rw [if_neg (fun hh => absurd hh.2 (not_lt.mpr ((h12.trans (h23.trans h3)).le))),
    if_neg (fun hh => absurd hh.2 (not_lt.mpr (h23.trans h3).le)), if_pos ⟨(h23.trans h3).le, rfl⟩]
  unfold Ds.huntOn
  rw [hit, if_neg (not_lt.mpr h3.le), hs]
  cases fut with
  | nil =>
    simp only [if_true] at e2
    simp only [Res.bind, e1, e2, ne_eq, not_true, if_false, show (-1 : Int) < 0 by omega, if_true]
    exact ⟨_, rfl, h.b0, by simp only; rw [k1]; exact b1, rfl, fun _ _ hh => by cases hh⟩
  | cons s4 fut =>
    simp only [reduceCtorEq, if_false] at e2
    obtain ⟨it3, c2, e3, k3, a3, b3⟩ := coll_ok h.n a2 h.b2.2.1
    obtain ⟨it4, e4, a4⟩ := adv_ok a3
    simp only [Res.bind, e1, e2, e3, e4, ne_eq, not_true, if_false, lt_irrefl, gt_iff_lt]
    refine ⟨_, rfl, h.b0, by simp only; rw [k1]; exact b1, rfl, fun s4' fut' hh => ?_⟩
    obtain ⟨rfl, rfl⟩ := List.cons.inj hh
    exact ⟨h.n, h.b0, by simp only; rw [k1]; exact b1, by simp only; rw [k3]; exact b3, a4⟩

/-- The next file: the first of its sets follows the last of this one. -/
theorem query_feed {d : Ds T} {s0 s1 s2 : DataSet T} (h : Inv E d s0 s1 s2 []) (h12 : s1.epoch < s2.epoch)
    (h01 : s0.epoch < s1.epoch) (hdir : d.dir = true) {a : Aod T} (hfeed : E.feed d.a = .ok (some a)) {x0 x1 : DataSet T}
    {xs : List (DataSet T)} (hfile : FileOf E.date E.ty a (x0 :: x1 :: xs)) (hsame : a.maxDegree = d.a.maxDegree) {t : T}
    (h1 : s2.epoch ≤ t) (h2 : t < x0.epoch) {cs : Coeffs ℝ} (hf : Fits d.a.maxDegree cs) :
    ∃ d' cs', Ds.coeffsAt E t d cs = .ok (0, d', cs') ∧ OnLine E.day d.a.maxDegree t s2 x0 cs cs' ∧
      Inv E d' s1 s2 x0 (x1 :: xs) ∧ d'.a = a ∧ d'.dir = true := by
  have heof : Ds.eof E d.it = true := by
    obtain ⟨e1, e2⟩ := h.it
    unfold Ds.eof; rw [e1, e2]; simp
  have hn : 0 ≤ a.maxDegree := by rw [hsame]; exact h.n
  have e1 : Ds.hunt E t d = .ok (-100, d) := by
    unfold Ds.hunt Ds.hunt1
    rw [h.b0.1, h.b1.1, h.b2.1, heof, if_neg (fun hh => absurd hh.2 (not_lt.mpr (h12.le.trans h1))),
      if_neg (fun hh => absurd hh.2 (not_lt.mpr h1)), if_neg (fun hh => absurd hh.2 (by simp)),
      if_neg (not_lt.mpr ((h01.trans h12).le.trans h1)), if_pos ⟨h1, rfl⟩]
    rfl
  obtain ⟨it0, e2, a2⟩ := begin_ok hfile (by simp) ⟨In.start a.text, d.it.hdr⟩
  obtain ⟨it1, c2, e3, k3, a3, b3⟩ := coll_ok hn a2 (c := d.c0) (by rw [hsame]; exact h.b0.2.1)
  obtain ⟨it2, e4, a4⟩ := adv_ok a3
  simp only [reduceCtorEq, if_false] at e4
  have e5 : ∃ d', Ds.feedNext E d = .ok (0, d') ∧ Inv E d' s1 s2 x0 (x1 :: xs) ∧ d'.a = a ∧ d'.dir = true := by
    unfold Ds.feedNext
    rw [hfeed, Res.bind]
    simp only [e2, e3, e4, Res.bind, ne_eq, not_true, if_false]
    refine ⟨_, rfl, ⟨hn, ?_, ?_, ?_, a4⟩, rfl, hdir⟩
    · simp only; rw [hsame]; exact h.b1
    · simp only; rw [hsame]; exact h.b2
    · simp only; rw [k3]; exact b3
  obtain ⟨d', e5, hi, ha, hd⟩ := e5
  obtain ⟨cs', e6, hl⟩ := at_second hday hi h1 h2 (by rw [ha, hsame]; exact hf)
  refine ⟨d', cs', ?_, by rw [ha, hsame] at hl; exact hl, hi, ha, hd⟩
  have e7 : Ds.hunt E t d' = .ok (1, d') := by
    unfold Ds.hunt Ds.hunt1
    rw [hi.b0.1, hi.b1.1, hi.b2.1, if_neg (fun hh => absurd hh.2 (not_lt.mpr h1)), if_pos ⟨h1, h2⟩]
    rfl
  unfold Ds.coeffsAt
  rw [h.b0.1, h.b1.1, h.b2.1, if_neg (fun hh => absurd hh.2 (not_lt.mpr (h12.le.trans h1))),
    if_neg (fun hh => absurd hh.2 (not_lt.mpr h1)), e1]
  simp only [Res.bind]
  rw [if_neg (by omega), if_pos ⟨trivial, hdir⟩, e5]
  simp only [e7]
  rw [if_neg (by simp), if_neg (by omega), e6]

end Verif.Aod1b
