import Verif.Proof.Orient
import Verif.Props.Gcrs
import Verif.Props.CostgTide
/-
C99: Earth orientation at an epoch from a file of records.
-/
namespace Verif.Orient
open Verif Verif.Eop Verif.EopTides Verif.Angle Polynomial

/-- The Modified Julian Date of an epoch. -/
noncomputable def mjd (tt : Iau.Epoch) : ℝ := (tt.mjd : ℝ) + tt.f

theorem centuries_mjd (tt : Iau.Epoch) : centuries (mjd tt) = tt.jcenturies := rfl

theorem gmst_sidereal (dat : ℝ → ℝ) (tt : Iau.Epoch) (d : ℝ) :
    Cong (Iau.gmst tt (tt2ut1 dat tt d)) (sidereal (mjd tt) (d - dat (mjd tt))) := by
  refine (gmst_correct tt _).2.trans (Cong.of_eq ?_)
  have h : (tt2ut1 dat tt d).daysSinceJ2000 = mjd tt - 51544.5 + (d - dat (mjd tt) - 32.184) / 86400 := by
    unfold Iau.Epoch.daysSinceJ2000 tt2ut1 mjd
    simp only [Int.floor_add_fract]
    ring
  unfold sidereal
  rw [h, centuries_mjd]
  unfold sec2rad PoleTide.rad
  ring

theorem split_map {recs : List (Rec ℚ)} {pre l r post : List (Rec ℝ)} (h : recs.map reg = pre ++ l ++ r ++ post) :
    ∃ pre' l' r' post', recs = pre' ++ l' ++ r' ++ post' ∧ pre = pre'.map reg ∧ l = l'.map reg ∧ r = r'.map reg ∧ post = post'.map reg := by
  obtain ⟨a, post', e1, e2, e3⟩ := List.map_eq_append_iff.mp h
  obtain ⟨b, r', f1, f2, f3⟩ := List.map_eq_append_iff.mp e2
  obtain ⟨pre', l', g1, g2, g3⟩ := List.map_eq_append_iff.mp f2
  exact ⟨pre', l', r', post', by rw [e1, f1, g1], g2.symm, g3.symm, f3.symm, e3.symm⟩

/-- The records that are used are the nearest on each side. -/
theorem nearest_of {recs : List (Rec ℚ)} (hs : Sorted recs) {t : ℝ} {m : Nat} {l r : List (Rec ℝ)} (hw : Window (recs.map reg) t m l r)
    (h1 : 1 ≤ m) (hm : (m : Int) = min ((5 + 1) / 2) (min ((recs.map reg).filter (fun x => x.t ≤ t)).length
      ((recs.map reg).filter (fun x => t < x.t)).length)) :
    ∃ l' r', l = l'.map reg ∧ r = r'.map reg ∧ Nearest recs t l' r' := by
  obtain ⟨⟨pre, post, e⟩, hl, hr, ll, lr⟩ := hw
  obtain ⟨pre', l', r', post', e', ep, el, er, epo⟩ := split_map e
  have hs' := sorted_reg hs
  rw [e] at hs'
  obtain ⟨s1, -, s2⟩ := List.pairwise_append.mp hs'
  obtain ⟨s3, -, s4⟩ := List.pairwise_append.mp s1
  obtain ⟨-, -, s5⟩ := List.pairwise_append.mp s3
  obtain ⟨y, hy⟩ : ∃ y, y ∈ l := List.exists_mem_of_length_pos (by omega)
  obtain ⟨z, hz⟩ : ∃ z, z ∈ r := List.exists_mem_of_length_pos (by omega)
  have hpre : ∀ x ∈ pre, x.t ≤ t := fun x hx => (s5 x hx y hy).le.trans (hl y hy)
  have hpost : ∀ x ∈ post, t < x.t := fun x hx => (hr z hz).trans (s2 z (by simp [hz]) x hx)
  have c1 : ((recs.map reg).filter (fun x => x.t ≤ t)).length = pre.length + m := by
    rw [e]
    simp only [List.filter_append, List.length_append]
    rw [List.filter_eq_self.mpr (fun a ha => by simpa using hpre a ha), List.filter_eq_self.mpr (fun a ha => by simpa using hl a ha),
      List.filter_eq_nil_iff.mpr (fun a ha => by simpa using hr a ha), List.filter_eq_nil_iff.mpr (fun a ha => by simpa using hpost a ha), ll]
    simp
  have c2 : ((recs.map reg).filter (fun x => t < x.t)).length = m + post.length := by
    rw [e]
    simp only [List.filter_append, List.length_append]
    rw [List.filter_eq_nil_iff.mpr (fun a ha => by simpa using hpre a ha), List.filter_eq_nil_iff.mpr (fun a ha => by simpa using hl a ha),
      List.filter_eq_self.mpr (fun a ha => by simpa using hr a ha), List.filter_eq_self.mpr (fun a ha => by simpa using hpost a ha), lr]
    simp
  rw [c1, c2] at hm
  have ll' : l'.length = m := by rw [← ll, el, List.length_map]
  have lr' : r'.length = m := by rw [← lr, er, List.length_map]
  have lp : pre.length = pre'.length := by rw [ep, List.length_map]
  have lq : post.length = post'.length := by rw [epo, List.length_map]
  refine ⟨l', r', el, er, ⟨pre', post', e', ?_⟩, ?_, ?_, by omega, by omega, by omega⟩
  · rw [← List.length_eq_zero_iff (l := pre'), ← List.length_eq_zero_iff (l := post')]
    omega
  · intro x hx
    exact hl (reg x) (by rw [el]; exact List.mem_map_of_mem hx)
  · intro x hx
    exact hr (reg x) (by rw [er]; exact List.mem_map_of_mem hx)

/-- The cached iterator refers to the series, which holds the records with the zonal tides removed. -/
structure Holding (recs : List (Rec ℚ)) (s : Series ℝ) : Prop where
  vec : s.vec = recs.map reg
  cache : s.CacheOk

/-- C99: between two records, before the zonal tides are added back: the Earth orientation of the Conventions less the zonal tides. -/
theorem interpolated_at (dat : ℝ → ℝ) {recs : List (Rec ℚ)} (hs : Sorted recs) {s : Series ℝ} (hh : Holding recs s) (tt : Iau.Epoch) (old : Rec ℝ)
    (h1 : ∃ r ∈ recs, (r.t : ℝ) ≤ mjd tt) (h2 : ∃ r ∈ recs, mjd tt < (r.t : ℝ)) :
    ∃ s' e, interpolated dat s tt old = .ok (s', e, true) ∧ Holding recs s' ∧
      OrientedAt recs (mjd tt) ⟨e.xp, e.yp, e.dut - dat (mjd tt) + zonalUT1 (centuries (mjd tt)), e.lod + zonalLod (centuries (mjd tt)), e.dX, e.dY⟩ := by
  obtain ⟨hv, hc⟩ := hh
  have hss : Sorted s.vec := by rw [hv]; exact sorted_reg hs
  obtain ⟨st, e, s1, m, l, r, q1, q2, q3, q4, q5, q6, q7, q8, q9, q10⟩ := eop_inside dat hss hc (mjd tt)
    (by obtain ⟨x, hx, hl⟩ := h1; exact ⟨reg x, by rw [hv]; exact List.mem_map_of_mem hx, hl⟩)
    (by obtain ⟨x, hx, hl⟩ := h2; exact ⟨reg x, by rw [hv]; exact List.mem_map_of_mem hx, hl⟩) old 5 (by norm_num) (by norm_num)
  rw [hv] at q4 q7
  obtain ⟨l', r', el, er, hn⟩ := nearest_of hs q4 q6 (by omega)
  have hst : ¬ (st = .prior ∨ st = .later) := by
    have hmm : (m : Int) ≤ 3 := by rw [q7]; exact min_le_left _ _
    rcases Nat.lt_or_eq_of_le q6 with h | h
    · rcases lt_or_eq_of_le hmm with h3 | h3
      · rw [q10.mpr ⟨h, by omega⟩]; simp
      · rw [q9.mpr ⟨h, by omega⟩]; simp
    · rw [q8.mpr h.symm]; simp
  obtain ⟨pre, post, ep, -⟩ := hn.split
  have hs1 : Sorted s1.vec := by rw [q2]; exact hss
  obtain ⟨l0, a, rfl⟩ := List.eq_nil_or_concat l' |>.resolve_left (by intro h; have := hn.some; rw [h] at this; simp at this)
  obtain ⟨b, r0, rfl⟩ := List.exists_cons_of_ne_nil (l := r') (by intro h; have := hn.same; rw [h] at this; simp at this)
  have hra := hn.left a (by simp)
  have hrb := hn.right b (by simp)
  have ep' : recs = (pre ++ l0) ++ a :: b :: (r0 ++ post) := by rw [ep]; simp
  obtain ⟨d, s2, g1, g2⟩ := (approx_dut1_spec dat hs1 q3 (mjd tt)).2.2 ((pre ++ l0).map reg) (reg a) (reg b) ((r0 ++ post).map reg)
    (by rw [q2, hv, ep']; simp) hra hrb
  obtain ⟨_, _, s2', g1', g3, g4⟩ := approx_vec dat hs1 q3 (by rw [q2, hv, ep']; simp) (mjd tt)
  rw [g1] at g1'
  cases g1'
  obtain ⟨k1, k2, k3, k4⟩ := daily_all (T := tt.jcenturies) (gmst_sidereal dat tt d)
  unfold interpolated
  rw [show (tt.mjd : ℝ) + tt.f = mjd tt from rfl, q1]
  simp only [Res.bind]
  rw [if_neg hst, g1]
  refine ⟨_, _, rfl, ⟨by rw [g3, q2, hv], g4⟩, _, _, a, b, hn, ⟨_, _, ep'⟩, hra, hrb, ?_⟩
  have hg : d - dat (mjd tt) = ut1R a + (ut1R b - ut1R a) * ((mjd tt - a.t) / (b.t - a.t)) := by
    rw [g2]
    show ((a.dut : ℝ) - zonalUT1 _ - (a.dat : ℝ)) + (((b.dut : ℝ) - zonalUT1 _ - (b.dat : ℝ)) - ((a.dut : ℝ) - zonalUT1 _ - (a.dat : ℝ))) *
      ((mjd tt - (a.t : ℝ)) / ((b.t : ℝ) - (a.t : ℝ))) = _
    unfold ut1R
    ring
  rw [← hg]
  obtain ⟨-, i1, i2, i3, i4, i5, i6⟩ := q5
  rw [el, er, ← List.map_append] at i1 i2 i3 i4 i5 i6
  rw [centuries_mjd]
  refine ⟨through_of (q' := fun r => (r.xp : ℝ)) (q := Rec.xp) ?_ fun _ => rfl, through_of (q' := fun r => (r.yp : ℝ)) (q := Rec.yp) ?_ fun _ => rfl,
    through_of (q' := ut1R) (q := fun r => r.dut - r.dat) ?_ fun r => ?_, through_of (q' := lodR) (q := Rec.lod) ?_ fun r => ?_,
    through_of (q' := fun r => (r.dX : ℝ)) (q := Rec.dX) ?_ fun _ => rfl, through_of (q' := fun r => (r.dY : ℝ)) (q := Rec.dY) ?_ fun _ => rfl⟩
  · rw [centuries_mjd]
    convert i1 using 1
    simp only [addDaily]
    rw [← k1]; ring
  · rw [centuries_mjd]
    convert i2 using 1
    simp only [addDaily]
    rw [← k2]; ring
  · rw [centuries_mjd]
    convert i3 using 1
    simp only [addDaily]
    rw [← k3]; ring
  · show (r.dut : ℝ) - zonalUT1 _ - (r.dat : ℝ) = _
    unfold ut1R; ring
  · rw [centuries_mjd]
    convert i4 using 1
    simp only [addDaily]
    rw [← k4]; ring
  · rfl
  · exact i5
  · exact i6


/-- C99: between two records the record computed is the Earth orientation of the Conventions. -/
theorem oriented_at (dat : ℝ → ℝ) {recs : List (Rec ℚ)} (hs : Sorted recs) {s : Series ℝ} (hh : Holding recs s) (tt : Iau.Epoch) (old : Rec ℝ)
    (h1 : ∃ r ∈ recs, (r.t : ℝ) ≤ mjd tt) (h2 : ∃ r ∈ recs, mjd tt < (r.t : ℝ)) :
    ∃ s' e, oriented dat s tt old = .ok (s', e, true) ∧ Holding recs s' ∧
      OrientedAt recs (mjd tt) ⟨e.xp, e.yp, e.dut - dat (mjd tt), e.lod, e.dX, e.dY⟩ := by
  obtain ⟨s', e, q1, q2, q3⟩ := interpolated_at dat hs hh tt old h1 h2
  refine ⟨s', addZonal e (deopZonalTide (fundarg tt.jcenturies)), ?_, q2, ?_⟩
  · unfold oriented
    rw [q1]
    rfl
  · simp only [addZonal, zonal_ut1, zonal_lod]
    rw [centuries_mjd] at q3
    rwa [show e.dut + zonalUT1 tt.jcenturies - dat (mjd tt) = e.dut - dat (mjd tt) + zonalUT1 tt.jcenturies by ring]

/-- C99: before the first record and from the last one on there is no Earth orientation. -/
theorem oriented_outside (dat : ℝ → ℝ) {recs : List (Rec ℚ)} (hs : Sorted recs) (hne : recs ≠ []) {s : Series ℝ} (hh : Holding recs s)
    (tt : Iau.Epoch) (old : Rec ℝ) (h : (∀ r ∈ recs, mjd tt < (r.t : ℝ)) ∨ (∀ r ∈ recs, (r.t : ℝ) ≤ mjd tt)) :
    ∃ s' e, interpolated dat s tt old = .ok (s', e, false) ∧ oriented dat s tt old = .ok (s', e, false) ∧ Holding recs s' := by
  obtain ⟨hv, hc⟩ := hh
  have hss : Sorted s.vec := by rw [hv]; exact sorted_reg hs
  have key : ∃ st s' e, s.interpolate dat (mjd tt) old 5 = .ok (st, e, s') ∧ (st = .prior ∨ st = .later) ∧ s'.vec = s.vec ∧ s'.CacheOk := by
    rcases h with h | h
    · obtain ⟨r0, rest, rfl⟩ := List.exists_cons_of_ne_nil hne
      obtain ⟨s', q1, q2, q3⟩ := eop_prior dat hss hc (hv.trans (List.map_cons ..)) (mjd tt) (h r0 (by simp)) old 5 (by norm_num)
      exact ⟨_, s', _, q1, Or.inl rfl, q2, q3⟩
    · obtain ⟨pre, rn, rfl⟩ := (List.eq_nil_or_concat recs).resolve_left hne
      obtain ⟨s', q1, q2, q3⟩ := eop_later dat hss hc (pre := pre.map reg) (rn := reg rn) (by rw [hv]; simp) (mjd tt) (h rn (by simp)) old 5
        (by norm_num)
      exact ⟨_, s', _, q1, Or.inr rfl, q2, q3⟩
  obtain ⟨st, s', e, q1, q2, q3, q4⟩ := key
  have hi : interpolated dat s tt old = .ok (s', e, false) := by
    unfold interpolated
    rw [show (tt.mjd : ℝ) + tt.f = mjd tt from rfl, q1]
    simp only [Res.bind]
    rw [if_pos q2]
  refine ⟨s', e, hi, ?_, by rw [q3, hv], q4⟩
  unfold oriented
  rw [hi]
  rfl

/-! ### The Earth orientation at an epoch is determined by the records -/

theorem through_unique {w : List (Rec ℚ)} (hw : Sorted w) {q : Rec ℚ → ℝ} {t v v' : ℝ} (h : Through w q t v) (h' : Through w q t v') : v = v' := by
  obtain ⟨p, p1, p2, rfl⟩ := h
  obtain ⟨p', p1', p2', rfl⟩ := h'
  have hn : (w.map fun r => (r.t : ℝ)).Nodup := by
    rw [List.Nodup, List.pairwise_map]
    exact hw.imp fun h => ((Rat.cast_lt (K := ℝ)).mpr h).ne
  have hc : ((w.map fun r => (r.t : ℝ)).toFinset).card = w.length := by rw [List.toFinset_card_of_nodup hn, List.length_map]
  have := Polynomial.eq_of_degrees_lt_of_eval_finset_eq (w.map fun r => (r.t : ℝ)).toFinset (by rw [hc]; exact p1) (by rw [hc]; exact p1')
    (fun x hx => by
      simp only [List.mem_toFinset, List.mem_map] at hx
      obtain ⟨r, hr, rfl⟩ := hx
      rw [p2 r hr, p2' r hr])
  rw [this]

theorem nearest_unique {recs l r l' r' : List (Rec ℚ)} (hs : Sorted recs) {t : ℝ} (h : Nearest recs t l r) (h' : Nearest recs t l' r') :
    l = l' ∧ r = r' := by
  have key : ∀ {l r : List (Rec ℚ)}, Nearest recs t l r → ∃ pre post, recs = pre ++ l ++ r ++ post ∧ (l.length = 3 ∨ pre = [] ∨ post = []) ∧
      pre ++ l = recs.filter (fun x => decide ((x.t : ℝ) ≤ t)) ∧ r ++ post = recs.filter (fun x => decide (t < (x.t : ℝ))) := by
    intro l r h
    obtain ⟨pre, post, e, hm⟩ := h.split
    have hs' := hs
    rw [e] at hs'
    obtain ⟨s1, -, s2⟩ := List.pairwise_append.mp hs'
    obtain ⟨s3, -, s4⟩ := List.pairwise_append.mp s1
    obtain ⟨-, -, s5⟩ := List.pairwise_append.mp s3
    obtain ⟨y, hy⟩ : ∃ y, y ∈ l := List.exists_mem_of_length_pos (by have := h.some; omega)
    obtain ⟨z, hz⟩ : ∃ z, z ∈ r := List.exists_mem_of_length_pos (by have := h.some; have := h.same; omega)
    have c : ∀ {a b : Rec ℚ}, a.t < b.t → (a.t : ℝ) < (b.t : ℝ) := fun h => by exact_mod_cast h
    have hpre : ∀ x ∈ pre, (x.t : ℝ) ≤ t := fun x hx => (c (s5 x hx y hy)).le.trans (h.left y hy)
    have hpost : ∀ x ∈ post, t < (x.t : ℝ) := fun x hx => (h.right z hz).trans (c (s2 z (by simp [hz]) x hx))
    refine ⟨pre, post, e, hm, ?_, ?_⟩
    · rw [e]
      simp only [List.filter_append]
      rw [List.filter_eq_self.mpr (fun a ha => by simpa using hpre a ha), List.filter_eq_self.mpr (fun a ha => by simpa using h.left a ha),
        List.filter_eq_nil_iff.mpr (fun a ha => by simpa using h.right a ha), List.filter_eq_nil_iff.mpr (fun a ha => by simpa using hpost a ha)]
      simp
    · rw [e]
      simp only [List.filter_append]
      rw [List.filter_eq_nil_iff.mpr (fun a ha => by simpa using hpre a ha), List.filter_eq_nil_iff.mpr (fun a ha => by simpa using h.left a ha),
        List.filter_eq_self.mpr (fun a ha => by simpa using h.right a ha), List.filter_eq_self.mpr (fun a ha => by simpa using hpost a ha)]
      simp
  obtain ⟨pre, post, e, hm, f1, f2⟩ := key h
  obtain ⟨pre', post', e', hm', f1', f2'⟩ := key h'
  have g1 : pre ++ l = pre' ++ l' := f1.trans f1'.symm
  have g2 : r ++ post = r' ++ post' := f2.trans f2'.symm
  have n1 := congrArg List.length g1
  have n2 := congrArg List.length g2
  simp only [List.length_append] at n1 n2
  have hlen : l.length = l'.length := by
    have a1 := h.same; have a2 := h'.same; have b1 := h.most; have b2 := h'.most
    simp only [← List.length_eq_zero_iff] at hm hm'
    omega
  exact ⟨(List.append_inj' g1 hlen).2, (List.append_inj g2 (by rw [← h.same, ← h'.same, hlen])).1⟩

theorem neighbours_unique {recs pre post pre' post' : List (Rec ℚ)} {a b a' b' : Rec ℚ} (hs : Sorted recs) {t : ℝ}
    (h : recs = pre ++ a :: b :: post) (h' : recs = pre' ++ a' :: b' :: post')
    (ha : (a.t : ℝ) ≤ t) (hb : t < (b.t : ℝ)) (ha' : (a'.t : ℝ) ≤ t) (hb' : t < (b'.t : ℝ)) : a = a' ∧ b = b' := by
  have key : ∀ {pre post : List (Rec ℚ)} {a b : Rec ℚ}, recs = pre ++ a :: b :: post → (a.t : ℝ) ≤ t → t < (b.t : ℝ) →
      pre ++ [a] = recs.filter (fun x => decide ((x.t : ℝ) ≤ t)) ∧ b :: post = recs.filter (fun x => decide (t < (x.t : ℝ))) := by
    intro pre post a b e ha hb
    have hs' := hs
    rw [e] at hs'
    obtain ⟨-, s1, s2⟩ := List.pairwise_append.mp hs'
    have c : ∀ {a b : Rec ℚ}, a.t < b.t → (a.t : ℝ) < (b.t : ℝ) := fun h => by exact_mod_cast h
    have hpre : ∀ x ∈ pre, (x.t : ℝ) ≤ t := fun x hx => (c (s2 x hx a (by simp))).le.trans ha
    have hpost : ∀ x ∈ post, t < (x.t : ℝ) := fun x hx =>
      hb.trans (c ((List.pairwise_cons.mp (List.pairwise_cons.mp s1).2).1 x hx))
    constructor
    · rw [e]
      simp only [List.filter_append, List.filter_cons]
      rw [List.filter_eq_self.mpr (fun a ha => by simpa using hpre a ha), List.filter_eq_nil_iff.mpr (fun a ha => by simpa using hpost a ha),
        if_pos (by simpa using ha), if_neg (by simpa using hb)]
    · rw [e]
      simp only [List.filter_append, List.filter_cons]
      rw [List.filter_eq_nil_iff.mpr (fun a ha => by simpa using hpre a ha), List.filter_eq_self.mpr (fun a ha => by simpa using hpost a ha),
        if_neg (by simpa using ha), if_pos (by simpa using hb)]
      simp
  obtain ⟨f1, f2⟩ := key h ha hb
  obtain ⟨f1', f2'⟩ := key h' ha' hb'
  have g1 := f1.trans f1'.symm
  have g2 := f2.trans f2'.symm
  refine ⟨?_, (List.cons.inj g2).1⟩
  have := (List.append_inj' g1 rfl).2
  simpa using this

/-- C99: the records determine the Earth orientation. -/
theorem orientation_unique {recs : List (Rec ℚ)} (hs : Sorted recs) {t : ℝ} {e e' : Eops} (h : OrientedAt recs t e) (h' : OrientedAt recs t e') :
    e = e' := by
  obtain ⟨l, r, a, b, hn, ⟨pre, post, ep⟩, ha, hb, hE⟩ := h
  obtain ⟨l', r', a', b', hn', ⟨pre', post', ep'⟩, ha', hb', hE'⟩ := h'
  obtain ⟨rfl, rfl⟩ := nearest_unique hs hn hn'
  obtain ⟨rfl, rfl⟩ := neighbours_unique hs ep ep' ha hb ha' hb'
  have hw : Sorted (l ++ r) := by
    obtain ⟨p, q, e, -⟩ := hn.split
    exact sorted_sub hs (pre := p) (post := q) (by rw [e]; simp)
  have x1 := through_unique hw hE.xp hE'.xp
  have x2 := through_unique hw hE.yp hE'.yp
  have x3 := through_unique hw hE.ut1 hE'.ut1
  have x4 := through_unique hw hE.lod hE'.lod
  have x5 := through_unique hw hE.dX hE'.dX
  have x6 := through_unique hw hE.dY hE'.dY
  cases e; cases e'
  simp only [Eops.mk.injEq] at *
  exact ⟨by linarith, by linarith, by linarith, by linarith, x5, x6⟩

end Verif.Orient
