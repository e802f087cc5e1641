import Verif.Model.PoleExample
import Verif.Spec.PoleExample
import Verif.Props.PoleTide
import Verif.Props.DesaiGrid
import Verif.Props.OrientExample
/-
Property C100: the example program for the displacement by pole tides.
-/
namespace Verif.PoleExample
open Verif Verif.Eop Verif.PoleTide Verif.Grid Verif.DesaiGrid
open Verif.Costg (Recorded)

/-- The lines of one turn: one for each site, in order, with the displacements for the epoch, the pole and the coefficients. -/
def Lines (recs : List (Eop.Rec ℚ)) (t : ℚ) (P : ℚ × ℚ → SiteCoeffs ℚ → Prop) (sta : List (ℚ × ℚ)) (k : Nat) (ls : List Shown) : Prop :=
  ∃ xp yp, PoleAt recs t xp yp ∧ ls.map (·.name) = (List.range' k sta.length) ∧
    List.Forall₂ (fun s (l : Shown) => l.epoch = t ∧ SolidShift t xp yp s.1 s.2 l.solid ∧ ∃ c, P s c ∧ OceanShift t xp yp s.1 s.2 c l.ocean) sta ls

theorem ofDeg_eq (d : ℚ) : ofDeg d = radians d := by unfold ofDeg radians; ring

theorem siteLines_ok (t xp yp : ℚ) {P : ℚ × ℚ → SiteCoeffs ℚ → Prop} : ∀ (k : Nat) {sta : List (ℚ × ℚ)} {cs : List (SiteCoeffs ℚ)},
    List.Forall₂ P sta cs → k + sta.length ≤ 6 → ∃ ls, siteLines t xp yp k sta cs = .ok ls ∧ ls.map (·.name) = List.range' k sta.length ∧
      List.Forall₂ (fun s (l : Shown) => l.epoch = t ∧ SolidShift t xp yp s.1 s.2 l.solid ∧ ∃ c, P s c ∧ OceanShift t xp yp s.1 s.2 c l.ocean) sta ls
  | k, [], [], .nil, _ => ⟨[], by unfold siteLines; rfl, rfl, .nil⟩
  | k, s :: sta, c :: cs, .cons h hr, hk => by
    rw [List.length_cons] at hk
    obtain ⟨ls, h1, h2, h3⟩ := siteLines_ok t xp yp (k + 1) hr (by omega)
    refine ⟨_, by rw [siteLines, if_neg (by omega)]; simp only [h1, Res.bind]; rfl, ?_, .cons ⟨rfl, ?_, c, h, ?_⟩ h3⟩
    · rw [List.map_cons, h2, List.length_cons, List.range'_succ]
    · have := deformation_components (years t) xp yp (radians s.1) (radians s.2)
      simp only [ofDeg_eq]
      exact this
    · have := ocean_components (years t) xp yp (radians s.1) (radians s.2) (realCoeffs c) 6378136.6 3.986004418e14 7.2921151467064e-5 6.67428e-11 9.7803278
      simp only [ofDeg_eq]
      exact this

theorem pole_of {recs : List (Eop.Rec ℚ)} (hs : Sorted recs) {dat : ℚ → ℚ} {t : ℚ} {m : Nat} {l r : List (Eop.Rec ℚ)} {e : Eop.Rec ℚ}
    (hw : Window recs t m l r) (he : Eop.Interpolates dat (l ++ r) t e) (h1 : 1 ≤ m)
    (hm : (m : Int) = min (((5 : Int) + 1) / 2) (min (recs.filter (fun x => x.t ≤ t)).length (recs.filter (fun x => t < x.t)).length)) :
    PoleAt recs t e.xp e.yp := by
  obtain ⟨⟨pre, post, hv⟩, hl, hr, ll, lr⟩ := hw
  have hs' := hs
  rw [hv] at hs'
  obtain ⟨s1, -, s2⟩ := List.pairwise_append.mp hs'
  obtain ⟨s3, s4, s5⟩ := List.pairwise_append.mp s1
  obtain ⟨s6, s7, s8⟩ := List.pairwise_append.mp s3
  have hpre : ∀ x ∈ pre ++ l, x.t ≤ t := by
    intro x hx
    rcases List.mem_append.mp hx with hx | hx
    · obtain ⟨y, hy⟩ := List.exists_mem_of_length_pos (l := l) (by omega)
      exact (s8 x hx y hy).le.trans (hl y hy)
    · exact hl x hx
  have hpost : ∀ x ∈ r ++ post, t < x.t := by
    intro x hx
    rcases List.mem_append.mp hx with hx | hx
    · exact hr x hx
    · obtain ⟨y, hy⟩ := List.exists_mem_of_length_pos (l := r) (by omega)
      exact (hr y hy).trans (s2 y (by simp [hy]) x hx)
  have hv' : recs = (pre ++ l) ++ (r ++ post) := by rw [hv]; simp
  have f1 : (recs.filter (fun x => x.t ≤ t)) = pre ++ l := by
    rw [hv', List.filter_append, List.filter_eq_self.mpr (by intro a ha; simpa using hpre a ha),
      List.filter_eq_nil_iff.mpr (by intro a ha; simpa using hpost a ha), List.append_nil]
  have f2 : (recs.filter (fun x => t < x.t)) = r ++ post := by
    rw [hv', List.filter_append, List.filter_eq_nil_iff.mpr (by intro a ha; simpa using hpre a ha),
      List.filter_eq_self.mpr (by intro a ha; simpa using hpost a ha), List.nil_append]
  rw [f1, f2, List.length_append, List.length_append, ll, lr] at hm
  refine ⟨l, r, pre, post, hv, hpre, hpost, by omega, by omega, by omega, ?_, he.xp, he.yp⟩
  by_cases g1 : pre.length = 0
  · exact .inr (.inl (List.length_eq_zero_iff.mp g1))
  by_cases g2 : post.length = 0
  · exact .inr (.inr (List.length_eq_zero_iff.mp g2))
  left
  omega

theorem turns_ok (dat : ℚ → ℚ) {recs : List (Eop.Rec ℚ)} (hs : Sorted recs) (h1 : ∃ r ∈ recs, r.t ≤ 60144) (h2 : ∃ r ∈ recs, 60144 < r.t)
    (old : Eop.Rec ℚ) {P : ℚ × ℚ → SiteCoeffs ℚ → Prop} {sta : List (ℚ × ℚ)} {cs : List (SiteCoeffs ℚ)} (hp : List.Forall₂ P sta cs)
    (h6 : sta.length ≤ 6) : ∀ (n : Nat) {s : Series ℚ} (lss : List (List Shown)), s.vec = recs → s.CacheOk →
    (∀ ls ∈ lss, Lines recs 60144 P sta 0 ls) →
    ∃ s' lss', State.turns dat sta cs old n (.running s 60144 lss) = .ok (.running s' 60144 lss') ∧ lss'.length = lss.length + n ∧
      ∀ ls ∈ lss', Lines recs 60144 P sta 0 ls
  | 0, s, lss, _, _, hl => ⟨s, lss, rfl, rfl, hl⟩
  | n + 1, s, lss, hv, hc, hl => by
    obtain ⟨st, e, s1, m, l, r, q1, q2, q3, q4, q5, q6, q7, q8, q9, q10⟩ := eop_inside dat (hv ▸ hs) hc 60144 (hv ▸ h1) (hv ▸ h2) old 5 (by norm_num) (by norm_num)
    rw [hv] at q4 q7
    have hpole := pole_of hs q4 q5 q6 q7
    obtain ⟨ls, k1, k2, k3⟩ := siteLines_ok 60144 e.xp e.yp 0 hp (by omega)
    obtain ⟨s', lss', p1, p2, p3⟩ := turns_ok dat hs h1 h2 old hp h6 n (s := s1) (ls :: lss) (q2.trans hv) q3 (by
      intro x hx
      rcases List.mem_cons.mp hx with rfl | hx
      · exact ⟨e.xp, e.yp, hpole, k2, k3⟩
      · exact hl x hx)
    refine ⟨s', lss', ?_, by rw [p2, List.length_cons]; omega, p3⟩
    have hst : ¬ (st = .prior ∨ st = .later) := by
      have : st = .linear ∨ st = .requested ∨ st = .decreased := by
        rw [q8, q9, q10]; omega
      rcases this with rfl | rfl | rfl <;> simp
    rw [State.turns, State.step, if_pos (by norm_num), q1]
    simp only [Res.bind]
    rw [if_neg hst, k1]
    exact p1

/-- The coefficients of a site: interpolated in the cell of the grid around the point opposite it (C48). -/
def CoeffsAt (g : G) (v : Int → Int → SiteCoeffs ℚ) (s : ℚ × ℚ) (c : SiteCoeffs ℚ) : Prop :=
  ∀ i j, g.InCell i j (s.1 + 180) s.2 → At g v i j (s.1 + 180) s.2 c

theorem run_ok (tt dat : ℚ → ℚ) (deg : ℚ × ℚ × ℚ → ℚ × ℚ) {junk : List ℚ} (hj : 8 ≤ junk.length) (old : Eop.Rec ℚ)
    {g : G} (hg : g.Ok) {hs data : List (List Char)} (hh : HeaderIs g hs) {v : Int → Int → SiteCoeffs ℚ} (hd : DataIs g v data)
    (hsta : ∀ x ∈ sites, ∃ i j, g.IsNode i j ∧ g.IsNode (i + 1) (j + 1) ∧ g.InCell i j ((deg x).1 + 180) (deg x).2)
    {eop : List (List Char)} {rs : List (Eop.Rec ℚ)} (he : Recorded tt dat eop rs)
    (h1 : ∃ r ∈ rs, 60142 ≤ r.t ∧ r.t ≤ 60144) (h2 : ∃ r ∈ rs, 60144 < r.t ∧ r.t < 60156) (n : Nat) :
    ∃ s lss, run tt dat deg junk old (some (hs ++ data)) (some eop) n = .ok (.running s 60144 lss) ∧ lss.length = n ∧
      ∀ ls ∈ lss, Lines (rs.filter fun r => 60142 ≤ r.t ∧ r.t < 60156) 60144 (CoeffsAt g v) (sites.map deg) 0 ls := by
  obtain ⟨cs, c1, c2⟩ := desai_grid_partial hg hh hd (sites.map deg) (by
    intro s hs
    obtain ⟨x, hx, rfl⟩ := List.mem_map.mp hs
    exact hsta x hx)
  obtain ⟨⟨c20, hc, hr⟩, hso⟩ := he
  obtain ⟨ser, e1, e2, e3, e4⟩ := parseC04_complete tt dat junk hj (60144 - 2) (60154 + 2) (by norm_num) c20 hc hr hso Series.new
  have hrange : inRange (60144 - 2) (60154 + 2) rs = rs.filter fun r => 60142 ≤ r.t ∧ r.t < 60156 := by
    unfold inRange
    norm_num
  rw [hrange] at e2
  obtain ⟨s, lss, p1, p2, p3⟩ := turns_ok dat (e2 ▸ e4) (by
      obtain ⟨r, m, a, b⟩ := h1
      exact ⟨r, List.mem_filter.mpr ⟨m, by simpa using ⟨a, by linarith⟩⟩, b⟩) (by
      obtain ⟨r, m, a, b⟩ := h2
      exact ⟨r, List.mem_filter.mpr ⟨m, by simpa using ⟨by linarith, b⟩⟩, a⟩) old (P := CoeffsAt g v) c2 (by simp [sites]) n (s := ser) [] e2 e3 (by simp)
  refine ⟨s, lss, ?_, by simpa using p2, p3⟩
  unfold run
  rw [c1]
  simp only [Res.bind]
  rw [if_neg (by simp), e1]
  simp only
  rw [if_neg (by simp)]
  exact p1

/-- C100, for a file of coefficients in whose grid the cell of every site (after the shift by 180° of C48) has four corners, and a file of Earth
orientation with records on both sides of the first epoch: the program never ends and prints no line for any epoch but the first, since `add_seconds`
leaves its epoch unchanged. After any number of turns of its loop it is still running at 19 July 2023 and has printed six lines for each turn. -/
theorem pole_example_fails (tt dat : ℚ → ℚ) (deg : ℚ × ℚ × ℚ → ℚ × ℚ) {junk : List ℚ} (hj : 8 ≤ junk.length) (old : Eop.Rec ℚ)
    {g : G} (hg : g.Ok) {hs data : List (List Char)} (hh : HeaderIs g hs) {v : Int → Int → SiteCoeffs ℚ} (hd : DataIs g v data)
    (hsta : ∀ x ∈ sites, ∃ i j, g.IsNode i j ∧ g.IsNode (i + 1) (j + 1) ∧ g.InCell i j ((deg x).1 + 180) (deg x).2)
    {eop : List (List Char)} {rs : List (Eop.Rec ℚ)} (he : Recorded tt dat eop rs)
    (h1 : ∃ r ∈ rs, 60142 ≤ r.t ∧ r.t ≤ 60144) (h2 : ∃ r ∈ rs, 60144 < r.t ∧ r.t < 60156) (n : Nat) :
    ∃ s lss, run tt dat deg junk old (some (hs ++ data)) (some eop) n = .ok (.running s 60144 lss) ∧ lss.length = n ∧
      ∀ ls ∈ lss, ls.length = 6 ∧ ∀ l ∈ ls, l.epoch = 60144 := by
  obtain ⟨s, lss, p1, p2, p3⟩ := run_ok tt dat deg hj old hg hh hd hsta he h1 h2 n
  refine ⟨s, lss, p1, p2, fun ls hl => ?_⟩
  obtain ⟨xp, yp, -, -, h⟩ := p3 ls hl
  refine ⟨by rw [← h.length_eq]; rfl, fun l hm => ?_⟩
  obtain ⟨i, hi, rfl⟩ := List.mem_iff_getElem.mp hm
  exact ((List.forall₂_iff_get.mp h).2 i (by rw [h.length_eq]; exact hi) hi).1

/-- C100, the lines that are printed: in every turn one line for each of the six sites, in their order and under their names, with the displacements
by the pole tide and the ocean pole tide of the Conventions at the first epoch, the pole being interpolated in the nearest records of the file between 17 and
31 July (`pole_unique`). Missing: the later epochs (`pole_example_fails`); the coefficients are those of the point opposite the site (C48). -/
theorem pole_example_partial (tt dat : ℚ → ℚ) (deg : ℚ × ℚ × ℚ → ℚ × ℚ) {junk : List ℚ} (hj : 8 ≤ junk.length) (old : Eop.Rec ℚ)
    {g : G} (hg : g.Ok) {hs data : List (List Char)} (hh : HeaderIs g hs) {v : Int → Int → SiteCoeffs ℚ} (hd : DataIs g v data)
    (hsta : ∀ x ∈ sites, ∃ i j, g.IsNode i j ∧ g.IsNode (i + 1) (j + 1) ∧ g.InCell i j ((deg x).1 + 180) (deg x).2)
    {eop : List (List Char)} {rs : List (Eop.Rec ℚ)} (he : Recorded tt dat eop rs)
    (h1 : ∃ r ∈ rs, 60142 ≤ r.t ∧ r.t ≤ 60144) (h2 : ∃ r ∈ rs, 60144 < r.t ∧ r.t < 60156) (n : Nat) :
    ∃ s lss, run tt dat deg junk old (some (hs ++ data)) (some eop) n = .ok (.running s 60144 lss) ∧ lss.length = n ∧
      ∀ ls ∈ lss, ls.map (·.name) = [0, 1, 2, 3, 4, 5] ∧ ∃ xp yp, PoleAt (rs.filter fun r => 60142 ≤ r.t ∧ r.t < 60156) 60144 xp yp ∧
        List.Forall₂ (fun x (l : Shown) => l.epoch = 60144 ∧ SolidShift 60144 xp yp (deg x).1 (deg x).2 l.solid ∧
          ∃ c, (∀ i j, g.InCell i j ((deg x).1 + 180) (deg x).2 → At g v i j ((deg x).1 + 180) (deg x).2 c) ∧
            OceanShift 60144 xp yp (deg x).1 (deg x).2 c l.ocean) sites ls := by
  obtain ⟨s, lss, p1, p2, p3⟩ := run_ok tt dat deg hj old hg hh hd hsta he h1 h2 n
  refine ⟨s, lss, p1, p2, fun ls hl => ?_⟩
  obtain ⟨xp, yp, h3, h4, h5⟩ := p3 ls hl
  exact ⟨h4, xp, yp, h3, List.forall₂_map_left_iff.mp h5⟩

/-- C100: the program ends with status 1 before any line if the file of coefficients cannot be used ... -/
theorem pole_example_no_grid (tt dat : ℚ → ℚ) (deg : ℚ × ℚ × ℚ → ℚ × ℚ) (junk : List ℚ) (old : Eop.Rec ℚ) {grid : Option (List (List Char))}
    (eop : Option (List (List Char))) {st : Nat} {cs : List (SiteCoeffs ℚ)} (h : coeffs grid (sites.map deg) = .ok (st, cs)) (hst : st ≠ 0) (n : Nat) :
    run tt dat deg junk old grid eop n = .ok (.ended 1 []) := by
  unfold run
  rw [h]
  simp only [Res.bind]
  rw [if_pos hst]

example (deg : ℚ × ℚ × ℚ → ℚ × ℚ) (old : Eop.Rec ℚ) (eop : Option (List (List Char))) (n : Nat) :
    run id (fun _ => 37) deg [] old none eop n = .ok (.ended 1 []) := pole_example_no_grid id _ deg [] old eop (st := 1) (cs := []) rfl (by simp) n

/-- ... or if the file of Earth orientation cannot be opened ... -/
theorem pole_example_no_eop (tt dat : ℚ → ℚ) (deg : ℚ × ℚ × ℚ → ℚ × ℚ) (junk : List ℚ) (old : Eop.Rec ℚ) {grid : Option (List (List Char))}
    {st : Nat} {cs : List (SiteCoeffs ℚ)} (h : coeffs grid (sites.map deg) = .ok (st, cs)) (n : Nat) :
    run tt dat deg junk old grid none n = .ok (.ended 1 []) := by
  unfold run
  rw [h]
  simp only [Res.bind]
  split
  · rfl
  · rw [parse_no_file]
    simp

/-- ... or if the records between 17 and 31 July all come after the first epoch, or none does. -/
theorem pole_example_outside (tt dat : ℚ → ℚ) (deg : ℚ × ℚ × ℚ → ℚ × ℚ) {junk : List ℚ} (hj : 8 ≤ junk.length) (old : Eop.Rec ℚ)
    {grid : Option (List (List Char))} {cs : List (SiteCoeffs ℚ)} (h : coeffs grid (sites.map deg) = .ok (0, cs))
    {eop : List (List Char)} {rs : List (Eop.Rec ℚ)} (he : Recorded tt dat eop rs) (hne : ∃ r ∈ rs, 60142 ≤ r.t ∧ r.t < 60156)
    (ho : (∀ r ∈ rs, 60142 ≤ r.t → 60144 < r.t) ∨ ∀ r ∈ rs, r.t < 60156 → r.t ≤ 60144) (n : Nat) :
    run tt dat deg junk old grid (some eop) (n + 1) = .ok (.ended 1 []) := by
  obtain ⟨⟨c20, hc, hr⟩, hso⟩ := he
  obtain ⟨ser, e1, e2, e3, e4⟩ := parseC04_complete tt dat junk hj (60144 - 2) (60154 + 2) (by norm_num) c20 hc hr hso Series.new
  have hrange : ∀ r, r ∈ ser.vec ↔ r ∈ rs ∧ 60142 ≤ r.t ∧ r.t < 60156 := by
    intro r
    rw [e2]
    unfold inRange
    rw [List.mem_filter]
    norm_num
  obtain ⟨st, e, s', q1, q2, q3⟩ := eop_status_outside dat e4 e3 (by
    obtain ⟨r, h1, h2⟩ := hne
    exact List.ne_nil_of_mem ((hrange r).mpr ⟨h1, h2⟩)) 60144 old 5 (by norm_num) (by norm_num)
  have hst : st = .prior ∨ st = .later := by
    rw [q2, q3]
    exact ho.imp (fun ho r m => ho r ((hrange r).mp m).1 ((hrange r).mp m).2.1) (fun ho r m => ho r ((hrange r).mp m).1 ((hrange r).mp m).2.2)
  have hend : ∀ n, State.turns dat (sites.map deg) cs old n (.ended 1 []) = .ok (.ended 1 []) := by
    intro n
    induction n with
    | zero => rfl
    | succ n ih => rw [State.turns, State.step]; exact ih
  unfold run
  rw [h]
  simp only [Res.bind]
  rw [if_neg (by simp), e1]
  simp only
  rw [if_neg (by simp), State.turns, State.step, if_pos (by norm_num), q1]
  simp only [Res.bind]
  rw [if_pos hst]
  exact hend n

/-- C100: a file of Earth orientation without any record between 17 and 31 July does not end with status 1: the first query on the series
without records is undefined behaviour. -/
theorem pole_example_empty_fails (tt dat : ℚ → ℚ) (deg : ℚ × ℚ × ℚ → ℚ × ℚ) {junk : List ℚ} (hj : 8 ≤ junk.length) (old : Eop.Rec ℚ)
    {grid : Option (List (List Char))} {cs : List (SiteCoeffs ℚ)} (h : coeffs grid (sites.map deg) = .ok (0, cs))
    {eop : List (List Char)} {rs : List (Eop.Rec ℚ)} (he : Recorded tt dat eop rs) (hne : ∀ r ∈ rs, r.t < 60142 ∨ 60156 ≤ r.t) (n : Nat) :
    run tt dat deg junk old grid (some eop) (n + 1) = .ub := by
  obtain ⟨⟨c20, hc, hr⟩, hso⟩ := he
  obtain ⟨ser, e1, e2, e3, e4⟩ := parseC04_complete tt dat junk hj (60144 - 2) (60154 + 2) (by norm_num) c20 hc hr hso Series.new
  have hnil : ser.vec = [] := by
    rw [e2]
    unfold inRange
    refine List.filter_eq_nil_iff.mpr fun r m => ?_
    have := hne r m
    norm_num
    intro h
    rcases this with h' | h' <;> linarith
  have hub : ser.interpolate dat 60144 old 5 = .ub := by
    obtain ⟨l, hl, hle⟩ := e3
    rw [hnil] at hle
    have hl0 : l = 0 := by simpa using hle
    unfold Series.interpolate Series.hunt
    rw [if_neg (by norm_num), hl, hl0, hnil]
    simp [upperBound, Res.bind]
  unfold run
  rw [h]
  simp only [Res.bind]
  rw [if_neg (by simp), e1]
  simp only
  rw [if_neg (by simp), State.turns, State.step, if_pos (by norm_num), hub]
  rfl

/-- The pole of the specification is one. -/
theorem pole_unique {recs : List (Eop.Rec ℚ)} (hs : Sorted recs) {t xp yp xp' yp' : ℚ} (h : PoleAt recs t xp yp) (h' : PoleAt recs t xp' yp') :
    xp = xp' ∧ yp = yp' := by
  obtain ⟨l, r, pre, post, e, a1, a2, a3, a4, a5, a6, a7, a8⟩ := h
  obtain ⟨l', r', pre', post', e', b1, b2, b3, b4, b5, b6, b7, b8⟩ := h'
  have key : ∀ {l r pre post : List (Eop.Rec ℚ)}, recs = pre ++ l ++ r ++ post → (∀ x ∈ pre ++ l, x.t ≤ t) → (∀ x ∈ r ++ post, t < x.t) →
      recs.filter (fun x => x.t ≤ t) = pre ++ l ∧ recs.filter (fun x => t < x.t) = r ++ post := by
    intro l r pre post e p1 p2
    have hv' : recs = (pre ++ l) ++ (r ++ post) := by rw [e]; simp
    constructor
    · rw [hv', List.filter_append, List.filter_eq_self.mpr (by intro a ha; simpa using p1 a ha),
        List.filter_eq_nil_iff.mpr (by intro a ha; simpa using p2 a ha), List.append_nil]
    · rw [hv', List.filter_append, List.filter_eq_nil_iff.mpr (by intro a ha; simpa using p1 a ha),
        List.filter_eq_self.mpr (by intro a ha; simpa using p2 a ha), List.nil_append]
  obtain ⟨f1, f2⟩ := key e a1 a2
  obtain ⟨g1, g2⟩ := key e' b1 b2
  have k1 := f1.symm.trans g1
  have k2 := f2.symm.trans g2
  have n1 := congrArg List.length k1
  have n2 := congrArg List.length k2
  simp only [List.length_append] at n1 n2
  have z : ∀ {q : List (Eop.Rec ℚ)}, q = [] → q.length = 0 := fun h => by rw [h]; rfl
  have hlen : l.length = l'.length := by
    rcases a6 with a6 | a6 | a6 <;> rcases b6 with b6 | b6 | b6 <;> (try have := z a6) <;> (try have := z b6) <;> omega
  have hl : l = l' := (List.append_inj' k1 hlen).2
  have hr : r = r' := (List.append_inj k2 (by omega)).1
  subst hl hr
  have hw : Sorted (l ++ r) := sorted_sub hs (pre := pre) (post := post) (by rw [e]; simp)
  obtain ⟨f, u1, u2, rfl⟩ := b7
  obtain ⟨f', u1', u2', rfl⟩ := b8
  exact ⟨polyThrough_unique hw a7 f u1 u2, polyThrough_unique hw a8 f' u1' u2'⟩

/-! ### An instance -/

/-- Three days of Earth orientation around the first epoch. -/
def threeLines : List (List Char) := [' ' :: h1c0414, ' ' :: h2c0414, ' ' :: h3c0414] ++ ["60142", "60143", "60144"].map Orient.dayLine
def threeRecs : List (Eop.Rec ℚ) := [60142, 60143, 60144].map fun k : Int => ⟨Costg.exTT k, 0.059, 0.247, 0.2166, 0.0005, 0, 0, 37, 0, 0⟩

theorem three_recorded : Recorded Costg.exTT (fun _ => 37) threeLines threeRecs where
  holds := by
    refine ⟨false, by decide +kernel, ?_⟩
    refine .comment (by decide) (.inr ⟨_, .inl rfl⟩) (.comment (by decide) (.inr ⟨_, .inl rfl⟩) (.comment (by decide) (.inr ⟨_, .inl rfl⟩) ?_))
    show Eop.Holds (Is14 Costg.exTT fun _ => 37) (["60142", "60143", "60144"].map Orient.dayLine) threeRecs
    exact .data (by decide +kernel) (Orient.day_line 60142 (by decide) (by decide) (by decide) (by decide) (by decide))
      (.data (by decide +kernel) (Orient.day_line 60143 (by decide) (by decide) (by decide) (by decide) (by decide))
      (.data (by decide +kernel) (Orient.day_line 60144 (by decide) (by decide) (by decide) (by decide) (by decide)) .nil))
  sorted := by unfold Sorted; decide +kernel

/-- Longitudes and latitudes within the cells of the grid of the example of C48. -/
def exDeg (x : ℚ × ℚ × ℚ) : ℚ × ℚ := if 0 < x.2.1 then (100, 0) else (-100, 10)

theorem exDeg_cells : ∀ x ∈ sites, ∃ i j, exGrid.IsNode i j ∧ exGrid.IsNode (i + 1) (j + 1) ∧ exGrid.InCell i j ((exDeg x).1 + 180) (exDeg x).2 := by
  intro x _
  unfold exDeg
  split
  · exact ⟨2, 0, ⟨by decide, by decide, by decide, by decide⟩, ⟨by decide, by decide, by decide, by decide⟩, by norm_num [G.InCell, G.pos, exGrid]⟩
  · exact ⟨0, 0, ⟨by decide, by decide, by decide, by decide⟩, ⟨by decide, by decide, by decide, by decide⟩, by norm_num [G.InCell, G.pos, exGrid]⟩

/-- A million turns. -/
example (old : Eop.Rec ℚ) : ∃ s lss, run Costg.exTT (fun _ => 37) exDeg (List.replicate 8 2) old (some (exHeader ++ exData)) (some threeLines) 1000000 =
    .ok (.running s 60144 lss) ∧ lss.length = 1000000 := by
  obtain ⟨s, lss, h1, h2, -⟩ := pole_example_fails Costg.exTT (fun _ => 37) exDeg (junk := List.replicate 8 2) (by simp) old exGrid_ok exHeader_is exData_is
    exDeg_cells three_recorded (by decide +kernel) (by decide +kernel) 1000000
  exact ⟨s, lss, h1, h2⟩

/-- The first two of the three days alone do not reach the first epoch. -/
def twoLines : List (List Char) := [' ' :: h1c0414, ' ' :: h2c0414, ' ' :: h3c0414] ++ ["60142", "60143"].map Orient.dayLine
def twoRecs : List (Eop.Rec ℚ) := [60142, 60143].map fun k : Int => ⟨Costg.exTT k, 0.059, 0.247, 0.2166, 0.0005, 0, 0, 37, 0, 0⟩

theorem two_recorded : Recorded Costg.exTT (fun _ => 37) twoLines twoRecs where
  holds := by
    refine ⟨false, by decide +kernel, ?_⟩
    refine .comment (by decide) (.inr ⟨_, .inl rfl⟩) (.comment (by decide) (.inr ⟨_, .inl rfl⟩) (.comment (by decide) (.inr ⟨_, .inl rfl⟩) ?_))
    show Eop.Holds (Is14 Costg.exTT fun _ => 37) (["60142", "60143"].map Orient.dayLine) twoRecs
    exact .data (by decide +kernel) (Orient.day_line 60142 (by decide) (by decide) (by decide) (by decide) (by decide))
      (.data (by decide +kernel) (Orient.day_line 60143 (by decide) (by decide) (by decide) (by decide) (by decide)) .nil)
  sorted := by unfold Sorted; decide +kernel

theorem ex_coeffs : ∃ cs, coeffs (some (exHeader ++ exData)) (sites.map exDeg) = .ok (0, cs) := by
  obtain ⟨cs, h1, -⟩ := desai_grid_partial exGrid_ok exHeader_is exData_is (sites.map exDeg) (by
    intro s hs
    obtain ⟨x, hx, rfl⟩ := List.mem_map.mp hs
    exact exDeg_cells x hx)
  exact ⟨cs, h1⟩

example (old : Eop.Rec ℚ) : run Costg.exTT (fun _ => 37) exDeg (List.replicate 8 2) old (some (exHeader ++ exData)) (some twoLines) 1 = .ok (.ended 1 []) := by
  obtain ⟨cs, h⟩ := ex_coeffs
  exact pole_example_outside Costg.exTT (fun _ => 37) exDeg (by simp) old h two_recorded (by decide +kernel) (.inr (by decide +kernel)) 0

/-- The file of nine days of 2016 and 2017 has no records in July 2023. -/
example (old : Eop.Rec ℚ) : run Costg.exTT (fun _ => 37) exDeg (List.replicate 8 2) old (some (exHeader ++ exData)) (some Orient.nineLines) 1 = .ub := by
  obtain ⟨cs, h1⟩ := ex_coeffs
  exact pole_example_empty_fails Costg.exTT (fun _ => 37) exDeg (by simp) old h1 Orient.nine_recorded (by decide +kernel) 0

end Verif.PoleExample
