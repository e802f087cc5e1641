import Verif.Props.CostgAod
import Verif.Props.Aod1bArchive
/-
C98: the check of the dealiasing products against the benchmark, for every orbit.
-/
namespace Verif.Costg
open Verif Verif.Aod1b

open Classical in
/-- The loop on rows of three tables, when some rows may have no acceleration: `ans` says which. -/
theorem accept_until {σ α : Type} {I : List (ℚ × List ℚ) → List (Option α) → σ → Prop} {f : σ → Orbit → Res (σ × Option V3)} {tol : ℝ}
    {P : ℚ × List ℚ → α → V3 → Prop} :
    ∀ {s : σ} {os qs as : List (ℚ × List ℚ)} {ans : List (Option α)}, ans.length = os.length → I os ans s → os.map (·.1) <+: qs.map (·.1) →
    os.map (·.1) <+: as.map (·.1) →
    (∀ s o os ans, I (o :: os) (none :: ans) s → ∃ s', f s (orbitOf o) = .ok (s', none)) →
    (∀ s o os x ans, I (o :: os) (some x :: ans) s → ∃ s' g, f s (orbitOf o) = .ok (s', some g) ∧ I os ans s' ∧ P o x g) →
    ∃ gs, List.Forall₂ (fun (oa : (ℚ × List ℚ) × Option α) g => ∃ x, oa.2 = some x ∧ P oa.1 x g) ((os.zip ans).takeWhile fun oa => oa.2.isSome) gs ∧
      (AllWithin tol qs as gs → accept f tol s (os.map orbitOf) (qs.map rotOf) (as.map fun r => ⟨epochAt r.1, three r.2 0⟩) =
        .ok (if ans.all Option.isSome then 0 else 1)) ∧
      (¬ AllWithin tol qs as gs → accept f tol s (os.map orbitOf) (qs.map rotOf) (as.map fun r => ⟨epochAt r.1, three r.2 0⟩) = .abort)
  | _, [], _, _, ans, hl, _, _, _, _, _ => by
    obtain rfl := List.length_eq_zero_iff.mp hl
    exact ⟨[], .nil, fun _ => by simp [accept], fun h => absurd (fun i q r g _ _ h3 => by simp at h3) h⟩
  | _, o :: os, [], _, _, _, _, h, _, _, _ => by simp at h
  | _, o :: os, _ :: _, [], _, _, _, _, h, _, _ => by simp at h
  | _, o :: os, _ :: _, _ :: _, [], hl, _, _, _, _, _ => by simp at hl
  | s, o :: os, q :: qs, a :: as, none :: ans, _, hI, h1, h2, hn, _ => by
    obtain ⟨s', e⟩ := hn s o os ans hI
    refine ⟨[], by simp, fun _ => ?_, fun h => absurd (fun i q r g _ _ h3 => by simp at h3) h⟩
    rw [if_neg (by simp)]
    simp only [List.map_cons]
    rw [accept, e]
    rfl
  | s, o :: os, q :: qs, a :: as, some x :: ans, hl, hI, h1, h2, hn, hf => by
    simp only [List.map_cons, List.cons_prefix_cons] at h1 h2
    obtain ⟨s', g, hg, hI', hgr⟩ := hf s o os x ans hI
    obtain ⟨gs, hgs, k1, k2⟩ := accept_until (tol := tol) (by simpa using hl) hI' h1.2 h2.2 hn hf
    have hb : (rotOf q).1 = (orbitOf o).epoch := by show epochAt q.1 = epochAt o.1; rw [h1.1]
    have hc : epochAt a.1 = (orbitOf o).epoch := by show epochAt a.1 = epochAt o.1; rw [h2.1]
    have hstep : accept f tol s ((o :: os).map orbitOf) ((q :: qs).map rotOf) ((a :: as).map fun r => ⟨epochAt r.1, three r.2 0⟩) =
        if Within tol q a g then accept f tol s' (os.map orbitOf) (qs.map rotOf) (as.map fun r => ⟨epochAt r.1, three r.2 0⟩) else .abort := by
      simp only [List.map_cons]
      rw [accept, hg]
      simp only [rb, rot_transpose]
      rw [if_neg (by rw [hb]; simp), if_neg (by rw [hc]; simp)]
      unfold Within
      by_cases w1 : |(three a.2 0).x - (toCelestial q.2 g).x| < tol <;> by_cases w2 : |(three a.2 0).y - (toCelestial q.2 g).y| < tol <;>
        by_cases w3 : |(three a.2 0).z - (toCelestial q.2 g).z| < tol <;> simp [w1, w2, w3]
    have hall : AllWithin tol (q :: qs) (a :: as) (g :: gs) ↔ Within tol q a g ∧ AllWithin tol qs as gs := by
      constructor
      · intro h
        exact ⟨h 0 q a g rfl rfl rfl, fun i q' r' g' e1 e2 e3 => h (i + 1) q' r' g' e1 e2 e3⟩
      · rintro ⟨h, h'⟩ i q' r' g' e1 e2 e3
        cases i with
        | zero =>
          simp only [List.getElem?_cons_zero, Option.some.injEq] at e1 e2 e3
          subst e1 e2 e3
          exact h
        | succ i => exact h' i q' r' g' e1 e2 e3
    have hi : (if (some x :: ans).all Option.isSome then (0 : Int) else 1) = if ans.all Option.isSome then 0 else 1 := by simp
    refine ⟨g :: gs, by simpa using ⟨hgr, hgs⟩, ?_, ?_⟩
    · intro h
      obtain ⟨w, w'⟩ := hall.mp h
      rw [hstep, if_pos w, k1 w', hi]
    · intro h
      rw [hstep]
      by_cases w : Within tol q a g
      · rw [if_pos w]
        exact k2 fun w' => h (hall.mpr ⟨w, w'⟩)
      · rw [if_neg w]

variable {T : Type} [LinearOrder T] {D : World T} {at_ : Epoch → T}

/-- The archive: the file of the first day under its name, in any directory; the files of the days that follow in `dir`, and none after them; at least four
data sets in each, the first at the first epoch of the header; the data sets in the order of time. -/
structure AodSeries (D : World T) (n : Int) (gm re : ℚ) (dir fn : List Char) (first : List (DataSet T)) (rest : List (List (DataSet T))) : Prop where
  mono : StrictMono D.day
  dirNe : dir ≠ []
  dirShort : dir.length + 26 < 256
  ymd : ∀ d, (D.ymd d).length = 10 ∧ '\x00' ∉ D.ymd d ∧ '/' ∉ D.ymd d
  files : ∃ (d0 text : List Char) (rl : Nat) (day : Int) (e : T), rl ≤ 99 ∧ fn = d0 ++ '/' :: dayName D.ymd rl day ∧ D.disk fn = some text ∧
    DayFileFrom D .glo n gm re e day text first ∧ (∀ s ∈ first.head?, e = s.epoch) ∧ FullArchive D .glo n dir rl (day + 1) rest
  degree : 0 ≤ n
  four : 4 ≤ first.length
  chron : Chron D.min (first ++ rest.flatten)
  gm : 0 ≤ gm
  re : 0 < re

/-- What holds before the rows that are left. -/
def KeepsDesk (D : World T) (at_ : Epoch → T) (n : Int) (gm re : ℚ) (dir : List Char) (os : List (ℚ × List ℚ)) (ans : List (Option (DataSet T × DataSet T)))
    (s : Ds T × Coeffs ℝ) : Prop :=
  (∃ k, Aod1b.Keeps (D.env .glo dir) s.1 k ∧ s.1.a.maxDegree = n ∧ ans = k.answers D.min (os.map fun o => at_ (epochAt o.1))) ∧
  s.2.deg = 180 ∧ s.2.ord = 180 ∧ s.2.rows = 181 ∧ s.2.gm = (gm : ℝ) ∧ s.2.re = (re : ℝ) ∧
  (∀ o ∈ os, D.day (at_ (epochAt o.1)) = (mjdTT o.1 : ℚ)) ∧ ∀ o ∈ os, three o.2 0 ≠ 0

/-- A row that is refused. -/
theorem desk_none {n : Int} (hn : 180 ≤ n) {gm re : ℚ} {dir : List Char} (hmono : StrictMono D.day)
    (W M : Epoch → Int → ℝ) (s : Ds T × Coeffs ℝ) (o : ℚ × List ℚ) (os : List (ℚ × List ℚ)) (ans : List (Option (DataSet T × DataSet T)))
    (h : KeepsDesk D at_ n gm re dir (o :: os) (none :: ans) s) : ∃ s', aodStep (D.env .glo dir) at_ W M s (orbitOf o) = .ok (s', none) := by
  obtain ⟨d, c⟩ := s
  obtain ⟨⟨k, hk, hdg, ha⟩, hdeg, hord, hrows, hg, hr, htime, h0⟩ := h
  simp only at hk hdg hdeg hord hrows hg hr
  obtain ⟨⟨r, c1⟩, d', e, -, hans, -⟩ := query_any (E := D.env .glo dir) hmono hk (t := at_ (epochAt o.1)) (cs := c) ⟨by omega, by omega⟩
  simp only [List.map_cons, Desk.answers, List.cons.injEq] at ha
  rw [show (D.env .glo dir).min = D.min from rfl, ← ha.1] at hans
  obtain ⟨h1, h2⟩ := hans
  simp only at h1 h2 e
  refine ⟨(d', c1), ?_⟩
  unfold aodStep
  rw [show (orbitOf o).epoch = epochAt o.1 from rfl, e]
  simp only [rb, h1]
  rfl

/-- A row that is answered. -/
theorem desk_some {n : Int} (hn : 180 ≤ n) {gm re : ℚ} {dir : List Char} (hmono : StrictMono D.day)
    (hgm : 0 ≤ gm) (hre : 0 < re) (W M : Epoch → Int → ℝ) (s : Ds T × Coeffs ℝ) (o : ℚ × List ℚ) (os : List (ℚ × List ℚ)) (x : DataSet T × DataSet T)
    (ans : List (Option (DataSet T × DataSet T))) (h : KeepsDesk D at_ n gm re dir (o :: os) (some x :: ans) s) :
    ∃ s' a, aodStep (D.env .glo dir) at_ W M s (orbitOf o) = .ok (s', some a) ∧ KeepsDesk D at_ n gm re dir os ans s' ∧
      D.day x.1.epoch ≤ (mjdTT o.1 : ℚ) ∧ D.day x.1.epoch < D.day x.2.epoch ∧
        Harmonic.IsGradient (aodAt gm re D.day n x.1 x.2 (mjdTT o.1 : ℚ)) (three o.2 0) a := by
  obtain ⟨d, c⟩ := s
  obtain ⟨s1, s2⟩ := x
  obtain ⟨⟨k, hk, hdg, ha⟩, hdeg, hord, hrows, hg, hr, htime, h0⟩ := h
  simp only at hk hdg hdeg hord hrows hg hr
  obtain ⟨⟨r, c1⟩, d', e, hdg', hans, hk'⟩ := query_any (E := D.env .glo dir) hmono hk (t := at_ (epochAt o.1)) (cs := c) ⟨by omega, by omega⟩
  simp only [List.map_cons, Desk.answers, List.cons.injEq] at ha
  rw [show (D.env .glo dir).min = D.min from rfl] at hans hk'
  rw [← ha.1] at hans
  obtain ⟨hz, b1, hlt, -, -, -, hv⟩ := hans
  simp only at hz b1 hv e
  subst hz
  rw [hdg] at hv hdg'
  have k1 := coeffsAt_clear e
  obtain ⟨c', e1, e2, e3⟩ := four_aod (c := c1) (by rw [show c1.rows = c.rows from (congrArg Coeffs.rows k1 : c1.clear.rows = c.clear.rows)]; omega)
  have k2 : c'.clear = c.clear := e2.trans k1
  have hd' : c'.deg = 180 := (congrArg Coeffs.deg k2).trans hdeg
  have ho' : c'.ord = 180 := (congrArg Coeffs.ord k2).trans hord
  have hg' : c'.gm = (gm : ℝ) := (congrArg Coeffs.gm k2).trans hg
  have hr' : c'.re = (re : ℝ) := (congrArg Coeffs.re k2).trans hr
  obtain ⟨a, ea, hgr⟩ := Tide.attraction_gradient c' (r := three o.2 0) (n := 180) (h0 o (by simp)) (by norm_num) (by norm_num) (by rw [hd']; rfl) (by rw [ho']; rfl)
    (by rw [hg']; exact_mod_cast hgm) (by rw [hr']; exact_mod_cast hre) (W := ⟨183, W (epochAt o.1)⟩) (M := ⟨183, M (epochAt o.1)⟩) (by norm_num) (by norm_num)
  have ht := htime o (by simp)
  refine ⟨(d', c'), a, ?_, ⟨⟨_, hk', hdg', ha.2⟩, hd', ho', (congrArg Coeffs.rows k2).trans hrows, hg', hr', fun x hx => htime x (by simp [hx]),
    fun x hx => h0 x (by simp [hx])⟩, by rw [← ht]; exact hmono.monotone b1, hmono hlt, ?_⟩
  · unfold aodStep
    rw [show (orbitOf o).epoch = epochAt o.1 from rfl, e]
    simp only [rb, ne_eq, not_true_eq_false, if_false]
    rw [e1, show (orbitOf o).xyz = three o.2 0 from rfl, show (180 : Int) = ((180 : Nat) : Int) from rfl, ea]
    rfl
  · refine (congrArg (fun V => Harmonic.IsGradient V (three o.2 0) a) (funext fun v => ?_)).mpr hgr
    rw [hg', hr']
    unfold aodAt
    simp only
    refine (Harmonic.potential_above _ _ (C := between D.day n s1 s2 Row.C (mjdTT o.1 : ℚ)) (S := between D.day n s1 s2 Row.S (mjdTT o.1 : ℚ))
      (by norm_num) (fun l k hk hl => ?_) v).symm
    obtain ⟨p1, p2, p3⟩ := e3 l k hk
    obtain ⟨v1, v2⟩ := hv l k hk (by rw [hdeg]; exact_mod_cast hl) (by rw [hord]; exact_mod_cast hk.trans hl)
    rw [show (D.env .glo dir).day = D.day from rfl, lineAt_between hmono hlt, ht] at v1 v2
    rw [← v1, ← v2]
    exact ⟨p1, p2, p3⟩

theorem answers_length (min : T) : ∀ (ts : List T) (k : Desk T), (k.answers min ts).length = ts.length
  | [], _ => rfl
  | _ :: ts, _ => by simp [Desk.answers, answers_length min ts]

variable {n : Int} {gm re : ℚ} {dir fn : List Char} {first : List (DataSet T)} {rest : List (List (DataSet T))} {orbit acc rot : List Char}
  {os as qs : List (ℚ × List ℚ)}

/-- C98 for every orbit, whatever epochs it has. The machine of C35 says for each row which two data sets serve it, or that it is refused. The accelerations
up to the first row refused are gradients of the potential of degrees 2 to 180 on the line through the two data sets, at the epoch in TT. Exit status 0 if
no row is refused and every row agrees with the benchmark, rotated, to 1e-11 m/s²; exit status 1 if one is refused and those before it agree; otherwise an
assertion is violated. -/
theorem check_aod_history (hF : AodSeries D n gm re dir fn first rest) (hn : 180 ≤ n)
    (htime : ∀ o ∈ os, D.day (at_ (epochAt o.1)) = (mjdTT o.1 : ℚ)) (haway : ∀ o ∈ os, three o.2 0 ≠ 0)
    (ho : Table 512 9 orbit os) (ha : Table 256 3 acc as) (hq : Table 1024 9 rot qs) (h3 : os.map (·.1) <+: qs.map (·.1))
    (h4 : os.map (·.1) <+: as.map (·.1)) (W M : Epoch → Int → ℝ) (junkO junkR : Fin 10 → ℚ) (junkA : Fin 4 → ℚ) :
    ∃ w ans gs, Window.top first = some w ∧ ans = Desk.answers D.min ⟨first, w, rest⟩ (os.map fun o => at_ (epochAt o.1)) ∧
      List.Forall₂ (fun (oa : (ℚ × List ℚ) × Option (DataSet T × DataSet T)) g => ∃ x, oa.2 = some x ∧
        D.day x.1.epoch ≤ (mjdTT oa.1.1 : ℚ) ∧ D.day x.1.epoch < D.day x.2.epoch ∧
        Harmonic.IsGradient (aodAt gm re D.day n x.1 x.2 (mjdTT oa.1.1 : ℚ)) (three oa.1.2 0) g) ((os.zip ans).takeWhile fun oa => oa.2.isSome) gs ∧
      (AllWithin 1e-11 qs as gs → checkAod D at_ W M junkO junkR junkA (some orbit) fn (some acc) (some rot) dir = .ok (if ans.all Option.isSome then 0 else 1)) ∧
      (¬ AllWithin 1e-11 qs as gs → checkAod D at_ W M junkO junkR junkA (some orbit) fn (some acc) (some rot) dir = .abort) := by
  obtain ⟨d0, text, rl, day, e, hrl, rfl, hdisk, hfile, he, har⟩ := hF.files
  obtain ⟨d, ds, h, a, w, e1, e2, e3, e4, e5, hw, hdeg, hk⟩ := archive_keeps D hF.degree hrl hF.dirNe hF.ymd hF.dirShort hdisk hfile hF.four he har hF.chron
  have heq : checkAod D at_ W M junkO junkR junkA (some orbit) (d0 ++ '/' :: dayName D.ymd rl day) (some acc) (some rot) dir =
        accept (aodStep (D.env .glo dir) at_ W M) 1e-11 (ds, ⟨180, 180, 181, D.junk, D.junk, gm, re, true⟩) (os.map orbitOf) (qs.map rotOf)
          (as.map fun r => ⟨epochAt r.1, three r.2 0⟩) := by
    unfold checkAod
    rw [bench_orbit ho, bench_accelerations ha, parseRotary_rows hq]
    simp only [rb, e1, e2, e3, e4, e5, World.newSet]
    rw [if_neg (by norm_num)]
    rfl
  rw [heq]
  obtain ⟨gs, g1, g2, g3⟩ := accept_until (tol := 1e-11) (I := KeepsDesk D at_ n gm re dir) (s := (ds, ⟨180, 180, 181, D.junk, D.junk, gm, re, true⟩))
    (ans := Desk.answers D.min ⟨first, w, rest⟩ (os.map fun o => at_ (epochAt o.1))) (by rw [answers_length, List.length_map])
    ⟨⟨_, hk, hdeg, rfl⟩, rfl, rfl, rfl, rfl, rfl, htime, haway⟩ h3 h4 (desk_none hn hF.mono W M) (desk_some hn hF.mono hF.gm hF.re W M)
  exact ⟨w, _, gs, hw, rfl, g1, g2, g3⟩

end Verif.Costg

/-! ### Examples: a file from the day of the orbit on, and one from the day after -/

namespace Verif.Costg
open Verif Verif.Aod1b Verif.Chars Verif.Icgem

def deskHead (late : Bool) : List (List Char) :=
  ["MAXIMUM DEGREE : 180".toList, "NUMBER OF DATA SETS : 4".toList, "CONSTANT GM [M^3/S^2] : 4".toList,
    "CONSTANT A [M]         : 6".toList, "TIME FIRST OBS (YEAR START) : ".toList ++ if late then "58120".toList else "58119".toList, "TIME LAST OBS (YEAR END) : 0".toList]

def deskDigits (late : Bool) : List Char := if late then ['2', '3', '4', '5'] else ['0', '1', '2', '3']

def deskText (late : Bool) : List Char := unlines (deskHead late ++ ["END OF HEADER".toList]) ++ blocksText ((deskDigits late).map aodBlock)

noncomputable def deskWorld (late : Bool) : World ℚ where
  disk fn := if fn = "/a/AOD1B_0000000000_X_06.asc".toList then some (deskText late) else none
  head := ⟨fun _ => none, fun t _ => t, fun y => y, 9⟩
  date := aodDate
  day t := t
  min := 0
  mjd _ := 0
  ymd d := List.replicate 10 (if d = 0 then '0' else '1')
  junk _ _ := 7
  junkHdr := ⟨0, 0, 0, .atm⟩
  junkChars _ := 'q'

theorem deskWorld_disk (late : Bool) : (deskWorld late).disk = fun fn => if fn = "/a/AOD1B_0000000000_X_06.asc".toList then some (deskText late) else none := rfl

theorem deskWorld_day (late : Bool) : (deskWorld late).day = fun t => ((t : ℚ) : ℝ) := rfl

theorem deskFile (late : Bool) : DayFileFrom (deskWorld late) .glo 180 4 6 (if late then 58120 else 58119) 0 (deskText late) ((deskDigits late).map aodSet) := by
  refine ⟨deskHead late, [.maxDegree 180, .dataSets 4, .gm 4, .radius 6, .first (if late then 58120 else 58119), .last 0], (deskDigits late).map aodBlock, 0, ?_,
    by cases late <;> decide, ?_, ?_, ?_, ?_, ?_, rfl, by cases late <;> rfl, rfl, rfl, rfl, rfl, rfl, rfl, ?_, ?_⟩
  · refine .cons (by decide) (by decide) ?_ (.cons (by decide) (by decide) ?_ (.cons (by decide) (by decide) ?_ (.cons (by decide)
      (by decide) ?_ (.cons (by cases late <;> decide) (by cases late <;> decide) ?_ (.cons (by decide) (by decide) ?_ .nil)))))
    · exact ⟨"180".toList, ⟨1, 1, by decide, by decide⟩, [], 0, ⟨false, "180".toList⟩, ⟨by decide, by decide⟩, by decide, by decide,
        by simp, by decide, by decide⟩
    · exact ⟨['4'], ⟨1, 1, by decide, by decide⟩, [], 0, ⟨false, ['4']⟩, ⟨by decide, by decide⟩, by decide, by decide,
        by simp, by decide, by decide⟩
    · exact ⟨['4'], ⟨1, 1, by decide, by decide⟩, Head.dec_num ⟨false, ['4'], none, none⟩ [] (by decide) (by decide) (by decide +kernel) (by simp [Ends])⟩
    · exact ⟨['6'], ⟨1, 1, by decide, by decide⟩, Head.dec_num ⟨false, ['6'], none, none⟩ [] (by decide) (by decide) (by decide +kernel) (by simp [Ends])⟩
    · cases late
      · exact ⟨"58119".toList, .inr ⟨58119, ⟨1, 1, by decide, by decide⟩, ⟨[], 0, ⟨false, "58119".toList⟩, ⟨by decide, by decide⟩, by decide, by decide,
          by simp, by decide, by decide⟩, show (58119 : ℚ) = ((58119 : Int) : ℚ) by norm_num⟩⟩
      · exact ⟨"58120".toList, .inr ⟨58120, ⟨1, 1, by decide, by decide⟩, ⟨[], 0, ⟨false, "58120".toList⟩, ⟨by decide, by decide⟩, by decide, by decide,
          by simp, by decide, by decide⟩, show (58120 : ℚ) = ((58120 : Int) : ℚ) by norm_num⟩⟩
    · exact ⟨['0'], .inr ⟨0, ⟨1, 1, by decide, by decide⟩, ⟨[], 0, ⟨false, ['0']⟩, ⟨by decide, by decide⟩, by decide, by decide,
        by simp, by decide, by decide⟩, Int.cast_zero.symm⟩⟩
  all_goals try (unfold Head.Once; exact Nat.zero_le 1)
  · intro b hb
    obtain ⟨x, hx, rfl⟩ := List.mem_map.mp hb
    exact aodBlock_ok x (by clear hb; revert x; cases late <;> decide)
  · have e : ((deskDigits late).map aodBlock).filter (fun b => decide (b.hdr.type = .glo)) = (deskDigits late).map aodBlock := by
      rw [List.filter_eq_self]
      intro b hb
      obtain ⟨x, hx, rfl⟩ := List.mem_map.mp hb
      rfl
    unfold SetsOf
    rw [e, List.forall₂_map_left_iff, List.forall₂_map_right_iff, List.forall₂_same]
    exact fun e he => aodBlock_set e (by revert e; cases late <;> decide)

theorem deskFiles (late : Bool) : AodSeries (deskWorld late) 180 4 6 "/a".toList "/a/AOD1B_0000000000_X_06.asc".toList ((deskDigits late).map aodSet) [] where
  mono := fun _ _ h => by show ((_ : ℚ) : ℝ) < ((_ : ℚ) : ℝ); exact_mod_cast h
  dirNe := by decide
  dirShort := by decide
  ymd d := by
    show (List.replicate 10 _).length = 10 ∧ _ ∉ List.replicate 10 _ ∧ _ ∉ List.replicate 10 _
    by_cases h : d = 0
    · rw [if_pos h]; decide
    · rw [if_neg h]; decide
  files := ⟨"/a".toList, deskText late, 6, 0, _, by norm_num, (by
      rw [show (deskWorld late).ymd = fun d => List.replicate 10 (if d = 0 then '0' else '1') from rfl]; decide), by rw [deskWorld_disk]; exact if_pos rfl,
    deskFile late, by cases late <;> simp [deskDigits, aodSet] <;> norm_num, by
      show (deskWorld late).disk _ = none
      rw [deskWorld_disk, show (deskWorld late).ymd = fun d => List.replicate 10 (if d = 0 then '0' else '1') from rfl]
      exact if_neg (by decide)⟩
  degree := by norm_num
  four := by cases late <;> decide
  chron := by
    show Chron (0 : ℚ) _
    cases late <;> simp [Chron, deskDigits, aodSet] <;> norm_num
  gm := by norm_num
  re := by norm_num

theorem desk_away : ∀ o ∈ [rowOf dOrbit1, rowOf dOrbit2], three o.2 0 ≠ 0 := by
  intro o ho
  simp only [List.mem_cons, List.not_mem_nil, or_false] at ho
  rcases ho with rfl | rfl <;> exact three_ne (by decide +kernel)

/-- The hypotheses of `check_aod_history` are met, and no row is refused. -/
example (W M : Epoch → Int → ℝ) (junkO junkR : Fin 10 → ℚ) (junkA : Fin 4 → ℚ) :
    ∃ gs, gs.length = 2 ∧
      (AllWithin 1e-11 [rowOf dRot1, rowOf dRot2] [rowOf dAcc1, rowOf dAcc2] gs → checkAod (deskWorld false) ttDays W M junkO junkR junkA (some exOrbit)
        "/a/AOD1B_0000000000_X_06.asc".toList (some exAcc) (some exRot) "/a".toList = .ok 0) := by
  obtain ⟨w, ans, gs, hw, ha, h1, h2, -⟩ := check_aod_history (at_ := ttDays) (deskFiles false) le_rfl (fun o _ => by rw [deskWorld_day, ttDays_at]) desk_away
    exOrbit_table exAcc_table exRot_table (by decide +kernel) (by decide +kernel) W M junkO junkR junkA
  have hw : w = ⟨aodSet '0', aodSet '1', aodSet '2', [aodSet '3']⟩ := (Option.some.inj hw).symm
  subst hw
  have e : ans.all Option.isSome = true ∧ (([rowOf dOrbit1, rowOf dOrbit2].zip ans).takeWhile fun oa => oa.2.isSome).length = 2 := by
    rw [ha]
    simp only [List.map_cons, List.map_nil, ttDays_at]
    decide +kernel
  refine ⟨gs, by rw [← h1.length_eq, e.2], fun h => ?_⟩
  rw [h2 h, if_pos e.1]

/-- An orbit that begins before the archive: exit status 1. -/
example (W M : Epoch → Int → ℝ) (junkO junkR : Fin 10 → ℚ) (junkA : Fin 4 → ℚ) :
    checkAod (deskWorld true) ttDays W M junkO junkR junkA (some exOrbit) "/a/AOD1B_0000000000_X_06.asc".toList (some exAcc) (some exRot) "/a".toList = .ok 1 := by
  obtain ⟨w, ans, gs, hw, ha, h1, h2, -⟩ := check_aod_history (at_ := ttDays) (deskFiles true) le_rfl (fun o _ => by rw [deskWorld_day, ttDays_at]) desk_away
    exOrbit_table exAcc_table exRot_table (by decide +kernel) (by decide +kernel) W M junkO junkR junkA
  have hw : w = ⟨aodSet '2', aodSet '3', aodSet '4', [aodSet '5']⟩ := (Option.some.inj hw).symm
  subst hw
  have e : ans.all Option.isSome = false ∧ ans.head?.map Option.isSome = some false := by
    rw [ha]
    simp only [List.map_cons, List.map_nil, ttDays_at]
    decide +kernel
  rw [h2, if_neg (by rw [e.1]; simp)]
  have hg : gs = [] := by
    cases ans with
    | nil => simp at e
    | cons x ans =>
      cases x with
      | some x => simp at e
      | none => simpa using h1
  rw [hg]
  intro i q r g _ _ h
  simp at h

end Verif.Costg
