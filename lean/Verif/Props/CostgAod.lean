import Verif.Model.CostgAod
import Verif.Spec.CostgAod
import Verif.Props.CostgTide
import Verif.Props.Aod1bFiles
/-
C98: the check of the dealiasing products against the benchmark.
-/
namespace Verif.Aod1b
open Verif

variable {T : Type} [LinearOrder T] {E : Env T}

theorem interp_clear {t e1 e2 : T} {b1 b2 cs cs' : Coeffs ℝ} (h : Ds.interp E t e1 e2 b1 b2 cs = .ok cs') : cs'.clear = cs.clear := by
  unfold Ds.interp at h
  split at h
  · injection h with h; subst h; rfl
  · cases h

theorem atIndex_clear {t : T} {i : Int} {d d' : Ds T} {j : Int} {cs cs' : Coeffs ℝ} (h : Ds.atIndex E t i d cs = .ok (j, d', cs')) :
    cs'.clear = cs.clear := by
  unfold Ds.atIndex at h
  split_ifs at h
  · cases e : Ds.interp E t d.h0.epoch d.h1.epoch d.c0 d.c1 cs with
    | ok x => rw [e] at h; injection h with h; injection h with _ h; injection h with _ h; subst h; exact interp_clear e
    | ub => rw [e] at h; cases h
    | abort => rw [e] at h; cases h
    | throw => rw [e] at h; cases h
  · cases e : Ds.interp E t d.h1.epoch d.h2.epoch d.c1 d.c2 cs with
    | ok x => rw [e] at h; injection h with h; injection h with _ h; injection h with _ h; subst h; exact interp_clear e
    | ub => rw [e] at h; cases h
    | abort => rw [e] at h; cases h
    | throw => rw [e] at h; cases h

/-- A query changes coefficients only. -/
theorem coeffsAt_clear {t : T} {d d' : Ds T} {j : Int} {cs cs' : Coeffs ℝ} (h : Ds.coeffsAt E t d cs = .ok (j, d', cs')) : cs'.clear = cs.clear := by
  unfold Ds.coeffsAt at h
  split_ifs at h
  · exact atIndex_clear h
  · exact atIndex_clear h
  · cases e : Ds.hunt E t d with
    | ok x =>
      rw [e] at h
      obtain ⟨i, d1⟩ := x
      simp only [Res.bind] at h
      split_ifs at h
      · exact atIndex_clear h
      · cases e1 : Ds.feedNext E d1 with
        | ok y =>
          rw [e1] at h
          obtain ⟨k, d2⟩ := y
          simp only at h
          split_ifs at h
          · injection h with h; injection h with _ h; injection h with _ h; subst h; rfl
          · cases e2 : Ds.hunt E t d2 with
            | ok z =>
              rw [e2] at h
              obtain ⟨i', d3⟩ := z
              simp only at h
              split_ifs at h
              · injection h with h; injection h with _ h; injection h with _ h; subst h; rfl
              · exact atIndex_clear h
            | ub => rw [e2] at h; cases h
            | abort => rw [e2] at h; cases h
            | throw => rw [e2] at h; cases h
        | ub => rw [e1] at h; cases h
        | abort => rw [e1] at h; cases h
        | throw => rw [e1] at h; cases h
      · injection h with h; injection h with _ h; injection h with _ h; subst h; rfl
    | ub => rw [e] at h; cases h
    | abort => rw [e] at h; cases h
    | throw => rw [e] at h; cases h

/-- A set larger than those of the file cannot be filled. -/
theorem stands_small {n : Int} {all : List (DataSet T)} (hc : Chron E.min all) {p : Nat} {d : Ds T} (h : Stands E n all p d) {t : T}
    (hp : position all t = p) {cs : Coeffs ℝ} (hcs : n < cs.deg) : Ds.coeffsAt E t d cs = .ub := by
  obtain ⟨past, s0, s1, s2, fut, later, rfl, hdir, he, hi, hfl, h1, h2⟩ := h
  subst hp
  have hlast : t < s2.epoch := (position_lt hc (p := past ++ [s0, s1]) (q := fut ++ later) (by rw [he]; simp) t).mpr (by simpa using h2)
  have hfirst : s0.epoch ≤ t := (position_iff hc he t).mpr (by omega)
  have r1 : (d.c1.rows : Int) = d.a.maxDegree + 1 := hi.b1.2.1.2.2
  unfold Ds.coeffsAt
  rw [hi.b0.1, hi.b1.1, hi.b2.1]
  by_cases hm : t < s1.epoch
  · rw [if_pos ⟨hfirst, hm⟩]
    unfold Ds.atIndex Ds.interp
    rw [if_pos rfl, if_neg (by omega)]
    rfl
  · rw [if_neg (by simp [hm]), if_pos ⟨not_lt.mp hm, hlast⟩]
    unfold Ds.atIndex Ds.interp
    rw [if_neg (by omega), if_pos rfl, if_neg (by omega)]
    rfl

end Verif.Aod1b

namespace Verif.Costg
open Verif Verif.Aod1b

variable {T : Type} [LinearOrder T] {D : World T} {at_ : Epoch → T}

/-- The archive: the file of the first day under its name, in any directory; the files of the days that follow in `dir`; its data sets in the order of
time. -/
structure AodFiles (D : World T) (n : Int) (gm re : ℚ) (dir fn : List Char) (first : List (DataSet T)) (rest : List (List (DataSet T))) : Prop where
  mono : StrictMono D.day
  dirNe : dir ≠ []
  dirShort : dir.length + 26 < 256
  ymd : ∀ d, (D.ymd d).length = 10 ∧ '\x00' ∉ D.ymd d ∧ '/' ∉ D.ymd d
  files : ∃ (d0 text : List Char) (rl : Nat) (day : Int), rl ≤ 99 ∧ fn = d0 ++ '/' :: dayName D.ymd rl day ∧ D.disk fn = some text ∧
    DayFileWith D .glo n gm re day text first ∧ Archive D .glo n dir rl (day + 1) rest
  degree : 0 ≤ n
  four : 4 ≤ first.length
  chron : Chron D.min (first ++ rest.flatten)
  gm : 0 ≤ gm
  re : 0 < re

/-- The epochs of the orbit: TT in the time scale of the archive, from the second data set or the first two intervals on, forward at most one data set at
a time, away from the centre of the Earth. -/
structure AodOrbit (D : World T) (at_ : Epoch → T) (sets : List (DataSet T)) (os : List (ℚ × List ℚ)) : Prop where
  time : ∀ o ∈ os, D.day (at_ (epochAt o.1)) = (mjdTT o.1 : ℚ)
  forward : Forward sets 1 (os.map fun o => at_ (epochAt o.1)) ∨ Forward sets 2 (os.map fun o => at_ (epochAt o.1))
  away : ∀ o ∈ os, three o.2 0 ≠ 0

/-- What holds before the rows that are left. -/
def KeepsAod (D : World T) (at_ : Epoch → T) (n : Int) (gm re : ℚ) (dir : List Char) (sets : List (DataSet T)) (os : List (ℚ × List ℚ))
    (s : Ds T × Coeffs ℝ) : Prop :=
  (∃ p, Stands (D.env .glo dir) n sets p s.1 ∧ Forward sets p (os.map fun o => at_ (epochAt o.1))) ∧
  s.2.deg = 180 ∧ s.2.ord = 180 ∧ s.2.rows = 181 ∧ s.2.gm = (gm : ℝ) ∧ s.2.re = (re : ℝ) ∧
  (∀ o ∈ os, D.day (at_ (epochAt o.1)) = (mjdTT o.1 : ℚ)) ∧ ∀ o ∈ os, three o.2 0 ≠ 0

theorem four_aod {c : Coeffs ℝ} (hr : 2 ≤ c.rows) :
    ∃ c', (∀ {β : Type} (k : Coeffs ℝ → Res β), ((c.setC 0 0 0).bind fun c => (c.setC 1 1 0).bind fun c => (c.setC 1 0 0).bind fun c =>
      (c.setS 1 1 0).bind k) = k c') ∧ c'.clear = c.clear ∧
      ∀ l k : Nat, k ≤ l → c'.C l k = (if l < 2 then 0 else c.C l k) ∧ (0 < k → c'.S l k = if l < 2 then 0 else c.S l k) ∧ (2 ≤ l → c'.S l k = c.S l k) := by
  have eC : ∀ (d : Coeffs ℝ) (i j : Int), d.Has i j → d.setC i j 0 = .ok { d with C := Coeffs.put d.C i.toNat j.toNat 0 } :=
    fun d i j h => if_pos h
  have eS : ∀ (d : Coeffs ℝ) (i j : Int), d.Has i j → d.setS i j 0 = .ok { d with S := Coeffs.put d.S i.toNat j.toNat 0 } :=
    fun d i j h => if_pos h
  refine ⟨{ c with C := Coeffs.put (Coeffs.put (Coeffs.put c.C 0 0 0) 1 1 0) 1 0 0, S := Coeffs.put c.S 1 1 0 }, ?_, rfl, ?_⟩
  · intro β k
    rw [eC _ 0 0 (by unfold Coeffs.Has; omega), rb, eC _ 1 1 (by unfold Coeffs.Has; dsimp only; omega), rb,
      eC _ 1 0 (by unfold Coeffs.Has; (try dsimp only); omega), rb, eS _ 1 1 (by unfold Coeffs.Has; dsimp only; omega), rb]
    rfl
  · intro l k hk
    simp only [Coeffs.put]
    rcases Nat.lt_or_ge l 2 with hl | hl
    · have : (l = 0 ∧ k = 0) ∨ (l = 1 ∧ k = 0) ∨ (l = 1 ∧ k = 1) := by omega
      rcases this with ⟨rfl, rfl⟩ | ⟨rfl, rfl⟩ | ⟨rfl, rfl⟩ <;> simp
    · rw [if_neg (by omega), if_neg (by omega), if_neg (by omega), if_neg (by omega), if_neg (by omega), if_neg (by omega)]
      exact ⟨rfl, fun _ => rfl, fun _ => rfl⟩

theorem lineAt_between {day : T → ℝ} (hday : StrictMono day) {n : Int} {s1 s2 : DataSet T} (h : s1.epoch < s2.epoch) (t : T) (val : Row → ℚ) (l m : Nat) :
    lineAt day t s1.epoch s2.epoch (lastValue n n val s1.rows l m) (lastValue n n val s2.rows l m) = between day n s1 s2 val (day t) l m := by
  have : day s2.epoch - day s1.epoch ≠ 0 := (sub_pos.mpr (hday h)).ne'
  unfold lineAt between
  field_simp
  ring

theorem aod_step {n : Int} (hn : 180 ≤ n) {gm re : ℚ} {dir : List Char} {sets : List (DataSet T)} (hmono : StrictMono D.day) (hc : Chron D.min sets)
    (hgm : 0 ≤ gm) (hre : 0 < re) (W M : Epoch → Int → ℝ) (s : Ds T × Coeffs ℝ) (o : ℚ × List ℚ) (os : List (ℚ × List ℚ))
    (h : KeepsAod D at_ n gm re dir sets (o :: os) s) :
    ∃ s' a, aodStep (D.env .glo dir) at_ W M s (orbitOf o) = .ok (s', some a) ∧ KeepsAod D at_ n gm re dir sets os s' ∧
      ∃ s1 s2, Adjacent sets s1 s2 ∧ D.day s1.epoch ≤ (mjdTT o.1 : ℚ) ∧ ((mjdTT o.1 : ℚ) : ℝ) < D.day s2.epoch ∧
        Harmonic.IsGradient (aodAt gm re D.day n s1 s2 (mjdTT o.1 : ℚ)) (three o.2 0) a := by
  obtain ⟨d, c⟩ := s
  obtain ⟨⟨p, hst, hfw⟩, hdeg, hord, hrows, hg, hr, htime, h0⟩ := h
  simp only at hst hdeg hord hrows hg hr
  obtain ⟨d', c1, e, ⟨s1, s2, hadj, b1, b2, -, -, -, hv⟩, hst'⟩ := stands_step (E := D.env .glo dir) hmono hc hst hfw (cs := c)
    ⟨by omega, by omega⟩
  have k1 := coeffsAt_clear e
  obtain ⟨c', e1, e2, e3⟩ := four_aod (c := c1) (by rw [show c1.rows = c.rows from (congrArg Coeffs.rows k1 : c1.clear.rows = c.clear.rows)]; omega)
  have k2 : c'.clear = c.clear := e2.trans k1
  have hd' : c'.deg = 180 := (congrArg Coeffs.deg k2).trans hdeg
  have ho' : c'.ord = 180 := (congrArg Coeffs.ord k2).trans hord
  have hg' : c'.gm = (gm : ℝ) := (congrArg Coeffs.gm k2).trans hg
  have hr' : c'.re = (re : ℝ) := (congrArg Coeffs.re k2).trans hr
  obtain ⟨a, ea, ha⟩ := Tide.attraction_gradient c' (r := three o.2 0) (n := 180) (h0 o (by simp)) (by norm_num) (by norm_num) (by rw [hd']; rfl) (by rw [ho']; rfl)
    (by rw [hg']; exact_mod_cast hgm) (by rw [hr']; exact_mod_cast hre) (W := ⟨183, W (epochAt o.1)⟩) (M := ⟨183, M (epochAt o.1)⟩) (by norm_num) (by norm_num)
  have ht := htime o (by simp)
  refine ⟨(d', c'), a, ?_, ⟨⟨_, hst', hfw.2.2⟩, hd', ho', (congrArg Coeffs.rows k2).trans hrows, hg', hr', fun x hx => htime x (by simp [hx]),
    fun x hx => h0 x (by simp [hx])⟩, s1, s2, hadj, by rw [← ht]; exact hmono.monotone b1, by rw [← ht]; exact hmono b2, ?_⟩
  · unfold aodStep
    rw [show (orbitOf o).epoch = epochAt o.1 from rfl, e]
    simp only [rb, ne_eq, not_true_eq_false, if_false]
    rw [e1, show (orbitOf o).xyz = three o.2 0 from rfl, show (180 : Int) = ((180 : Nat) : Int) from rfl, ea]
    rfl
  · refine (congrArg (fun V => Harmonic.IsGradient V (three o.2 0) a) (funext fun v => ?_)).mpr ha
    rw [hg', hr']
    unfold aodAt
    simp only
    have hlt : s1.epoch < s2.epoch := b1.trans_lt b2
    refine (Harmonic.potential_above _ _ (C := between D.day n s1 s2 Row.C (mjdTT o.1 : ℚ)) (S := between D.day n s1 s2 Row.S (mjdTT o.1 : ℚ))
      (by norm_num) (fun l k hk hl => ?_) v).symm
    obtain ⟨p1, p2, p3⟩ := e3 l k hk
    obtain ⟨v1, v2⟩ := hv l k hk (by rw [hdeg]; exact_mod_cast hl) (by rw [hord]; exact_mod_cast hk.trans hl)
    rw [show (D.env .glo dir).day = D.day from rfl, lineAt_between hmono hlt, ht] at v1 v2
    rw [← v1, ← v2]
    exact ⟨p1, p2, p3⟩

/-- The program up to the loop. -/
theorem aod_start {n : Int} {gm re : ℚ} {dir fn : List Char} {first : List (DataSet T)} {rest : List (List (DataSet T))}
    (hF : AodFiles D n gm re dir fn first rest) {p : Nat} (hp : p = 1 ∨ p = 2) {orbit acc rot : List Char} {os as qs : List (ℚ × List ℚ)}
    (ho : Table 512 9 orbit os) (ha : Table 256 3 acc as) (hq : Table 1024 9 rot qs) (W M : Epoch → Int → ℝ) (junkO junkR : Fin 10 → ℚ) (junkA : Fin 4 → ℚ) :
    ∃ d, Stands (D.env .glo dir) n (first ++ rest.flatten) p d ∧
      checkAod D at_ W M junkO junkR junkA (some orbit) fn (some acc) (some rot) dir =
        accept (aodStep (D.env .glo dir) at_ W M) 1e-11 (d, ⟨180, 180, 181, D.junk, D.junk, gm, re, true⟩) (os.map orbitOf) (qs.map rotOf)
          (as.map fun r => ⟨epochAt r.1, three r.2 0⟩) := by
  obtain ⟨d0, text, rl, day, hrl, rfl, hdisk, hfile, har⟩ := hF.files
  obtain ⟨d, ds, h, a, e1, e2, e3, e4, e5, hst⟩ := archive_start D hF.degree hrl hF.dirNe hF.ymd hF.dirShort hdisk hfile hF.four har p hp
  refine ⟨ds, hst, ?_⟩
  unfold checkAod
  rw [bench_orbit ho, bench_accelerations ha, parseRotary_rows hq]
  simp only [rb, e1, e2, e3, e4, e5, World.newSet]
  rw [if_neg (by norm_num)]
  rfl

variable {n : Int} {gm re : ℚ} {dir fn : List Char} {first : List (DataSet T)} {rest : List (List (DataSet T))} {orbit acc rot : List Char}
  {os as qs : List (ℚ × List ℚ)}

/-- C98: exit status 0 if in every row the benchmark is within 1e-11 m/s² of the gradient of the potential of degrees 2 to 180 interpolated in TT between
the two data sets of type `glo` around the epoch, in one file or two, rotated; otherwise an assertion is violated. Missing: orbits that go back to an
earlier file or skip data sets (`check_aod_history`), files of a degree below 180 (`check_aod_degree_fails`), rows missing in a table (`check_aod_short_fails`). -/
theorem check_aod_partial (hF : AodFiles D n gm re dir fn first rest) (hn : 180 ≤ n) (hO : AodOrbit D at_ (first ++ rest.flatten) os)
    (ho : Table 512 9 orbit os) (ha : Table 256 3 acc as) (hq : Table 1024 9 rot qs) (h3 : os.map (·.1) <+: qs.map (·.1))
    (h4 : os.map (·.1) <+: as.map (·.1)) (W M : Epoch → Int → ℝ) (junkO junkR : Fin 10 → ℚ) (junkA : Fin 4 → ℚ) :
    ∃ gs, AodAccels gm re D.day n (first ++ rest.flatten) os gs ∧
      (AllWithin 1e-11 qs as gs → checkAod D at_ W M junkO junkR junkA (some orbit) fn (some acc) (some rot) dir = .ok 0) ∧
      (¬ AllWithin 1e-11 qs as gs → checkAod D at_ W M junkO junkR junkA (some orbit) fn (some acc) (some rot) dir = .abort) := by
  obtain ⟨p, hp, hfw⟩ : ∃ p, (p = 1 ∨ p = 2) ∧ Forward (first ++ rest.flatten) p (os.map fun o => at_ (epochAt o.1)) := by
    rcases hO.forward with h | h
    · exact ⟨1, .inl rfl, h⟩
    · exact ⟨2, .inr rfl, h⟩
  obtain ⟨d, hst, heq⟩ := aod_start (at_ := at_) hF hp ho ha hq W M junkO junkR junkA
  rw [heq]
  exact accept_along (I := KeepsAod D at_ n gm re dir (first ++ rest.flatten)) ⟨⟨p, hst, hfw⟩, rfl, rfl, rfl, rfl, rfl, hO.time, hO.away⟩ h3 h4
    (aod_step hn hF.mono hF.chron hF.gm hF.re W M)

/-- C98 fails when rotations or accelerations have fewer rows than the orbit, those they have being within the tolerance: the program reads behind the end
of a vector. -/
theorem check_aod_short_fails {o : ℚ × List ℚ} {os' : List (ℚ × List ℚ)} (hF : AodFiles D n gm re dir fn first rest) (hn : 180 ≤ n)
    (hO : AodOrbit D at_ (first ++ rest.flatten) (os ++ [o])) (ho : Table 512 9 orbit (os ++ o :: os')) (ha : Table 256 3 acc as) (hq : Table 1024 9 rot qs)
    (h1 : os.map (·.1) <+: qs.map (·.1)) (h2 : os.map (·.1) <+: as.map (·.1))
    (h3 : os.map (·.1) = qs.map (·.1) ∨ (os ++ [o]).map (·.1) <+: qs.map (·.1) ∧ os.map (·.1) = as.map (·.1)) (W M : Epoch → Int → ℝ)
    (junkO junkR : Fin 10 → ℚ) (junkA : Fin 4 → ℚ) :
    ∃ gs, AodAccels gm re D.day n (first ++ rest.flatten) os gs ∧
      (AllWithin 1e-11 qs as gs → checkAod D at_ W M junkO junkR junkA (some orbit) fn (some acc) (some rot) dir = .ub) := by
  obtain ⟨p, hp, hfw⟩ : ∃ p, (p = 1 ∨ p = 2) ∧ Forward (first ++ rest.flatten) p ((os ++ [o]).map fun o => at_ (epochAt o.1)) := by
    rcases hO.forward with h | h
    · exact ⟨1, .inl rfl, h⟩
    · exact ⟨2, .inr rfl, h⟩
  obtain ⟨d, hst, heq⟩ := aod_start (at_ := at_) hF hp ho ha hq W M junkO junkR junkA
  rw [heq]
  exact accept_along_short (I := KeepsAod D at_ n gm re dir (first ++ rest.flatten)) ⟨⟨p, hst, hfw⟩, rfl, rfl, rfl, rfl, rfl, hO.time, hO.away⟩ h1 h2 h3
    (aod_step hn hF.mono hF.chron hF.gm hF.re W M)

/-- C98 fails on files of a degree below 180: the first epoch, in the first two intervals, reads coefficients outside those of the file. -/
theorem check_aod_degree_fails {o1 : ℚ × List ℚ} (hF : AodFiles D n gm re dir fn first rest) (hn : n < 180)
    (hpos : position (first ++ rest.flatten) (at_ (epochAt o1.1)) = 1 ∨ position (first ++ rest.flatten) (at_ (epochAt o1.1)) = 2)
    (ho : Table 512 9 orbit (o1 :: os)) (ha : Table 256 3 acc as) (hq : Table 1024 9 rot qs) (W M : Epoch → Int → ℝ) (junkO junkR : Fin 10 → ℚ)
    (junkA : Fin 4 → ℚ) : checkAod D at_ W M junkO junkR junkA (some orbit) fn (some acc) (some rot) dir = .ub := by
  obtain ⟨d, hst, heq⟩ := aod_start (at_ := at_) hF hpos ho ha hq W M junkO junkR junkA
  rw [heq, List.map_cons, accept]
  unfold aodStep
  rw [show (orbitOf o1).epoch = epochAt o1.1 from rfl, stands_small (E := D.env .glo dir) hF.chron hst rfl (by exact hn)]
  rfl

/-- C98: exit status 0 on an orbit without rows. -/
theorem check_aod_empty (hF : AodFiles D n gm re dir fn first rest) (ho : Table 512 9 orbit []) (ha : Table 256 3 acc as) (hq : Table 1024 9 rot qs)
    (W M : Epoch → Int → ℝ) (junkO junkR : Fin 10 → ℚ) (junkA : Fin 4 → ℚ) :
    checkAod D at_ W M junkO junkR junkA (some orbit) fn (some acc) (some rot) dir = .ok 0 := by
  obtain ⟨d, -, heq⟩ := aod_start (at_ := at_) hF (.inl rfl) ho ha hq W M junkO junkR junkA
  rw [heq, List.map_nil, accept]

end Verif.Costg

/-! ### An example: a file with four data sets of degree 180 -/

namespace Verif.Costg
open Verif Verif.Aod1b Verif.Chars Verif.Icgem

/-- Half days from 58119 on. -/
def aodDate : List Char → Option (ℚ × List Char)
  | c :: r => if isDig c then some (58119 + ((c.toNat - 48 : Nat) : ℚ) / 2, r) else none
  | [] => none

def aodBlock (e : Char) : Block ℚ :=
  ⟨"DATA SET 01: 1 COEFFICIENTS FOR ".toList ++ e :: " OF TYPE glo".toList, ⟨1, 1, 58119 + ((e.toNat - 48 : Nat) : ℚ) / 2, .glo⟩,
    ["180 180 ".toList ++ e :: " 1".toList]⟩

def aodSet (e : Char) : DataSet ℚ := ⟨58119 + ((e.toNat - 48 : Nat) : ℚ) / 2, [⟨180, 180, ((e.toNat - 48 : Nat) : ℚ), 1⟩]⟩

theorem aodBlock_ok (e : Char) (he : isDig e = true) : (aodBlock e).Ok aodDate := by
  have hne : e ≠ '\n' ∧ e ≠ ' ' := by constructor <;> rintro rfl <;> revert he <;> decide
  refine ⟨?_, ?_, ?_, rfl⟩
  · refine ⟨" 01: 1 COEFFICIENTS FOR ".toList ++ e :: " OF TYPE glo".toList, " 1 COEFFICIENTS FOR ".toList ++ e :: " OF TYPE glo".toList,
      e :: " OF TYPE glo".toList, 1, [], rfl,
      ⟨[' '], ⟨false, ['0', '1']⟩, by decide, ⟨by decide, by decide⟩, rfl, rfl, by simp; decide,
        show (_ : Int) ≤ 1 by decide, show (1 : Int) ≤ _ by decide⟩,
      ⟨[' '], ⟨false, ['1']⟩, by decide, ⟨by decide, by decide⟩, rfl, rfl, by simp; decide,
        show (_ : Int) ≤ 1 by decide, show (1 : Int) ≤ _ by decide⟩, by simpa using hne.2, ?_⟩
    simp only [aodDate, he, if_true]
    rfl
  · refine ⟨?_, (by decide : 45 < 124)⟩
    show '\n' ∉ "DATA SET 01: 1 COEFFICIENTS FOR ".toList ++ e :: " OF TYPE glo".toList
    rw [List.mem_append, List.mem_cons]
    rintro (h | h | h)
    · exact absurd h (by decide)
    · exact hne.1 h.symm
    · exact absurd h (by decide)
  · intro l hl
    rw [List.mem_singleton.mp hl]
    refine ⟨?_, (by decide : 11 < 124)⟩
    rw [List.mem_append, List.mem_cons]
    rintro (h | h | h)
    · exact absurd h (by decide)
    · exact hne.1 h.symm
    · exact absurd h (by decide)

theorem aodBlock_set : ∀ e ∈ ['0', '1', '2', '3', '4', '5'], SetOf 180 (aodBlock e) (aodSet e) := by
  intro e he
  have hN : NumAt true sep1 (' ' :: e :: " 1".toList) (((e.toNat - 48 : Nat) : ℚ)) " 1".toList := by
    simp only [List.mem_cons, List.not_mem_nil, or_false] at he
    rcases he with rfl | rfl | rfl | rfl | rfl | rfl
    · exact ⟨" ".toList, ⟨false, ['0'], none, none⟩, by decide, Dec.ok_of (by decide), by decide +kernel, rfl, fun _ => by unfold Ends; decide⟩
    · exact ⟨" ".toList, ⟨false, ['1'], none, none⟩, by decide, Dec.ok_of (by decide), by decide +kernel, rfl, fun _ => by unfold Ends; decide⟩
    · exact ⟨" ".toList, ⟨false, ['2'], none, none⟩, by decide, Dec.ok_of (by decide), by decide +kernel, rfl, fun _ => by unfold Ends; decide⟩
    · exact ⟨" ".toList, ⟨false, ['3'], none, none⟩, by decide, Dec.ok_of (by decide), by decide +kernel, rfl, fun _ => by unfold Ends; decide⟩
    · exact ⟨" ".toList, ⟨false, ['4'], none, none⟩, by decide, Dec.ok_of (by decide), by decide +kernel, rfl, fun _ => by unfold Ends; decide⟩
    · exact ⟨" ".toList, ⟨false, ['5'], none, none⟩, by decide, Dec.ok_of (by decide), by decide +kernel, rfl, fun _ => by unfold Ends; decide⟩
  refine ⟨rfl, .cons ?_ .nil, ?_, ?_, ?_⟩
  · refine ⟨" 180 ".toList ++ e :: " 1".toList, ' ' :: e :: " 1".toList,
      ⟨[], ⟨false, "180".toList⟩, by decide, ⟨by decide, by decide⟩, rfl, rfl, by simp; decide, show (_ : Int) ≤ 180 by decide, show (180 : Int) ≤ _ by decide⟩,
      ⟨" ".toList, ⟨false, "180".toList⟩, by decide, ⟨by decide, by decide⟩, rfl, rfl, by simp; decide, show (_ : Int) ≤ 180 by decide, show (180 : Int) ≤ _ by decide⟩,
      fun _ => ⟨" 1".toList, [], hN, ?_⟩⟩
    exact ⟨" ".toList, ⟨false, ['1'], none, none⟩, by decide, Dec.ok_of (by decide),
          show Dec.value ⟨false, ['1'], none, none⟩ = 1 by decide +kernel, rfl, fun _ => by unfold Ends; decide⟩
  · simp [aodSet, Row.Triangle]
  · simp [Aod1b.Top, aodSet, Row.In]
  · simp [Aod1b.Top, aodSet, Row.In]

def aodHead : List (List Char) :=
  ["MAXIMUM DEGREE : 180".toList, "NUMBER OF DATA SETS : 4".toList, "CONSTANT GM [M^3/S^2] : 4".toList,
    "CONSTANT A [M]         : 6".toList, "TIME LAST OBS (YEAR END) : 0".toList]

def aodText : List Char := unlines (aodHead ++ ["END OF HEADER".toList]) ++ blocksText (['0', '1', '2', '3'].map aodBlock)

noncomputable def aodWorld : World ℚ where
  disk fn := if fn = "/a/AOD1B_0000000000_X_06.asc".toList then some aodText else none
  head := ⟨fun _ => none, fun t _ => t, fun y => y, 9⟩
  date := aodDate
  day t := t
  min := 0
  mjd _ := 0
  ymd _ := "0000000000".toList
  junk _ _ := 7
  junkHdr := ⟨0, 0, 0, .atm⟩
  junkChars _ := 'q'

theorem aodWorld_day : aodWorld.day = fun t => ((t : ℚ) : ℝ) := rfl

theorem aodWorld_disk : aodWorld.disk = fun fn => if fn = "/a/AOD1B_0000000000_X_06.asc".toList then some aodText else none := rfl

theorem aodFile : DayFileWith aodWorld .glo 180 4 6 0 aodText (['0', '1', '2', '3'].map aodSet) := by
  refine ⟨_, aodHead, [.maxDegree 180, .dataSets 4, .gm 4, .radius 6, .last 0], ['0', '1', '2', '3'].map aodBlock, 0, ?_, by decide, ?_, ?_, ?_, ?_, ?_,
    rfl, rfl, rfl, rfl, rfl, rfl, rfl, rfl, ?_, ?_⟩
  · refine .cons (by decide) (by decide) ?_ (.cons (by decide) (by decide) ?_ (.cons (by decide) (by decide) ?_ (.cons (by decide)
      (by decide) ?_ (.cons (by decide) (by decide) ?_ .nil))))
    · exact ⟨"180".toList, ⟨1, 1, by decide, by decide⟩, [], 0, ⟨false, "180".toList⟩, ⟨by decide, by decide⟩, by decide, by decide,
        by simp, by decide, by decide⟩
    · exact ⟨['4'], ⟨1, 1, by decide, by decide⟩, [], 0, ⟨false, ['4']⟩, ⟨by decide, by decide⟩, by decide, by decide,
        by simp, by decide, by decide⟩
    · exact ⟨['4'], ⟨1, 1, by decide, by decide⟩, Head.dec_num ⟨false, ['4'], none, none⟩ [] (by decide) (by decide) (by decide +kernel) (by simp [Ends])⟩
    · exact ⟨['6'], ⟨1, 1, by decide, by decide⟩, Head.dec_num ⟨false, ['6'], none, none⟩ [] (by decide) (by decide) (by decide +kernel) (by simp [Ends])⟩
    · exact ⟨['0'], .inr ⟨0, ⟨1, 1, by decide, by decide⟩, ⟨[], 0, ⟨false, ['0']⟩, ⟨by decide, by decide⟩, by decide, by decide,
        by simp, by decide, by decide⟩, Int.cast_zero.symm⟩⟩
  all_goals try (unfold Head.Once; exact Nat.zero_le 1)
  · intro b hb
    obtain ⟨x, hx, rfl⟩ := List.mem_map.mp hb
    exact aodBlock_ok x (by simp only [List.mem_cons, List.not_mem_nil, or_false] at hx; rcases hx with rfl | rfl | rfl | rfl <;> decide)
  · have e : (['0', '1', '2', '3'].map aodBlock).filter (fun b => decide (b.hdr.type = .glo)) = ['0', '1', '2', '3'].map aodBlock := by
      rw [List.filter_eq_self]
      intro b hb
      obtain ⟨x, hx, rfl⟩ := List.mem_map.mp hb
      rfl
    unfold SetsOf
    rw [e, List.forall₂_map_left_iff, List.forall₂_map_right_iff, List.forall₂_same]
    exact fun e he => aodBlock_set e (by simp only [List.mem_cons, List.not_mem_nil, or_false] at he ⊢; tauto)

theorem aodFiles : AodFiles aodWorld 180 4 6 "/a".toList "/a/AOD1B_0000000000_X_06.asc".toList (['0', '1', '2', '3'].map aodSet) [] where
  mono := fun _ _ h => by show ((_ : ℚ) : ℝ) < ((_ : ℚ) : ℝ); exact_mod_cast h
  dirNe := by decide
  dirShort := by decide
  ymd _ := by show "0000000000".toList.length = 10 ∧ '\x00' ∉ "0000000000".toList ∧ '/' ∉ "0000000000".toList; decide
  files := ⟨"/a".toList, aodText, 6, 0, by norm_num, by decide, by rw [aodWorld_disk]; exact if_pos rfl, aodFile, trivial⟩
  degree := by norm_num
  four := by decide
  chron := by
    show Chron (0 : ℚ) _
    simp [Chron, aodSet]
    norm_num
  gm := by norm_num
  re := by norm_num

theorem aodOrbit : AodOrbit aodWorld ttDays (['0', '1', '2', '3'].map aodSet ++ List.flatten []) [rowOf dOrbit1, rowOf dOrbit2] where
  time o _ := by rw [aodWorld_day, ttDays_at]
  forward := by
    left
    have e1 : (rowOf dOrbit1).1 = 58119.25 := by decide +kernel
    have e2 : (rowOf dOrbit2).1 = 58119.75 := by decide +kernel
    simp only [List.map_cons, List.map_nil, ttDays_at, e1, e2, List.flatten_nil, List.append_nil]
    have p1 : position [aodSet '0', aodSet '1', aodSet '2', aodSet '3'] (mjdTT 58119.25) = 1 := by decide +kernel
    have p2 : position [aodSet '0', aodSet '1', aodSet '2', aodSet '3'] (mjdTT 58119.75) = 2 := by decide +kernel
    simp only [Forward, p1, p2]
    decide
  away := by
    intro o ho
    simp only [List.mem_cons, List.not_mem_nil, or_false] at ho
    rcases ho with rfl | rfl <;> exact three_ne (by decide +kernel)

/-- The hypotheses of `check_aod_partial` are met. -/
example (W M : Epoch → Int → ℝ) (junkO junkR : Fin 10 → ℚ) (junkA : Fin 4 → ℚ) :=
  check_aod_partial aodFiles le_rfl aodOrbit exOrbit_table exAcc_table exRot_table (by decide +kernel) (by decide +kernel) W M junkO junkR junkA

/-- The coefficients vary with the epoch. -/
example (x : ℝ) : between aodWorld.day 180 (aodSet '1') (aodSet '2') Row.C x 180 180 = 1 + (x - 58119.5) * 2 := by
  simp [between, aodSet, lastValue, Row.In, aodWorld_day]
  ring

end Verif.Costg
