import Verif.Props.Aod1bStream
import Verif.Props.Aod1bHeader
import Verif.Spec.Aod1bFiles
/-
C85: a dealiasing stream over a directory of daily files.
-/
namespace Verif.Aod1b
open Verif Verif.Chars

variable {T : Type}

theorem twoDigits_eq : ∀ rl : Fin 100, twoDigits rl = [Char.ofNat (48 + rl / 10), Char.ofNat (48 + rl % 10)] := by decide +kernel

theorem dayName_plain (ymd : Int → List Char) (rl : Nat) (hr : rl ≤ 99) (day : Int) : dayName ymd rl day = plainName (ymd day) rl 'X' := by
  unfold dayName plainName
  rw [show twoDigits rl = [Char.ofNat (48 + rl / 10), Char.ofNat (48 + rl % 10)] from twoDigits_eq ⟨rl, by omega⟩]
  rfl

theorem join_eq (dir name : List Char) (hd : dir ≠ []) : World.join dir name = inDir dir name := by
  unfold World.join inDir
  rw [if_neg hd]

/-- Any path to the name in a directory. -/
theorem inDir_split (dir name : List Char) : ∃ d, inDir dir name = d ++ '/' :: name := by
  unfold inDir
  split
  · rename_i h
    obtain ⟨d, rfl⟩ : ∃ d, dir = d ++ ['/'] := by
      obtain ⟨ys, hy⟩ := List.getLast?_eq_some_iff.mp h
      exact ⟨ys, hy⟩
    exact ⟨d, by simp⟩
  · exact ⟨dir, rfl⟩

section
variable [DecidableEq T] (W : World T)

theorem openFile_from {ty : Ty} {n day : Int} {gm re : ℚ} {first : T} {text fn : List Char} {sets : List (DataSet T)} (hn : 0 ≤ n)
    (hf : DayFileFrom W ty n gm re first day text sets) (hd : W.disk fn = some text) :
    ∃ h a, W.openFile fn = .ok (h, a) ∧ h.gm = some gm ∧ h.re = some re ∧ a.name = fn ∧ W.mjd a.last = day ∧
      a.maxDegree = n ∧ a.text = text ∧ FileOf W.date ty a sets ∧ a.first = first := by
  obtain ⟨lines, ss, bs, last, hl, hlen, o1, o2, o3, o4, o5, q1, q2, q3, q4, q0, q5, q6, rfl, hb, hs⟩ := hf
  have htext : unlines (lines ++ ["END OF HEADER".toList]) ++ blocksText bs =
      Head.textOf lines ++ ("END OF HEADER".toList ++ [] ++ '\n' :: blocksText bs) := by
    simp [Head.textOf, unlines, List.flatMap]
  obtain ⟨h, e1, _, _, _, _, _, _, _, _, _, e2, e3, _, _, e4, e5, _, _, _, e6, e7, _⟩ :=
    Head.header_read_partial W.head hl hlen o1 o2 o3 o4 o5 [] (blocksText bs) (by simp) (by simp)
  rw [← htext] at e1
  have ha : h.aod fn (unlines (lines ++ ["END OF HEADER".toList]) ++ blocksText bs) =
      .ok ⟨unlines (lines ++ ["END OF HEADER".toList]) ++ blocksText bs, n, bs.length, h.first, h.last, fn⟩ := by
    unfold Head.Data.aod
    rw [e2, e3, q1, q2]
  refine ⟨h, ⟨unlines (lines ++ ["END OF HEADER".toList]) ++ blocksText bs, n, bs.length, h.first, h.last, fn⟩, ?_, by rw [e4, q3], by rw [e5, q4], rfl, ?_, rfl, rfl, ?_, by simp only [e6, q0]⟩
  · unfold World.openFile
    rw [hd, e1]
    simp only [Res.bind, Option.getD_some, ha]
  · simp only [e7, q5, q6]
  · exact ⟨lines ++ ["END OF HEADER".toList], bs, ⟨lines, _, rfl, Head.holds_lines W.head hl, ⟨by decide, by decide⟩, by decide⟩,
      by simp; omega, rfl, hb, rfl, hn, hs⟩

theorem openFile_with {ty : Ty} {n day : Int} {gm re : ℚ} {text fn : List Char} {sets : List (DataSet T)} (hn : 0 ≤ n)
    (hf : DayFileWith W ty n gm re day text sets) (hd : W.disk fn = some text) :
    ∃ h a, W.openFile fn = .ok (h, a) ∧ h.gm = some gm ∧ h.re = some re ∧ a.name = fn ∧ W.mjd a.last = day ∧
      a.maxDegree = n ∧ a.text = text ∧ FileOf W.date ty a sets := by
  obtain ⟨first, hf⟩ := hf
  obtain ⟨h, a, e, e1, e2, e3, e4, e5, e6, e7, -⟩ := openFile_from W hn hf hd
  exact ⟨h, a, e, e1, e2, e3, e4, e5, e6, e7⟩

theorem openFile_day {ty : Ty} {n day : Int} {text fn : List Char} {sets : List (DataSet T)} (hn : 0 ≤ n) (hf : DayFile W ty n day text sets)
    (hd : W.disk fn = some text) :
    ∃ h a, W.openFile fn = .ok (h, a) ∧ (∃ gm, h.gm = some gm) ∧ (∃ re, h.re = some re) ∧ a.name = fn ∧ W.mjd a.last = day ∧
      a.maxDegree = n ∧ a.text = text ∧ FileOf W.date ty a sets := by
  obtain ⟨gm, re, hf⟩ := hf
  obtain ⟨h, a, e, e1, e2, e3⟩ := openFile_with W hn hf hd
  exact ⟨h, a, e, ⟨gm, e1⟩, ⟨re, e2⟩, e3⟩

omit [DecidableEq T] in
theorem nextPath_eq {dir : List Char} {rl : Nat} {day : Int} {a : Aod T} (hr : rl ≤ 99) (hdir : dir ≠ [])
    (hy : ∀ d, (W.ymd d).length = 10 ∧ '\x00' ∉ W.ymd d ∧ '/' ∉ W.ymd d) {d0 : List Char}
    (hname : a.name = d0 ++ '/' :: dayName W.ymd rl day) :
    W.nextPath dir a = if (inDir dir (dayName W.ymd rl (W.mjd a.last + 1))).length < 256 then
      .ok (inDir dir (dayName W.ymd rl (W.mjd a.last + 1))) else .ub := by
  have hs : ∀ d, ∀ c ∈ W.ymd d, c ≠ '\x00' ∧ c ≠ '/' :=
    fun d c hc => ⟨fun e => (hy d).2.1 (e ▸ hc), fun e => (hy d).2.2 (e ▸ hc)⟩
  have hres : resolveRl a.name = .ok rl := by
    obtain ⟨buf, h, hr2⟩ := release_round_trip_partial (W.ymd day) (hy day).1 (hs day) rl hr 'X' (by decide) false
      ((List.range 256).map W.junkChars) (by simp) d0
    obtain ⟨buf', h', hc⟩ := filename_cstr (W.ymd day) (hy day).1 (hy day).2.1 rl hr 'X' (by decide) false
      ((List.range 256).map W.junkChars) (by simp)
    rw [h] at h'
    cases h'
    rw [hc] at hr2
    rw [hname, dayName_plain W.ymd rl hr]
    exact hr2
  obtain ⟨buf, h, hc⟩ := filename_cstr (W.ymd (W.mjd a.last + 1)) (hy _).1 (hy _).2.1 rl hr 'X' (by decide) false
      ((List.range 256).map W.junkChars) (by simp)
  unfold World.nextPath
  rw [hres]
  simp only [Res.bind, h, hc]
  rw [join_eq _ _ hdir, ← dayName_plain W.ymd rl hr]

omit [DecidableEq T] in
theorem dayName_length (hy : ∀ d, (W.ymd d).length = 10 ∧ '\x00' ∉ W.ymd d ∧ '/' ∉ W.ymd d) (rl : Nat) (day : Int) :
    (dayName W.ymd rl day).length = 25 := by
  unfold dayName; simp [(hy _).1]

omit [DecidableEq T] in
theorem nextPath_day {dir : List Char} {rl : Nat} {day : Int} {a : Aod T} (hr : rl ≤ 99) (hdir : dir ≠ [])
    (hy : ∀ d, (W.ymd d).length = 10 ∧ '\x00' ∉ W.ymd d ∧ '/' ∉ W.ymd d) (hlong : dir.length + 26 < 256) {d0 : List Char}
    (hname : a.name = d0 ++ '/' :: dayName W.ymd rl day) (hlast : W.mjd a.last = day) :
    W.nextPath dir a = .ok (inDir dir (dayName W.ymd rl (day + 1))) := by
  rw [nextPath_eq W hr hdir hy hname, hlast, if_pos]
  have hl := dayName_length W hy rl (day + 1)
  unfold inDir
  split <;> simp [hl] <;> omega

theorem files_of_archive {ty : Ty} {n : Int} {dir : List Char} {rl : Nat} (hn : 0 ≤ n) (hr : rl ≤ 99) (hdir : dir ≠ [])
    (hy : ∀ d, (W.ymd d).length = 10 ∧ '\x00' ∉ W.ymd d ∧ '/' ∉ W.ymd d) (hlong : dir.length + 26 < 256) :
    ∀ (rest : List (List (DataSet T))) (day : Int) (a : Aod T) (d0 : List Char), a.name = d0 ++ '/' :: dayName W.ymd rl day →
      W.mjd a.last = day → a.maxDegree = n → Archive W ty n dir rl (day + 1) rest →
      Files W.date ty (W.feed dir) a rest.flatten := by
  intro rest
  induction rest with
  | nil => intro day a d0 _ _ _ _; exact .last
  | cons sets rest ih =>
    intro day a d0 hname hlast hdeg ⟨⟨text, hd, hf⟩, h2, har⟩
    obtain ⟨h, a', ho, -, -, hn', hl', hd', ht', hfile⟩ := openFile_day W hn hf hd
    obtain ⟨d1, hd1⟩ := inDir_split dir (dayName W.ymd rl (day + 1))
    refine .next (a' := a') ?_ hfile h2 (by rw [hd', hdeg]) ?_
    · unfold World.feed
      rw [nextPath_day W hr hdir hy hlong hname hlast]
      simp only [Res.bind, ho]
    · exact ih (day + 1) a' d1 (by rw [hn', hd1]) hl' hd' har

end

section
variable [LinearOrder T] (W : World T)

/-- The constructor and the initialisation on the first file of an archive; the header of the file. -/
theorem archive_start {ty : Ty} {n : Int} {gm re : ℚ} {dir d0 : List Char} {rl : Nat} {day : Int}
    {text : List Char} {first : List (DataSet T)} {rest : List (List (DataSet T))} (hn : 0 ≤ n) (hr : rl ≤ 99) (hdir : dir ≠ [])
    (hy : ∀ d, (W.ymd d).length = 10 ∧ '\x00' ∉ W.ymd d ∧ '/' ∉ W.ymd d) (hlong : dir.length + 26 < 256)
    (hdisk : W.disk (d0 ++ '/' :: dayName W.ymd rl day) = some text) (hfile : DayFileWith W ty n gm re day text first) (hfour : 4 ≤ first.length)
    (har : Archive W ty n dir rl (day + 1) rest) (p : Nat) (hp : p = 1 ∨ p = 2) :
    ∃ d ds h a, W.newStream (d0 ++ '/' :: dayName W.ymd rl day) dir = .ok d ∧ Ds.init (W.env ty dir) d = .ok (0, ds) ∧
      W.openFile (d0 ++ '/' :: dayName W.ymd rl day) = .ok (h, a) ∧ h.gm = some gm ∧ h.re = some re ∧
      Stands (W.env ty dir) n (first ++ rest.flatten) p ds := by
  obtain ⟨h, a, ho, hgm, hre, hname, hlast, hdeg, -, hf⟩ := openFile_with W hn hfile hdisk
  have hnew : W.newStream (d0 ++ '/' :: dayName W.ymd rl day) dir = .ok ⟨a, ⟨In.start a.text, W.junkHdr⟩, W.junkHdr, W.junkHdr,
      W.junkHdr, ⟨n, n, (n + 1).toNat, W.junk, W.junk, gm, re, true⟩, ⟨n, n, (n + 1).toNat, W.junk, W.junk, gm, re, true⟩,
      ⟨n, n, (n + 1).toNat, W.junk, W.junk, gm, re, true⟩, true⟩ := by
    unfold World.newStream
    rw [ho]
    simp only [Res.bind, hgm, hre, World.newSet, hdeg]
    rw [if_neg (by omega)]
    cases dir with
    | nil => exact absurd rfl hdir
    | cons c r => rfl
  have hroom : Room n ⟨n, n, (n + 1).toNat, W.junk, W.junk, (gm : ℝ), (re : ℝ), true⟩ := ⟨rfl, rfl, by simp only; omega⟩
  obtain ⟨ds, e0, e1⟩ := stands_init (E := W.env ty dir) (d := ⟨a, ⟨In.start a.text, W.junkHdr⟩, W.junkHdr, W.junkHdr,
      W.junkHdr, ⟨n, n, (n + 1).toNat, W.junk, W.junk, gm, re, true⟩, ⟨n, n, (n + 1).toNat, W.junk, W.junk, gm, re, true⟩,
      ⟨n, n, (n + 1).toNat, W.junk, W.junk, gm, re, true⟩, true⟩) hf hfour
      (files_of_archive W hn hr hdir hy hlong rest day a d0 hname hlast hdeg har) rfl
      (by subst hdeg; exact ⟨hroom, hroom, hroom⟩) p hp
  refine ⟨_, ds, h, a, hnew, e0, ho, hgm, hre, ?_⟩
  subst hdeg
  exact e1

/-- C85: a stream over an archive of daily files. The file of the first day is opened under its name, in any directory; `dir` holds
the files of the days that follow. The constructor and the initialisation succeed, and queries that go forward from the first data
sets, at most one data set at a time and across any number of files, succeed and are interpolated between the two data sets around
their epoch, be they of one file or of two. Missing: queries that go back to an earlier file or skip data sets (`stream_archive_history`), names
without a directory (`archive_bare_fails`), long directories (`archive_long_fails`). -/
theorem stream_archive_partial (hday : StrictMono W.day) {ty : Ty} {n : Int} {dir d0 : List Char} {rl : Nat} {day : Int}
    {text : List Char} {first : List (DataSet T)} {rest : List (List (DataSet T))} (hn : 0 ≤ n) (hr : rl ≤ 99) (hdir : dir ≠ [])
    (hy : ∀ d, (W.ymd d).length = 10 ∧ '\x00' ∉ W.ymd d ∧ '/' ∉ W.ymd d) (hlong : dir.length + 26 < 256)
    (hdisk : W.disk (d0 ++ '/' :: dayName W.ymd rl day) = some text) (hfile : DayFile W ty n day text first) (hfour : 4 ≤ first.length)
    (har : Archive W ty n dir rl (day + 1) rest) (hc : Chron W.min (first ++ rest.flatten))
    (qs : List (T × Coeffs ℝ)) (p : Nat) (hp : p = 1 ∨ p = 2) (hq : Forward (first ++ rest.flatten) p (qs.map Prod.fst))
    (hfits : ∀ q ∈ qs, Fits n q.2) :
    ∃ d ds, W.newStream (d0 ++ '/' :: dayName W.ymd rl day) dir = .ok d ∧ Ds.init (W.env ty dir) d = .ok (0, ds) ∧
      ∃ rs d', Ds.run (W.env ty dir) qs ds = .ok (rs, d') ∧
        List.Forall₂ (fun q r => r.1 = 0 ∧ Interpolated W.day n (first ++ rest.flatten) q.1 q.2 r.2) qs rs := by
  obtain ⟨gm, re, hfile⟩ := hfile
  obtain ⟨d, ds, -, -, hnew, e0, -, -, -, hst⟩ := archive_start W hn hr hdir hy hlong hdisk hfile hfour har p hp
  exact ⟨d, ds, hnew, e0, stands_run hday hc qs p ds hst hq hfits⟩

end

/-- C85 fails for a file given without a directory: the search for the next file reads through a null pointer. -/
theorem archive_bare_fails [DecidableEq T] (W : World T) (dir : List Char) (a : Aod T) (h : '/' ∉ a.name) : W.feed dir a = .ub := by
  unfold World.feed World.nextPath
  rw [release_no_dir_fails _ h]
  rfl

/-- C85 fails for a directory with a long path: from 230 characters on, the path of the next file overruns a buffer of 256
characters. -/
theorem archive_long_fails [DecidableEq T] (W : World T) {dir d0 : List Char} {rl : Nat} {day : Int} {a : Aod T} (hr : rl ≤ 99)
    (hy : ∀ d, (W.ymd d).length = 10 ∧ '\x00' ∉ W.ymd d ∧ '/' ∉ W.ymd d) (hlong : 230 ≤ dir.length) (hslash : dir.getLast? ≠ some '/')
    (hname : a.name = d0 ++ '/' :: dayName W.ymd rl day) : W.feed dir a = .ub := by
  have hdir : dir ≠ [] := by rintro rfl; simp at hlong
  unfold World.feed
  rw [nextPath_eq W hr hdir hy hname, if_neg]
  · rfl
  · unfold inDir
    rw [if_neg hslash]
    simp [dayName_length W hy]
    omega

/-! ### An archive of two days -/

/-- The header of such a file: degree 0, so many blocks, so many days. -/
def twoHead (sets last : Char) : List (List Char) :=
  ["MAXIMUM DEGREE : 0".toList, "NUMBER OF DATA SETS : ".toList ++ [sets], "CONSTANT GM [M^3/S^2] : 4".toList,
    "CONSTANT A [M]         : 6".toList, "TIME LAST OBS (YEAR END) : ".toList ++ [last]]

def twoText (sets last : Char) (l : List (Char × Bool)) : List Char :=
  unlines (twoHead sets last ++ ["END OF HEADER".toList]) ++ blocksText (l.map fun x => oneBlock x.1 x.2)

/-- How its header is read: years are numbers. -/
def twoRead : Head.Env Nat := ⟨fun _ => none, fun t _ => t, fun y => y.toNat, 9⟩

/-- The files of day 0 (epochs 1 to 4) and day 1 (epochs 5 and 6). -/
def twoDisk (fn : List Char) : Option (List Char) :=
  if fn = "/a/AOD1B_0000000000_X_06.asc".toList then some (twoText '4' '0' [('1', true), ('2', false), ('3', true), ('4', false)])
  else if fn = "/a/AOD1B_1111111111_X_06.asc".toList then some (twoText '2' '1' [('5', true), ('6', false)])
  else none

/-- These files and the calendar. -/
noncomputable def twoWorld : World Nat where
  disk := twoDisk
  head := twoRead
  date := exDate
  day t := t
  min := 0
  mjd t := t
  ymd d := List.replicate 10 (if d = 0 then '0' else '1')
  junk _ _ := 7
  junkHdr := ⟨0, 0, 0, .atm⟩
  junkChars _ := 'q'

theorem twoHead_holds (sets last : Char) (h : (sets = '4' ∧ last = '0') ∨ (sets = '2' ∧ last = '1')) :
    Head.Holds twoRead.date twoRead.addNs twoRead.newYear twoRead.unset (twoHead sets last)
      [.maxDegree 0, .dataSets (sets.toNat - 48 : Nat), .gm 4, .radius 6, .last (last.toNat - 48)] := by
  rcases h with ⟨rfl, rfl⟩ | ⟨rfl, rfl⟩
  · refine .cons (by decide) (by decide) ?_ (.cons (by decide) (by decide) ?_ (.cons (by decide) (by decide) ?_ (.cons (by decide)
      (by decide) ?_ (.cons (by decide) (by decide) ?_ .nil))))
    · exact ⟨['0'], ⟨1, 1, by decide, by decide⟩, [], 0, ⟨false, ['0']⟩, ⟨by decide, by decide⟩, by decide, by decide,
        by simp, by decide, by decide⟩
    · exact ⟨['4'], ⟨1, 1, by decide, by decide⟩, [], 0, ⟨false, ['4']⟩, ⟨by decide, by decide⟩, by decide, by decide,
        by simp, by decide, by decide⟩
    · exact ⟨['4'], ⟨1, 1, by decide, by decide⟩, Head.dec_num ⟨false, ['4'], none, none⟩ [] (by decide) (by decide) (by decide +kernel) (by simp [Ends])⟩
    · exact ⟨['6'], ⟨1, 1, by decide, by decide⟩, Head.dec_num ⟨false, ['6'], none, none⟩ [] (by decide) (by decide) (by decide +kernel) (by simp [Ends])⟩
    · exact ⟨['0'], .inr ⟨0, ⟨1, 1, by decide, by decide⟩, ⟨[], 0, ⟨false, ['0']⟩, ⟨by decide, by decide⟩, by decide, by decide,
        by simp, by decide, by decide⟩, rfl⟩⟩
  · refine .cons (by decide) (by decide) ?_ (.cons (by decide) (by decide) ?_ (.cons (by decide) (by decide) ?_ (.cons (by decide)
      (by decide) ?_ (.cons (by decide) (by decide) ?_ .nil))))
    · exact ⟨['0'], ⟨1, 1, by decide, by decide⟩, [], 0, ⟨false, ['0']⟩, ⟨by decide, by decide⟩, by decide, by decide,
        by simp, by decide, by decide⟩
    · exact ⟨['2'], ⟨1, 1, by decide, by decide⟩, [], 0, ⟨false, ['2']⟩, ⟨by decide, by decide⟩, by decide, by decide,
        by simp, by decide, by decide⟩
    · exact ⟨['4'], ⟨1, 1, by decide, by decide⟩, Head.dec_num ⟨false, ['4'], none, none⟩ [] (by decide) (by decide) (by decide +kernel) (by simp [Ends])⟩
    · exact ⟨['6'], ⟨1, 1, by decide, by decide⟩, Head.dec_num ⟨false, ['6'], none, none⟩ [] (by decide) (by decide) (by decide +kernel) (by simp [Ends])⟩
    · exact ⟨['1'], .inr ⟨1, ⟨1, 1, by decide, by decide⟩, ⟨[], 0, ⟨false, ['1']⟩, ⟨by decide, by decide⟩, by decide, by decide,
        by simp, by decide, by decide⟩, rfl⟩⟩

theorem twoFile (sets last : Char) (h : (sets = '4' ∧ last = '0') ∨ (sets = '2' ∧ last = '1')) (l : List (Char × Bool))
    (hl : ∀ x ∈ l, isDig x.1 = true) (hlen : l.length = sets.toNat - 48) :
    DayFile twoWorld .atm 0 (last.toNat - 48 : Nat) (twoText sets last l) (digitSets l) := by
  refine ⟨4, 6, _, twoHead sets last, _, l.map fun x => oneBlock x.1 x.2, _, twoHead_holds sets last h, by simp [twoHead], ?_, ?_, ?_, ?_, ?_,
    rfl, ?_, rfl, rfl, rfl, rfl, rfl, rfl, ?_, ?_⟩
  · unfold Head.Once; exact Nat.zero_le 1
  · unfold Head.Once; exact Nat.zero_le 1
  · unfold Head.Once; exact Nat.zero_le 1
  · unfold Head.Once; exact Nat.zero_le 1
  · unfold Head.Once; exact Nat.zero_le 1
  · rw [List.length_map, hlen]; rfl
  · intro b hb
    obtain ⟨x, hx, rfl⟩ := List.mem_map.mp hb
    exact oneBlock_ok _ _ (hl x hx)
  · have e : (l.map fun x => oneBlock x.1 x.2).filter (fun b => decide (b.hdr.type = .atm)) = l.map fun x => oneBlock x.1 x.2 := by
      rw [List.filter_eq_self]
      intro b hb
      obtain ⟨x, hx, rfl⟩ := List.mem_map.mp hb
      rfl
    unfold SetsOf
    rw [e, digitSets, List.forall₂_map_left_iff, List.forall₂_map_right_iff, List.forall₂_same]
    intro x _
    exact oneBlock_set _ _

/-- Queries at epochs 1, 2, 3, 4, 5 on the archive: the fourth interval lies between the files. -/
example : ∃ d ds, twoWorld.newStream ("/a".toList ++ '/' :: dayName twoWorld.ymd 6 0) "/a".toList = .ok d ∧
    Ds.init (twoWorld.env .atm "/a".toList) d = .ok (0, ds) ∧
    ∃ rs d', Ds.run (twoWorld.env .atm "/a".toList) [(1, zeroSet), (2, zeroSet), (3, zeroSet), (4, zeroSet), (5, zeroSet)] ds = .ok (rs, d') ∧
      List.Forall₂ (fun q r => r.1 = 0 ∧ Interpolated twoWorld.day 0
        (digitSets [('1', true), ('2', false), ('3', true), ('4', false)] ++ [digitSets [('5', true), ('6', false)]].flatten) q.1 q.2 r.2)
        [(1, zeroSet), (2, zeroSet), (3, zeroSet), (4, zeroSet), (5, zeroSet)] rs := by
  have hmono : StrictMono twoWorld.day := fun _ _ h => Nat.cast_lt.mpr h
  have hy : ∀ d, (twoWorld.ymd d).length = 10 ∧ '\x00' ∉ twoWorld.ymd d ∧ '/' ∉ twoWorld.ymd d := by
    intro d
    show (List.replicate 10 _).length = 10 ∧ _ ∉ List.replicate 10 _ ∧ _ ∉ List.replicate 10 _
    by_cases h : d = 0
    · rw [if_pos h]; decide
    · rw [if_neg h]; decide
  have hf : DayFile twoWorld .atm 0 0 _ _ := twoFile '4' '0' (.inl ⟨rfl, rfl⟩) [('1', true), ('2', false), ('3', true), ('4', false)] (by decide) (by decide)
  have hg : DayFile twoWorld .atm 0 1 _ _ := twoFile '2' '1' (.inr ⟨rfl, rfl⟩) [('5', true), ('6', false)] (by decide) (by decide)
  have hd1 : twoWorld.disk ("/a".toList ++ '/' :: dayName twoWorld.ymd 6 0) =
      some (twoText '4' '0' [('1', true), ('2', false), ('3', true), ('4', false)]) := by
    rw [show "/a".toList ++ '/' :: dayName twoWorld.ymd 6 0 = "/a/AOD1B_0000000000_X_06.asc".toList by decide]
    rw [show twoWorld.disk = twoDisk from rfl]
    unfold twoDisk
    rw [if_pos rfl]
  have hd2 : twoWorld.disk (inDir "/a".toList (dayName twoWorld.ymd 6 1)) = some (twoText '2' '1' [('5', true), ('6', false)]) := by
    rw [show inDir "/a".toList (dayName twoWorld.ymd 6 1) = "/a/AOD1B_1111111111_X_06.asc".toList by decide]
    rw [show twoWorld.disk = twoDisk from rfl]
    unfold twoDisk
    rw [if_neg (by decide), if_pos rfl]
  have har : Archive twoWorld .atm 0 "/a".toList 6 (0 + 1) [digitSets [('5', true), ('6', false)]] :=
    ⟨⟨_, hd2, hg⟩, by decide, trivial⟩
  have hc : Chron twoWorld.min (digitSets [('1', true), ('2', false), ('3', true), ('4', false)] ++ [digitSets [('5', true), ('6', false)]].flatten) := by
    show Chron 0 _
    simp [Chron, digitSets, oneSet]
  refine stream_archive_partial twoWorld hmono (le_refl _) (by omega) (by decide) hy (by decide) hd1 hf (by decide) har hc _ 1 (.inl rfl) ?_ ?_
  · simp [Forward, position, digitSets, oneSet]
  · simp [Fits, zeroSet]

end Verif.Aod1b
