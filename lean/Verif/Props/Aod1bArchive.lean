import Verif.Props.Aod1bFiles
import Verif.Props.Aod1bHistory
/-
C85: every history of queries to a dealiasing stream over a directory of daily files.
-/
namespace Verif.Aod1b
open Verif Verif.Chars

variable {T : Type}

section
variable [DecidableEq T] (W : World T)

theorem openFile_none {fn : List Char} (h : W.disk fn = none) : W.openFile fn = .throw := by
  unfold World.openFile
  rw [h]
  rfl

theorem series_of_archive {ty : Ty} {n : Int} {dir : List Char} {rl : Nat} (hn : 0 ≤ n) (hr : rl ≤ 99) (hdir : dir ≠ [])
    (hy : ∀ d, (W.ymd d).length = 10 ∧ '\x00' ∉ W.ymd d ∧ '/' ∉ W.ymd d) (hlong : dir.length + 26 < 256) :
    ∀ (rest : List (List (DataSet T))) (day : Int) (a : Aod T) (d0 : List Char), a.name = d0 ++ '/' :: dayName W.ymd rl day →
      W.mjd a.last = day → a.maxDegree = n → FullArchive W ty n dir rl (day + 1) rest → Series W.date ty (W.feed dir) a rest := by
  intro rest
  induction rest with
  | nil =>
    intro day a d0 hname hlast _ har
    refine .last ?_
    unfold World.feed
    rw [nextPath_day W hr hdir hy hlong hname hlast]
    simp only [Res.bind, openFile_none W har]
  | cons sets rest ih =>
    intro day a d0 hname hlast hdeg ⟨⟨text, gm, re, first, hd, hf, h1⟩, h4, har⟩
    obtain ⟨h, a', ho, -, -, hn', hl', hd', ht', hfile, hfirst⟩ := openFile_from W hn hf hd
    obtain ⟨d1, hd1⟩ := inDir_split dir (dayName W.ymd rl (day + 1))
    refine .next (a' := a') ?_ hfile h4 (by rw [hfirst]; exact h1) (by rw [hd', hdeg]) ?_
    · unfold World.feed
      rw [nextPath_day W hr hdir hy hlong hname hlast]
      simp only [Res.bind, ho]
    · exact ih (day + 1) a' d1 (by rw [hn', hd1]) hl' hd' har

end

variable [LinearOrder T] (W : World T)

/-- The constructor and the initialisation on the first file; the header of the file. -/
theorem archive_keeps {ty : Ty} {n : Int} {gm re : ℚ} {e : T} {dir d0 : List Char} {rl : Nat} {day : Int}
    {text : List Char} {first : List (DataSet T)} {rest : List (List (DataSet T))} (hn : 0 ≤ n) (hr : rl ≤ 99) (hdir : dir ≠ [])
    (hy : ∀ d, (W.ymd d).length = 10 ∧ '\x00' ∉ W.ymd d ∧ '/' ∉ W.ymd d) (hlong : dir.length + 26 < 256)
    (hdisk : W.disk (d0 ++ '/' :: dayName W.ymd rl day) = some text) (hfile : DayFileFrom W ty n gm re e day text first) (hfour : 4 ≤ first.length)
    (he : ∀ s ∈ first.head?, e = s.epoch) (har : FullArchive W ty n dir rl (day + 1) rest) (hc : Chron W.min (first ++ rest.flatten)) :
    ∃ d ds h a w, W.newStream (d0 ++ '/' :: dayName W.ymd rl day) dir = .ok d ∧ Ds.init (W.env ty dir) d = .ok (0, ds) ∧
      W.openFile (d0 ++ '/' :: dayName W.ymd rl day) = .ok (h, a) ∧ h.gm = some gm ∧ h.re = some re ∧
      Window.top first = some w ∧ ds.a.maxDegree = n ∧ Keeps (W.env ty dir) ds ⟨first, w, rest⟩ := by
  obtain ⟨h, a, ho, hgm, hre, hname, hlast, hdeg, -, hf, hfst⟩ := openFile_from W hn hfile hdisk
  have hnew : W.newStream (d0 ++ '/' :: dayName W.ymd rl day) dir = .ok ⟨a, ⟨In.start a.text, W.junkHdr⟩, W.junkHdr, W.junkHdr,
      W.junkHdr, ⟨n, n, (n + 1).toNat, W.junk, W.junk, gm, re, true⟩, ⟨n, n, (n + 1).toNat, W.junk, W.junk, gm, re, true⟩,
      ⟨n, n, (n + 1).toNat, W.junk, W.junk, gm, re, true⟩, true⟩ := by
    unfold World.newStream
    rw [ho]
    simp only [Res.bind, hgm, hre, World.newSet, hdeg]
    rw [if_neg (by omega)]
    cases dir with
    | nil => exact absurd rfl hdir
    | cons c r => rfl
  have hroom : Room n ⟨n, n, (n + 1).toNat, W.junk, W.junk, (gm : ℝ), (re : ℝ), true⟩ := ⟨rfl, rfl, by simp only; omega⟩
  obtain ⟨ds, w, e0, e1, e2, e3⟩ := keeps_start (E := W.env ty dir) (d := ⟨a, ⟨In.start a.text, W.junkHdr⟩, W.junkHdr, W.junkHdr,
      W.junkHdr, ⟨n, n, (n + 1).toNat, W.junk, W.junk, gm, re, true⟩, ⟨n, n, (n + 1).toNat, W.junk, W.junk, gm, re, true⟩,
      ⟨n, n, (n + 1).toNat, W.junk, W.junk, gm, re, true⟩, true⟩) hf hfour hc (by subst hdeg; exact ⟨hroom, hroom, hroom⟩)
      (by simp only [hfst]; exact he)
      (Or.inl ⟨rfl, series_of_archive W hn hr hdir hy hlong rest day a d0 hname hlast hdeg har⟩)
  exact ⟨_, ds, h, a, w, hnew, e0, ho, hgm, hre, e2, by rw [e1]; exact hdeg, e3⟩

/-- C85 for every sequence of queries to a stream over an archive of daily files with at least four data sets each, the first of them at the first epoch of the
header: the constructor and the initialisation succeed, and each query is answered or refused as the machine of C35 says, be it forward or back,
in the same file or after it, or behind the last one. -/
theorem stream_archive_history (hday : StrictMono W.day) {ty : Ty} {n : Int} {gm re : ℚ} {e : T} {dir d0 : List Char} {rl : Nat} {day : Int}
    {text : List Char} {first : List (DataSet T)} {rest : List (List (DataSet T))} (hn : 0 ≤ n) (hr : rl ≤ 99) (hdir : dir ≠ [])
    (hy : ∀ d, (W.ymd d).length = 10 ∧ '\x00' ∉ W.ymd d ∧ '/' ∉ W.ymd d) (hlong : dir.length + 26 < 256)
    (hdisk : W.disk (d0 ++ '/' :: dayName W.ymd rl day) = some text) (hfile : DayFileFrom W ty n gm re e day text first) (hfour : 4 ≤ first.length)
    (he : ∀ s ∈ first.head?, e = s.epoch) (har : FullArchive W ty n dir rl (day + 1) rest) (hc : Chron W.min (first ++ rest.flatten))
    (qs : List (T × Coeffs ℝ)) (hfits : ∀ q ∈ qs, Fits n q.2) :
    ∃ d ds w, W.newStream (d0 ++ '/' :: dayName W.ymd rl day) dir = .ok d ∧ Ds.init (W.env ty dir) d = .ok (0, ds) ∧ Window.top first = some w ∧
      ∃ rs d', Ds.run (W.env ty dir) qs ds = .ok (rs, d') ∧ rs.length = qs.length ∧
        List.Forall₂ (fun (qr : (T × Coeffs ℝ) × (Int × Coeffs ℝ)) ans => Answered W.day n qr.1 qr.2 ans) (qs.zip rs)
          (Desk.answers W.min ⟨first, w, rest⟩ (qs.map Prod.fst)) := by
  obtain ⟨d, ds, -, -, w, hnew, e0, -, -, -, hw, hdeg, hk⟩ := archive_keeps W hn hr hdir hy hlong hdisk hfile hfour he har hc
  have h := history_run (E := W.env ty dir) hday qs ds _ hk (by rw [hdeg]; exact hfits)
  rw [hdeg] at h
  exact ⟨d, ds, w, hnew, e0, hw, h⟩

/-! ### An archive of two days with four data sets each -/

/-- The header of such a file. -/
def fullHead (first last : Char) : List (List Char) :=
  ["MAXIMUM DEGREE : 0".toList, "NUMBER OF DATA SETS : 4".toList, "CONSTANT GM [M^3/S^2] : 4".toList, "CONSTANT A [M]         : 6".toList,
    "TIME FIRST OBS (YEAR START) : ".toList ++ [first], "TIME LAST OBS (YEAR END) : ".toList ++ [last]]

def fullText (first last : Char) (l : List (Char × Bool)) : List Char :=
  unlines (fullHead first last ++ ["END OF HEADER".toList]) ++ blocksText (l.map fun x => oneBlock x.1 x.2)

/-- The files of day 0 (epochs 1 to 4) and day 1 (epochs 5 to 8). -/
def fullDisk (fn : List Char) : Option (List Char) :=
  if fn = "/a/AOD1B_0000000000_X_06.asc".toList then some (fullText '1' '4' [('1', true), ('2', false), ('3', true), ('4', false)])
  else if fn = "/a/AOD1B_1111111111_X_06.asc".toList then some (fullText '5' '8' [('5', true), ('6', false), ('7', true), ('8', false)])
  else none

/-- These files and the calendar: four epochs to a day. -/
noncomputable def fullWorld : World Nat where
  disk := fullDisk
  head := twoRead
  date := exDate
  day t := t
  min := 0
  mjd t := ((t - 1) / 4 : Nat)
  ymd d := List.replicate 10 (if d = 0 then '0' else if d = 1 then '1' else '2')
  junk _ _ := 7
  junkHdr := ⟨0, 0, 0, .atm⟩
  junkChars _ := 'q'

theorem fullHead_holds (first last : Char) (h : (first = '1' ∧ last = '4') ∨ (first = '5' ∧ last = '8')) :
    Head.Holds twoRead.date twoRead.addNs twoRead.newYear twoRead.unset (fullHead first last)
      [.maxDegree 0, .dataSets 4, .gm 4, .radius 6, .first (first.toNat - 48), .last (last.toNat - 48)] := by
  rcases h with ⟨rfl, rfl⟩ | ⟨rfl, rfl⟩
  · refine .cons (by decide) (by decide) ?_ (.cons (by decide) (by decide) ?_ (.cons (by decide) (by decide) ?_ (.cons (by decide)
      (by decide) ?_ (.cons (by decide) (by decide) ?_ (.cons (by decide) (by decide) ?_ .nil)))))
    · exact ⟨['0'], ⟨1, 1, by decide, by decide⟩, [], 0, ⟨false, ['0']⟩, ⟨by decide, by decide⟩, by decide, by decide,
        by simp, by decide, by decide⟩
    · exact ⟨['4'], ⟨1, 1, by decide, by decide⟩, [], 0, ⟨false, ['4']⟩, ⟨by decide, by decide⟩, by decide, by decide,
        by simp, by decide, by decide⟩
    · exact ⟨['4'], ⟨1, 1, by decide, by decide⟩, Head.dec_num ⟨false, ['4'], none, none⟩ [] (by decide) (by decide) (by decide +kernel) (by simp [Ends])⟩
    · exact ⟨['6'], ⟨1, 1, by decide, by decide⟩, Head.dec_num ⟨false, ['6'], none, none⟩ [] (by decide) (by decide) (by decide +kernel) (by simp [Ends])⟩
    · exact ⟨['1'], .inr ⟨1, ⟨1, 1, by decide, by decide⟩, ⟨[], 0, ⟨false, ['1']⟩, ⟨by decide, by decide⟩, by decide, by decide,
        by simp, by decide, by decide⟩, rfl⟩⟩
    · exact ⟨['4'], .inr ⟨4, ⟨1, 1, by decide, by decide⟩, ⟨[], 0, ⟨false, ['4']⟩, ⟨by decide, by decide⟩, by decide, by decide,
        by simp, by decide, by decide⟩, rfl⟩⟩
  · refine .cons (by decide) (by decide) ?_ (.cons (by decide) (by decide) ?_ (.cons (by decide) (by decide) ?_ (.cons (by decide)
      (by decide) ?_ (.cons (by decide) (by decide) ?_ (.cons (by decide) (by decide) ?_ .nil)))))
    · exact ⟨['0'], ⟨1, 1, by decide, by decide⟩, [], 0, ⟨false, ['0']⟩, ⟨by decide, by decide⟩, by decide, by decide,
        by simp, by decide, by decide⟩
    · exact ⟨['4'], ⟨1, 1, by decide, by decide⟩, [], 0, ⟨false, ['4']⟩, ⟨by decide, by decide⟩, by decide, by decide,
        by simp, by decide, by decide⟩
    · exact ⟨['4'], ⟨1, 1, by decide, by decide⟩, Head.dec_num ⟨false, ['4'], none, none⟩ [] (by decide) (by decide) (by decide +kernel) (by simp [Ends])⟩
    · exact ⟨['6'], ⟨1, 1, by decide, by decide⟩, Head.dec_num ⟨false, ['6'], none, none⟩ [] (by decide) (by decide) (by decide +kernel) (by simp [Ends])⟩
    · exact ⟨['5'], .inr ⟨5, ⟨1, 1, by decide, by decide⟩, ⟨[], 0, ⟨false, ['5']⟩, ⟨by decide, by decide⟩, by decide, by decide,
        by simp, by decide, by decide⟩, rfl⟩⟩
    · exact ⟨['8'], .inr ⟨8, ⟨1, 1, by decide, by decide⟩, ⟨[], 0, ⟨false, ['8']⟩, ⟨by decide, by decide⟩, by decide, by decide,
        by simp, by decide, by decide⟩, rfl⟩⟩

theorem fullFile (first last : Char) (h : (first = '1' ∧ last = '4') ∨ (first = '5' ∧ last = '8')) (l : List (Char × Bool))
    (hl : ∀ x ∈ l, isDig x.1 = true) (hlen : l.length = 4) :
    DayFileFrom fullWorld .atm 0 4 6 (first.toNat - 48) (((last.toNat - 48 - 1) / 4 : Nat) : Int) (fullText first last l) (digitSets l) := by
  refine ⟨fullHead first last, _, l.map fun x => oneBlock x.1 x.2, _, fullHead_holds first last h, by simp [fullHead], ?_, ?_, ?_, ?_, ?_,
    rfl, ?_, rfl, rfl, rfl, rfl, rfl, rfl, ?_, ?_⟩
  · unfold Head.Once; exact Nat.zero_le 1
  · unfold Head.Once; exact Nat.zero_le 1
  · unfold Head.Once; exact Nat.zero_le 1
  · unfold Head.Once; exact Nat.zero_le 1
  · unfold Head.Once; exact Nat.zero_le 1
  · rw [List.length_map, hlen]; rfl
  · intro b hb
    obtain ⟨x, hx, rfl⟩ := List.mem_map.mp hb
    exact oneBlock_ok _ _ (hl x hx)
  · have e : (l.map fun x => oneBlock x.1 x.2).filter (fun b => decide (b.hdr.type = .atm)) = l.map fun x => oneBlock x.1 x.2 := by
      rw [List.filter_eq_self]
      intro b hb
      obtain ⟨x, hx, rfl⟩ := List.mem_map.mp hb
      rfl
    unfold SetsOf
    rw [e, digitSets, List.forall₂_map_left_iff, List.forall₂_map_right_iff, List.forall₂_same]
    intro x _
    exact oneBlock_set _ _

/-- Queries at any epochs on the archive. -/
theorem full_history (ts : List Nat) : ∃ d ds w, fullWorld.newStream ("/a".toList ++ '/' :: dayName fullWorld.ymd 6 0) "/a".toList = .ok d ∧
    Ds.init (fullWorld.env .atm "/a".toList) d = .ok (0, ds) ∧ Window.top (digitSets [('1', true), ('2', false), ('3', true), ('4', false)]) = some w ∧
    ∃ rs d', Ds.run (fullWorld.env .atm "/a".toList) (ts.map fun t => (t, zeroSet)) ds = .ok (rs, d') ∧ rs.length = (ts.map fun t => (t, zeroSet)).length ∧
      List.Forall₂ (fun (qr : (Nat × Coeffs ℝ) × (Int × Coeffs ℝ)) ans => Answered fullWorld.day 0 qr.1 qr.2 ans) ((ts.map fun t => (t, zeroSet)).zip rs)
        (Desk.answers fullWorld.min ⟨digitSets [('1', true), ('2', false), ('3', true), ('4', false)], w,
          [digitSets [('5', true), ('6', false), ('7', true), ('8', false)]]⟩ ((ts.map fun t => (t, zeroSet)).map Prod.fst)) := by
  have hmono : StrictMono fullWorld.day := fun _ _ h => Nat.cast_lt.mpr h
  have hy : ∀ d, (fullWorld.ymd d).length = 10 ∧ '\x00' ∉ fullWorld.ymd d ∧ '/' ∉ fullWorld.ymd d := by
    intro d
    show (List.replicate 10 _).length = 10 ∧ _ ∉ List.replicate 10 _ ∧ _ ∉ List.replicate 10 _
    by_cases h : d = 0
    · rw [if_pos h]; decide
    · rw [if_neg h]
      by_cases h : d = 1
      · rw [if_pos h]; decide
      · rw [if_neg h]; decide
  have hf : DayFileFrom fullWorld .atm 0 4 6 1 0 _ _ := fullFile '1' '4' (.inl ⟨rfl, rfl⟩) [('1', true), ('2', false), ('3', true), ('4', false)] (by decide) (by decide)
  have hg : DayFileFrom fullWorld .atm 0 4 6 5 1 _ _ := fullFile '5' '8' (.inr ⟨rfl, rfl⟩) [('5', true), ('6', false), ('7', true), ('8', false)] (by decide) (by decide)
  have hd1 : fullWorld.disk ("/a".toList ++ '/' :: dayName fullWorld.ymd 6 0) =
      some (fullText '1' '4' [('1', true), ('2', false), ('3', true), ('4', false)]) := by
    rw [show "/a".toList ++ '/' :: dayName fullWorld.ymd 6 0 = "/a/AOD1B_0000000000_X_06.asc".toList by decide]
    rw [show fullWorld.disk = fullDisk from rfl]
    unfold fullDisk
    rw [if_pos rfl]
  have hd2 : fullWorld.disk (inDir "/a".toList (dayName fullWorld.ymd 6 1)) = some (fullText '5' '8' [('5', true), ('6', false), ('7', true), ('8', false)]) := by
    rw [show inDir "/a".toList (dayName fullWorld.ymd 6 1) = "/a/AOD1B_1111111111_X_06.asc".toList by decide]
    rw [show fullWorld.disk = fullDisk from rfl]
    unfold fullDisk
    rw [if_neg (by decide), if_pos rfl]
  have hd3 : fullWorld.disk (inDir "/a".toList (dayName fullWorld.ymd 6 2)) = none := by
    rw [show inDir "/a".toList (dayName fullWorld.ymd 6 2) = "/a/AOD1B_2222222222_X_06.asc".toList by decide]
    rw [show fullWorld.disk = fullDisk from rfl]
    unfold fullDisk
    rw [if_neg (by decide), if_neg (by decide)]
  have har : FullArchive fullWorld .atm 0 "/a".toList 6 (0 + 1) [digitSets [('5', true), ('6', false), ('7', true), ('8', false)]] :=
    ⟨⟨_, 4, 6, 5, hd2, hg, by simp [digitSets, oneSet]⟩, by decide, hd3⟩
  refine stream_archive_history fullWorld hmono (le_refl _) (by omega) (by decide) hy (by decide) hd1 hf (by decide) (by simp [digitSets, oneSet]) har ?_ _ ?_
  · show Chron 0 _
    simp [Chron, digitSets, oneSet]
  · simp [Fits, zeroSet]

/-- What the machine answers: data sets of one file, of two, refusals before the archive, at an exact epoch and behind what is left, an
extrapolation (`stream_jump_fails`). -/
example : (Desk.answers 0 ⟨digitSets [('1', true), ('2', false), ('3', true), ('4', false)], ⟨oneSet '1' true, oneSet '2' false, oneSet '3' true, [oneSet '4' false]⟩,
      [digitSets [('5', true), ('6', false), ('7', true), ('8', false)]]⟩ [1, 0, 3, 4, 5, 7, 6, 2, 9, 1]).map (Option.map fun p => (p.1.epoch, p.2.epoch)) =
    [some (1, 2), none, some (3, 4), some (4, 5), some (5, 6), none, some (6, 7), none, some (5, 8), none] := by
  decide +kernel

end Verif.Aod1b
