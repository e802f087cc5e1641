import Verif.Proof.MergeAod1b
import Verif.Model.Aod1bHeader
/-
C89: merging AOD1B files.

What should hold: any number of files with disjoint times, in any order, are merged into one file with a header for all of them
and their data in the order of time, which the library reads like any other file; the files given are not changed.
-/
namespace Verif.Merge
open Verif Verif.Chars

theorem rename_noDot {s : List Char} (h : '.' ∉ s) (t : List Char) : rename (s ++ t) = s ++ rename t := by
  induction s with
  | nil => rfl
  | cons c s ih =>
    simp only [List.mem_cons, not_or] at h
    rw [List.cons_append, rename, if_neg, ih h.2, List.cons_append]
    intro hp
    obtain ⟨r, hr⟩ := List.isPrefixOf_iff_prefix.mp hp
    exact h.1 (List.cons.inj hr).1

theorem out_path {cwd dir stem : List Char} (hs : '.' ∉ stem) (hrel : stem.head? ≠ some '/') (hdir : dir.head? = some '/')
    (hlast : dir.getLast? ≠ some '/') :
    resolve cwd (join dir (rename (stem ++ ".asc".toList))) = path dir (stem ++ ".merged.asc".toList) := by
  rw [rename_noDot hs]
  have e : rename ".asc".toList = ".merged.asc".toList := by decide +kernel
  rw [e]
  have h1 : (stem ++ ".merged.asc".toList).head? ≠ some '/' := by
    cases stem with
    | nil => decide
    | cons c s => simpa using hrel
  have h2 : dir ≠ [] := by rintro rfl; exact absurd hdir (by simp)
  unfold join
  rw [if_neg h1, if_neg (by rintro (h | h); exacts [h2 h, hlast h])]
  unfold resolve path
  rw [if_pos]
  cases dir with
  | nil => exact absurd rfl h2
  | cons c s => simpa using hdir

/-- C89 fails for the method `merge` on its own: when the object is that of the later file, the merged header has the right last epoch and the
sums of records and data sets, but the first epoch is still that of the later file. (The main program sorts the files first.) -/
theorem merge_reversed_fails {E : Env} {a b : Day} (ha : a.Ok) (hb : b.Ok) (hba : Agree b a) {fa fb : List Char} {ea ta la ra sa eb tb lb rb sb : Int}
    (hsa : Says E.strptime a ea ta la ra sa) (hsb : Says E.strptime b eb tb lb rb sb) (h1 : ta ≤ la) (h2 : la < tb) :
    ∃ (m : Obj) (sec records sets : List Char), merge E ⟨fb, b.fields⟩ ⟨fa, a.fields⟩ = .ok (some m) ∧
      CountText sec (lb - ea) ∧ CountText records (ra + rb) ∧ CountText sets (sa + sb) ∧
      m.dct = mergedFields b (sec ++ ".000000 (".toList ++ E.strftime lb ++ ")".toList) (' ' :: records) (' ' :: sets) ∧
      ∃ v, ("TIME FIRST OBS(SEC PAST EPOCH)".toList, v) ∈ m.dct ∧ EpochText E.strptime v tb ∧ ta < tb := by
  refine ⟨_, _, _, _, merge_days_reversed ha hb hba hsa hsb h1 h2, showInt_count _, showInt_count _, showInt_count _, rfl, ?_⟩
  obtain ⟨v, hv, hw⟩ := hsb.first
  refine ⟨v, ?_, hw, by omega⟩
  exact List.mem_map.mpr ⟨_, hv, by simp⟩

/-- **C89 (partial).** Two files whose times do not overlap and whose headers agree, named in either order: the tool writes
`<name of the earlier file>.merged.asc` with the header of the earlier file, in which the last epoch is that of the later file and
the numbers of records and data sets are the sums, and with the data of the earlier and then the later file; no other file but the
temporary one changes. What is missing: the end of the header (`merged_unreadable_fails`), more than two files
(`merge_three_fails`), names without `.asc` (`merge_overwrites_fails`). -/
theorem merge_two_partial {E : Env} {d : Disk} {cwd dir stem fb : List Char} {a b : Day} (hs : '.' ∉ stem)
    (hra : stem.head? ≠ some '/') (hrb : fb.head? ≠ some '/') (htb : fb ≠ ".aod1bdata".toList) (hdir : dir.head? = some '/')
    (hlast : dir.getLast? ≠ some '/') (ha : Holds (d (path cwd (stem ++ ".asc".toList))) a) (hb : Holds (d (path cwd fb)) b)
    (hab : Agree a b) {ea ta la ra sa eb tb lb rb sb : Int} (hsa : Says E.strptime a ea ta la ra sa)
    (hsb : Says E.strptime b eb tb lb rb sb) (h1 : ta ≤ la) (h2 : la < tb) (h3 : tb ≤ lb)
    (hout : path dir (stem ++ ".merged.asc".toList) ≠ path cwd ".aod1bdata".toList) :
    ∃ (d' : Disk) (sec records sets : List Char),
      run E d cwd [stem ++ ".asc".toList, fb] dir = .ok d' ∧ run E d cwd [fb, stem ++ ".asc".toList] dir = .ok d' ∧
      CountText sec (lb - ea) ∧ CountText records (ra + rb) ∧ CountText sets (sa + sb) ∧
      d' (path dir (stem ++ ".merged.asc".toList)) = some ((mergedFields a
        (sec ++ ".000000 (".toList ++ E.strftime lb ++ ")".toList) (' ' :: records) (' ' :: sets)).flatMap lineOf
        ++ (a.data ++ b.data)) ∧
      ∀ p, p ≠ path dir (stem ++ ".merged.asc".toList) → p ≠ path cwd ".aod1bdata".toList → d' p = d p := by
  have hrel : (stem ++ ".asc".toList).head? ≠ some '/' := by
    cases stem with
    | nil => decide
    | cons c s => simpa using hra
  have hta : stem ++ ".asc".toList ≠ tmpName := by
    intro h
    have := congrArg List.reverse h
    rw [List.reverse_append] at this
    exact absurd (List.cons.inj this).1 (by decide)
  have ho := out_path (cwd := cwd) hs hra hdir hlast
  have hr := run_two (E := E) (dir := dir) hrel hrb hta htb ha hb hab hsa hsb h1 h2 h3 (by rw [ho]; exact hout)
  rw [ho] at hr
  refine ⟨_, _, _, _, hr.1, hr.2, showInt_count _, showInt_count _, showInt_count _, if_pos rfl, ?_⟩
  intro p hp hp'
  exact (if_neg hp).trans (if_neg hp')

/-- **The tool replaces its input (C89).** A relative name without a point (so without `.asc`), with the output going to the working
directory: the output has the name of the earlier file, whose text is lost. -/
theorem merge_overwrites_fails {E : Env} {d : Disk} {cwd fa fb : List Char} {a b : Day} (hs : '.' ∉ fa)
    (hra : fa.head? ≠ some '/') (hrb : fb.head? ≠ some '/') (htb : fb ≠ ".aod1bdata".toList) (hdir : cwd.head? = some '/')
    (hlast : cwd.getLast? ≠ some '/') (ha : Holds (d (path cwd fa)) a) (hb : Holds (d (path cwd fb)) b)
    (hab : Agree a b) {ea ta la ra sa eb tb lb rb sb : Int} (hsa : Says E.strptime a ea ta la ra sa)
    (hsb : Says E.strptime b eb tb lb rb sb) (h1 : ta ≤ la) (h2 : la < tb) (h3 : tb ≤ lb) :
    ∃ d' fields, run E d cwd [fa, fb] cwd = .ok d' ∧
      d' (path cwd fa) = some (List.flatMap lineOf fields ++ (a.data ++ b.data)) := by
  have e : rename fa = fa := by
    have := rename_noDot hs []
    rwa [List.append_nil, show rename [] = [] from by rw [rename], List.append_nil] at this
  have h2' : cwd ≠ [] := by rintro rfl; exact absurd hdir (by simp)
  have ho : resolve cwd (join cwd (rename fa)) = path cwd fa := by
    rw [e]
    unfold join
    rw [if_neg hra, if_neg (by rintro (h | h); exacts [h2' h, hlast h])]
    unfold resolve path
    rw [if_pos]
    cases cwd with
    | nil => exact absurd rfl h2'
    | cons c s => simpa using hdir
  have hta : fa ≠ tmpName := by rintro rfl; exact hs (by decide)
  have hr := run_two (E := E) (dir := cwd) hra hrb hta htb ha hb hab hsa hsb h1 h2 h3
    (by rw [ho]; exact fun h => hta (by simpa [path] using h))
  rw [ho] at hr
  exact ⟨_, _, hr.1, if_pos rfl⟩

/-! ### Three files -/

/-- No value begins with a blank. -/
def NoBlank (d : Dict) : Prop := ∀ p ∈ d, p.2.head? ≠ some ' '

theorem rstrip_prefix (s : List Char) : rstrip s <+: s := by
  unfold rstrip
  have h := List.dropWhile_suffix isWs (l := s.reverse)
  have := List.reverse_prefix.mpr h
  rwa [List.reverse_reverse] at this

theorem strip_head (s : List Char) : (strip s).head? ≠ some ' ' := by
  intro h
  obtain ⟨r, hr⟩ := rstrip_prefix (s.dropWhile isWs)
  have h2 : (s.dropWhile isWs).head? = some ' ' := by
    rw [← hr]
    show (strip s ++ r).head? = _
    cases hs : strip s with
    | nil => rw [hs] at h; exact absurd h (by simp)
    | cons c t => rw [hs] at h; simpa using h
  have h3 := List.head?_dropWhile_not isWs s
  rw [h2] at h3
  exact absurd h3 (by decide)

theorem noBlank_set {d : Dict} (h : NoBlank d) (k : List Char) {v : List Char} (hv : v.head? ≠ some ' ') : NoBlank (d.set k v) := by
  induction d with
  | nil => intro p hp; rw [List.mem_singleton.mp hp]; exact hv
  | cons p d ih =>
    obtain ⟨k', v'⟩ := p
    rw [Dict.set]
    split
    · intro q hq
      rcases List.mem_cons.mp hq with rfl | hq
      · exact hv
      · exact h q (List.mem_cons_of_mem _ hq)
    · intro q hq
      rcases List.mem_cons.mp hq with rfl | hq
      · exact h _ (List.mem_cons_self ..)
      · exact ih (fun r hr => h r (List.mem_cons_of_mem _ hr)) q hq

theorem noBlank_read (n : Nat) : ∀ (t : List Char) (d e : Dict), t.length ≤ n → NoBlank d → readHeader t d = .ok e → NoBlank e := by
  induction n with
  | zero =>
    intro t d e hl hd h
    have : t = [] := List.length_eq_zero_iff.mp (by omega)
    rw [this, readHeader] at h
    injection h with h; exact h ▸ hd
  | succ n ih =>
    intro t d e hl hd h
    cases t with
    | nil => rw [readHeader] at h; injection h with h; exact h ▸ hd
    | cons c s =>
      rw [readHeader] at h
      split at h
      · injection h with h; exact h ▸ hd
      · split at h
        · exact absurd h (by simp)
        · have := readLine_lt c s
          exact ih _ _ e (by omega) (noBlank_set hd _ (strip_head _)) h

theorem noBlank_load {d : Disk} {cwd f : List Char} {o : Obj} (h : load d cwd f = .ok o) : NoBlank o.dct := by
  obtain ⟨t, _, h⟩ := Py.bind_ok h
  obtain ⟨e, he, h⟩ := Py.bind_ok h
  injection h with h
  subst h
  exact noBlank_read t.length t [] e (Nat.le_refl _) (fun p hp => absurd hp (by simp)) he

theorem set_mem (d : Dict) (k v : List Char) : (k, v) ∈ d.set k v := by
  induction d with
  | nil => exact List.mem_singleton.mpr rfl
  | cons p d ih =>
    obtain ⟨k', v'⟩ := p
    rw [Dict.set]
    split
    · exact List.mem_cons_self ..
    · exact List.mem_cons_of_mem _ ih

theorem merge_blank {E : Env} {a b m : Obj} (h : merge E a b = .ok (some m)) : ∃ v, (kSets, ' ' :: v) ∈ m.dct := by
  obtain ⟨c, _, h⟩ := Py.bind_ok h
  split at h
  · exact absurd h (by simp)
  obtain ⟨_, _, h⟩ := Py.bind_ok h
  obtain ⟨_, _, h⟩ := Py.bind_ok h
  obtain ⟨_, _, h⟩ := Py.bind_ok h
  obtain ⟨_, _, h⟩ := Py.bind_ok h
  split at h
  · obtain ⟨_, _, h⟩ := Py.bind_ok h
    obtain ⟨_, _, h⟩ := Py.bind_ok h
    obtain ⟨_, _, h⟩ := Py.bind_ok h
    obtain ⟨_, _, h⟩ := Py.bind_ok h
    obtain ⟨_, _, h⟩ := Py.bind_ok h
    obtain ⟨_, _, h⟩ := Py.bind_ok h
    injection h with h
    injection h with h
    subst h
    exact ⟨_, set_mem _ _ _⟩
  · exact absurd h (by simp)

theorem match_mem {d e : Dict} (h : headersMatch d e = .ok true) : ∀ p ∈ d, p.1 ∉ exempt → ∃ q ∈ e, q.2 = p.2 := by
  induction d with
  | nil => intro p hp; exact absurd hp (by simp)
  | cons p d ih =>
    obtain ⟨k, v⟩ := p
    rw [headersMatch] at h
    intro q hq hx
    by_cases hk : k ∈ exempt
    · rw [if_pos hk] at h
      rcases List.mem_cons.mp hq with rfl | hq
      · exact absurd hk hx
      · exact ih h q hq hx
    · rw [if_neg hk] at h
      obtain ⟨w, hw, h⟩ := Py.bind_ok h
      split at h
      · exact absurd h (by simp)
      · rename_i hvw
        rcases List.mem_cons.mp hq with rfl | hq
        · have hvw : v = w := Classical.not_not.mp hvw
          subst hvw
          have : Dict.get e k = some v := by
            cases hg : Dict.get e k with
            | none => rw [hg] at hw; exact absurd hw (by simp [Py.of])
            | some u => rw [hg] at hw; injection hw with hw; rw [hw]
          unfold Dict.get at this
          obtain ⟨q, hq, hv⟩ := Option.map_eq_some_iff.mp this
          exact ⟨q, List.mem_of_find?_eq_some hq, hv⟩
        · exact ih h q hq hx

theorem merge_again {E : Env} {m o : Obj} {v : List Char} (hm : (kSets, ' ' :: v) ∈ m.dct) (ho : NoBlank o.dct) {x : Option Obj}
    (h : merge E m o = .ok x) : x = none := by
  obtain ⟨c, hc, h⟩ := Py.bind_ok h
  cases c with
  | false => injection h with h; exact h.symm
  | true =>
    obtain ⟨q, hq, he⟩ := match_mem hc _ hm (show kSets ∉ exempt by decide)
    exact absurd (by rw [he]; rfl) (ho q hq)

theorem loadAll_length {d : Disk} {cwd : List Char} {fs : List (List Char)} {os : List Obj} (h : loadAll d cwd fs = .ok os) :
    os.length = fs.length := by
  induction fs generalizing os with
  | nil => injection h with h; rw [← h]; rfl
  | cons f fs ih =>
    obtain ⟨_, _, h⟩ := Py.bind_ok h
    obtain ⟨os', h', h⟩ := Py.bind_ok h
    injection h with h
    rw [← h, List.length_cons, ih h', List.length_cons]

theorem insert_length {E : Env} {x : Obj} {ys zs : List Obj} (h : insert E x ys = .ok zs) : zs.length = ys.length + 1 := by
  induction ys generalizing zs with
  | nil => injection h with h; rw [← h]; rfl
  | cons y ys ih =>
    obtain ⟨b, _, h⟩ := Py.bind_ok h
    split at h
    · injection h with h; rw [← h]; rfl
    · obtain ⟨w, hw, h⟩ := Py.bind_ok h
      injection h with h
      rw [← h, List.length_cons, ih hw, List.length_cons]

theorem sort_length {E : Env} {xs acc zs : List Obj} (h : sort E xs acc = .ok zs) : zs.length = xs.length + acc.length := by
  induction xs generalizing acc with
  | nil => injection h with h; rw [← h]; simp
  | cons x xs ih =>
    obtain ⟨w, hw, h⟩ := Py.bind_ok h
    rw [ih h, insert_length hw, List.length_cons]; omega

/-- **Three files are never merged (C89).** Whatever the files: with three or more of them no run of the tool succeeds. The merged
counts are stored with a leading blank, and the header of the third file, read from its file, has none, so the headers never match. -/
theorem merge_three_fails (E : Env) (d : Disk) (cwd : List Char) (files : List (List Char)) (dir : List Char)
    (h : 3 ≤ files.length) (d' : Disk) : run E d cwd files dir ≠ .ok d' := by
  intro hr
  obtain ⟨os, hos, hr⟩ := Py.bind_ok hr
  obtain ⟨sorted, hs, hr⟩ := Py.bind_ok hr
  have hlen : 3 ≤ (sorted.map (·.fn)).length := by
    rw [List.length_map, sort_length hs, loadAll_length hos]; exact Nat.le_trans h (Nat.le_add_right _ _)
  generalize sorted.map (·.fn) = names at hlen hr
  match names, hlen, hr with
  | f :: f2 :: f3 :: rest, _, hr =>
    obtain ⟨m, _, hr⟩ := Py.bind_ok hr
    obtain ⟨s, _, hr⟩ := Py.bind_ok hr
    obtain ⟨r, hl, hr⟩ := Py.bind_ok hr
    obtain ⟨o2, _, hl⟩ := Py.bind_ok hl
    obtain ⟨m2, hm2, hl⟩ := Py.bind_ok hl
    obtain ⟨s2, _, hl⟩ := Py.bind_ok hl
    cases m2 with
    | none => exact absurd hl (by simp [mergeLoop])
    | some m2 =>
      obtain ⟨o3, ho3, hl⟩ := Py.bind_ok hl
      obtain ⟨m3, hm3, hl⟩ := Py.bind_ok hl
      obtain ⟨s3, _, hl⟩ := Py.bind_ok hl
      obtain ⟨v, hv⟩ := merge_blank hm2
      have := merge_again hv (noBlank_load ho3) hm3
      subst this
      cases rest with
      | nil =>
        injection hl with hl
        subst hl
        exact absurd hr (by simp [Py.of, Py.bind])
      | cons _ _ => exact absurd hl (by simp [mergeLoop])

/-! ### Reading the merged file -/

theorem keyOf_end {l : List Char} (h : Aod1b.Head.keyOf l = some .theEnd) : "END OF HEADER".toList <+: l := by
  unfold Aod1b.Head.keyOf at h
  obtain ⟨p, hp, hk⟩ := Option.map_eq_some_iff.mp h
  have h1 := List.mem_of_find?_eq_some hp
  have h2 : p.1.isPrefixOf l = true := by simpa using List.find?_some hp
  have h3 : ∀ p ∈ Aod1b.Head.keys, p.2 = .theEnd → p.1 = "END OF HEADER".toList := by decide +kernel
  rw [h3 p h1 hk] at h2
  exact List.isPrefixOf_iff_prefix.mp h2

theorem getline_line {l t : List Char} (h : '\n' ∉ l) :
    (In.getline 124 ⟨l ++ '\n' :: t, false, false⟩).2.1 = false ∨
    In.getline 124 ⟨l ++ '\n' :: t, false, false⟩ = (l, true, ⟨t, false, false⟩) := by
  have hl : ∀ c ∈ l, (decide (c ≠ '\n')) = true := fun c hc => decide_eq_true (fun he => h (he ▸ hc))
  have e1 : (l ++ '\n' :: t).takeWhile (· ≠ '\n') = l := by
    rw [List.takeWhile_append_of_pos hl]; simp
  have e2 : (l ++ '\n' :: t).dropWhile (· ≠ '\n') = '\n' :: t := by
    rw [List.dropWhile_append_of_pos hl]; simp
  unfold In.getline
  simp only [Bool.or_self, Bool.false_eq_true, if_false, e1, e2]
  by_cases hlen : l.length < 124
  · right; rw [if_pos hlen]
  · left; rw [if_neg hlen]

theorem loop_noEnd {T : Type} [DecidableEq T] (E : Aod1b.Head.Env T) (ls : List (List Char)) (hnl : ∀ l ∈ ls, '\n' ∉ l)
    (hend : ∀ l ∈ ls, ¬ "END OF HEADER".toList <+: l) :
    ∀ (n err : Nat) (h h' : Aod1b.Head.Data T), Aod1b.Head.loop E n ⟨ls.flatMap (· ++ ['\n']), false, false⟩ err h ≠ .ok (0, h') := by
  induction ls with
  | nil =>
    intro n err h h' he
    rw [Aod1b.Head.loop] at he
    exact absurd he (by simp [In.getline])
  | cons l ls ih =>
    intro n err h h' he
    rw [Aod1b.Head.loop, List.flatMap_cons, List.append_assoc] at he
    rcases getline_line (t := ls.flatMap (· ++ ['\n'])) (hnl l (List.mem_cons_self ..)) with hg | hg
    · simp only [List.cons_append, List.nil_append, hg, Bool.not_false, Bool.true_or, if_true] at he
      exact absurd he (by simp)
    · simp only [List.cons_append, List.nil_append, hg, Bool.not_true, Bool.false_or] at he
      split at he
      · exact absurd he (by simp)
      · split at he
        · exact absurd he (by simp)
        · exact absurd he (by simp)
        · rw [if_neg (fun hk => hend l (List.mem_cons_self ..) (keyOf_end hk))] at he
          cases hst : Aod1b.Head.step E l h (Aod1b.Head.keyOf l) with
          | ub => rw [hst] at he; exact absurd he (by simp [Res.bind])
          | abort => rw [hst] at he; exact absurd he (by simp [Res.bind])
          | throw => rw [hst] at he; exact absurd he (by simp [Res.bind])
          | ok s =>
            rw [hst] at he
            cases s with
            | stop g => exact absurd he (by simp [Res.bind])
            | go e g =>
              exact ih (fun l hl => hnl l (List.mem_cons_of_mem _ hl)) (fun l hl => hend l (List.mem_cons_of_mem _ hl)) _ e g h' he

/-- A header line without its newline. -/
def bodyOf (p : List Char × List Char) : List Char := p.1 ++ List.replicate (30 - p.1.length) ' ' ++ ':' :: ' ' :: p.2

theorem flatMap_body (d : Dict) : d.flatMap lineOf = (d.map bodyOf).flatMap (· ++ ['\n']) := by
  rw [List.flatMap_map]; rfl

theorem body_noEnd {p : List Char × List Char} (h : ¬ "END OF HEADER".toList <+: p.1) : ¬ "END OF HEADER".toList <+: bodyOf p := by
  intro hp
  by_cases hl : 13 ≤ p.1.length
  · have h1 : p.1 <+: bodyOf p := ⟨_, (List.append_assoc ..).symm⟩
    exact h (List.prefix_of_prefix_length_le hp h1 (by simpa using hl))
  · have hlt : p.1.length < 13 := by omega
    obtain ⟨r, hr⟩ := hp
    have key : ∀ i, p.1.length ≤ i → i < 30 → (bodyOf p)[i]? = some ' ' := by
      intro i h1 h2
      unfold bodyOf
      rw [List.append_assoc, List.getElem?_append_right h1, List.getElem?_append_left (by simp; omega), List.getElem?_replicate,
        if_pos (by omega)]
    have k1 := key 12 (by omega) (by omega)
    rw [← hr, List.getElem?_append_left (by decide)] at k1
    exact absurd k1 (by decide)

theorem no_nl_showInt (n : Int) : '\n' ∉ showInt n := by
  obtain ⟨d, ⟨_, hd⟩, _, ht⟩ := showInt_count n
  rw [ht]
  unfold IntText.text
  intro h
  rcases List.mem_append.mp h with h | h
  · split at h
    · exact absurd h (by decide)
    · exact absurd h (by simp)
  · exact absurd (hd _ h) (by decide)

/-- **The library does not read merged files (C89).** The tool does not write the end of the header. For any two files that it
merges, whose data are whole lines that do not begin with `END OF HEADER`, the constructor of the library's reader does not succeed
on the merged file. -/
theorem merged_unreadable_fails {T : Type} [DecidableEq T] (Eh : Aod1b.Head.Env T) {E : Env} {d : Disk}
    {cwd dir stem fb : List Char} {a b : Day} (hs : '.' ∉ stem)
    (hra : stem.head? ≠ some '/') (hrb : fb.head? ≠ some '/') (htb : fb ≠ ".aod1bdata".toList) (hdir : dir.head? = some '/')
    (hlast : dir.getLast? ≠ some '/') (ha : Holds (d (path cwd (stem ++ ".asc".toList))) a) (hb : Holds (d (path cwd fb)) b)
    (hab : Agree a b) {ea ta la ra sa eb tb lb rb sb : Int} (hsa : Says E.strptime a ea ta la ra sa)
    (hsb : Says E.strptime b eb tb lb rb sb) (h1 : ta ≤ la) (h2 : la < tb) (h3 : tb ≤ lb)
    (hout : path dir (stem ++ ".merged.asc".toList) ≠ path cwd ".aod1bdata".toList)
    (hkeys : ∀ p ∈ a.fields, ¬ "END OF HEADER".toList <+: p.1) (hdate : '\n' ∉ E.strftime lb)
    {linesA linesB : List (List Char)} (hA : a.data = linesA.flatMap (· ++ ['\n'])) (hB : b.data = linesB.flatMap (· ++ ['\n']))
    (hAB : ∀ l ∈ linesA ++ linesB, '\n' ∉ l ∧ ¬ "END OF HEADER".toList <+: l) :
    ∃ d' t, run E d cwd [stem ++ ".asc".toList, fb] dir = .ok d' ∧ d' (path dir (stem ++ ".merged.asc".toList)) = some t ∧
      ∀ h, Aod1b.Head.construct Eh (some t) ≠ .ok h := by
  have hrel : (stem ++ ".asc".toList).head? ≠ some '/' := by
    cases stem with
    | nil => decide
    | cons c s => simpa using hra
  have hta : stem ++ ".asc".toList ≠ tmpName := by
    intro h
    have := congrArg List.reverse h
    rw [List.reverse_append] at this
    exact absurd (List.cons.inj this).1 (by decide)
  have ho := out_path (cwd := cwd) hs hra hdir hlast
  have hr := run_two (E := E) (dir := dir) hrel hrb hta htb ha hb hab hsa hsb h1 h2 h3 (by rw [ho]; exact hout)
  rw [ho] at hr
  refine ⟨_, _, hr.1, if_pos rfl, ?_⟩
  intro h hc
  have hL : '\n' ∉ showInt (lb - ea) ++ ".000000 (".toList ++ E.strftime lb ++ ")".toList := by
    simp only [List.mem_append, not_or]
    exact ⟨⟨⟨no_nl_showInt _, by decide⟩, hdate⟩, by decide⟩
  have hR := no_nl_showInt (ra + rb)
  have hS := no_nl_showInt (sa + sb)
  generalize showInt (lb - ea) ++ ".000000 (".toList ++ E.strftime lb ++ ")".toList = L at hc hL
  generalize showInt (ra + rb) = R at hc hR
  generalize showInt (sa + sb) = S at hc hS
  rw [flatMap_body, hA, hB, ← List.flatMap_append, ← List.flatMap_append] at hc
  have hfields : ∀ p ∈ mergedFields a L (' ' :: R) (' ' :: S), ¬ "END OF HEADER".toList <+: p.1 ∧ '\n' ∉ p.1 ∧ '\n' ∉ p.2 := by
    intro p hp
    obtain ⟨q, hq, rfl⟩ := List.mem_map.mp hp
    have e1 := hkeys q hq
    have e2 := tight_no_nl (ha.1.key q hq).1.1
    have e3 := tight_no_nl (ha.1.value q hq).1
    have hR' : '\n' ∉ ' ' :: R := by simp [hR]
    have hS' : '\n' ∉ ' ' :: S := by simp [hS]
    refine ⟨?_, ?_, ?_⟩
    · split
      · exact e1
      split
      · exact e1
      split <;> exact e1
    · split
      · exact e2
      split
      · exact e2
      split <;> exact e2
    · split
      · exact hL
      split
      · exact hR'
      split
      · exact hS'
      · exact e3
  have key := loop_noEnd Eh ((mergedFields a L (' ' :: R) (' ' :: S)).map bodyOf ++ (linesA ++ linesB))
    (by
      intro l hl
      rcases List.mem_append.mp hl with hl | hl
      · obtain ⟨p, hp, rfl⟩ := List.mem_map.mp hl
        have := hfields p hp
        unfold bodyOf
        simp [this.2.1, this.2.2, List.mem_replicate]
      · exact (hAB l hl).1)
    (by
      intro l hl
      rcases List.mem_append.mp hl with hl | hl
      · obtain ⟨p, hp, rfl⟩ := List.mem_map.mp hl
        exact body_noEnd (hfields p hp).1
      · exact (hAB l hl).2) 100 0 { epoch := Eh.unset, first := Eh.unset, last := Eh.unset }
  unfold Aod1b.Head.construct Aod1b.Head.read In.start at hc
  simp only at hc
  generalize Aod1b.Head.loop Eh 100 _ 0 _ = r at hc key
  cases r with
  | ok r =>
    obtain ⟨s, g⟩ := r
    change (if s ≠ 0 then Res.throw else Res.ok g) = Res.ok h at hc
    by_cases h0 : s = 0
    · exact key g (by rw [h0])
    · rw [if_pos h0] at hc; exact absurd hc (by simp)
  | ub => exact absurd hc (by simp [Res.bind])
  | abort => exact absurd hc (by simp [Res.bind])
  | throw => exact absurd hc (by simp [Res.bind])

/-! ### Example: two days -/

/-- Two dates are known. -/
def exEnv : Env where
  strptime s :=
    if s = "2000-01-01 12:00:00".toList then some 0
    else if s = "2005-05-01 00:00:00".toList then some 168264000
    else if s = "2005-05-01 21:00:00".toList then some 168339600
    else if s = "2005-05-02 00:00:00".toList then some 168350400
    else if s = "2005-05-02 21:00:00".toList then some 168426000
    else none
  strftime _ := "2005-05-02 21:00:00".toList

def exDay (first last : String) (data : String) : Day :=
  ⟨[("PRODUCER AGENCY".toList, "GFZ".toList), ("TIME EPOCH (GPS TIME)".toList, "2000-01-01 12:00:00".toList),
    ("TIME FIRST OBS(SEC PAST EPOCH)".toList, first.toList), ("TIME LAST OBS(SEC PAST EPOCH)".toList, last.toList),
    ("NUMBER OF DATA RECORDS".toList, "531".toList), ("NUMBER OF DATA SETS".toList, "8".toList)], data.toList⟩

def exA : Day := exDay "168264000.000000 (2005-05-01 00:00:00.00)" "168339600.000000 (2005-05-01 21:00:00.00)" "first day\n"
def exB : Day := exDay "168350400.000000 (2005-05-02 00:00:00.00)" "168426000.000000 (2005-05-02 21:00:00.00)" "second day\n"

/-- The text of a day, with the colon in column 33. -/
def exText (d : Day) : List Char :=
  d.fields.flatMap (fun p => p.1 ++ List.replicate (32 - p.1.length) ' ' ++ ": ".toList ++ p.2 ++ ['\n']) ++
    "END OF HEADER\n".toList ++ d.data

def exDisk : Disk := fun p =>
  if p = "/home/a.asc".toList then some (exText exA) else if p = "/home/b.asc".toList then some (exText exB) else none

theorem ex_written (fs : List (List Char × List Char)) (data : List Char) : Written fs data
    (fs.flatMap (fun p => p.1 ++ List.replicate (32 - p.1.length) ' ' ++ ": ".toList ++ p.2 ++ ['\n']) ++
      "END OF HEADER\n".toList ++ data) := by
  induction fs with
  | nil => exact Written.theEnd 0 data
  | cons p fs ih =>
    have hl : HeaderLine p.1 p.2 (p.1 ++ List.replicate (32 - p.1.length) ' ' ++ ": ".toList ++ p.2) :=
      ⟨32 - p.1.length, 1, 0, by simp⟩
    have := Written.field hl ih
    simpa using this

theorem exA_ok : exA.Ok where
  nodup := by decide +kernel
  key := by unfold Tight; decide +kernel
  value := by unfold Tight; decide +kernel

theorem exB_ok : exB.Ok where
  nodup := by decide +kernel
  key := by unfold Tight; decide +kernel
  value := by unfold Tight; decide +kernel

theorem exA_holds : Holds (exDisk (path "/home".toList "a.asc".toList)) exA :=
  ⟨exA_ok, _, if_pos (by decide), ex_written _ _⟩

theorem exB_holds : Holds (exDisk (path "/home".toList "b.asc".toList)) exB :=
  ⟨exB_ok, _, (if_neg (by decide)).trans (if_pos (by decide)), ex_written _ _⟩

theorem ex_epoch (sec Y M D h m s rest : String) (t : Int) (hs : (∀ c ∈ sec.toList, c.isDigit = true))
    (hd : Digits 4 Y.toList ∧ Digits 2 M.toList ∧ Digits 2 D.toList ∧ Digits 2 h.toList ∧ Digits 2 m.toList ∧ Digits 2 s.toList)
    (hr : exEnv.strptime (Y.toList ++ '-' :: (M.toList ++ '-' :: (D.toList ++ ' ' :: (h.toList ++ ':' :: (m.toList ++ ':' :: s.toList))))) = some t) :
    EpochText exEnv.strptime (sec.toList ++ '.' :: ("000000".toList ++ ' ' :: '(' :: ((Y.toList ++ '-' :: (M.toList ++ '-' ::
      (D.toList ++ ' ' :: (h.toList ++ ':' :: (m.toList ++ ':' :: s.toList))))) ++ rest.toList))) t :=
  ⟨_, _, _, _, hs, by decide, ⟨_, _, _, _, _, _, hd.1, hd.2.1, hd.2.2.1, hd.2.2.2.1, hd.2.2.2.2.1, hd.2.2.2.2.2, rfl⟩, hr, rfl⟩

theorem ex_count (n : Int) (ds : String) (h : IntText.Ok ⟨false, ds.toList⟩) (hv : IntText.value ⟨false, ds.toList⟩ = n) :
    CountText ds.toList n := ⟨⟨false, ds.toList⟩, h, hv, rfl⟩

theorem exA_says : Says exEnv.strptime exA 0 168264000 168339600 531 8 where
  epoch := ⟨"2000-01-01 12:00:00".toList, by decide +kernel, by decide +kernel⟩
  first := ⟨_, by decide +kernel, ex_epoch "168264000" "2005" "05" "01" "00" "00" "00" ".00)" _ (by decide)
    (by unfold Digits; decide) (by decide +kernel)⟩
  last := ⟨_, by decide +kernel, ex_epoch "168339600" "2005" "05" "01" "21" "00" "00" ".00)" _ (by decide)
    (by unfold Digits; decide) (by decide +kernel)⟩
  records := ⟨_, by decide +kernel, ex_count _ "531" (by unfold IntText.Ok; decide) (by decide)⟩
  sets := ⟨_, by decide +kernel, ex_count _ "8" (by unfold IntText.Ok; decide) (by decide)⟩

theorem exB_says : Says exEnv.strptime exB 0 168350400 168426000 531 8 where
  epoch := ⟨"2000-01-01 12:00:00".toList, by decide +kernel, by decide +kernel⟩
  first := ⟨_, by decide +kernel, ex_epoch "168350400" "2005" "05" "02" "00" "00" "00" ".00)" _ (by decide)
    (by unfold Digits; decide) (by decide +kernel)⟩
  last := ⟨_, by decide +kernel, ex_epoch "168426000" "2005" "05" "02" "21" "00" "00" ".00)" _ (by decide)
    (by unfold Digits; decide) (by decide +kernel)⟩
  records := ⟨_, by decide +kernel, ex_count _ "531" (by unfold IntText.Ok; decide) (by decide)⟩
  sets := ⟨_, by decide +kernel, ex_count _ "8" (by unfold IntText.Ok; decide) (by decide)⟩

theorem ex_agree : Agree exA exB := by unfold Agree; decide +kernel

/-- The two days are merged, whatever the order of their names. -/
example : ∃ d', run exEnv exDisk "/home".toList ["b.asc".toList, "a.asc".toList] "/out".toList = .ok d' ∧
    d' "/out/a.merged.asc".toList = some ("PRODUCER AGENCY               : GFZ\nTIME EPOCH (GPS TIME)         : 2000-01-01 12:00:00\nTIME FIRST OBS(SEC PAST EPOCH): 168264000.000000 (2005-05-01 00:00:00.00)\nTIME LAST OBS(SEC PAST EPOCH) : 168426000.000000 (2005-05-02 21:00:00)\nNUMBER OF DATA RECORDS        :  1062\nNUMBER OF DATA SETS           :  16\nfirst day\nsecond day\n".toList) := by
  have h := run_two (E := exEnv) (d := exDisk) (cwd := "/home".toList) (dir := "/out".toList) (fa := "a.asc".toList)
    (fb := "b.asc".toList) (by decide) (by decide) (by decide) (by decide) exA_holds exB_holds ex_agree exA_says exB_says (by decide)
    (by decide) (by decide) (by decide +kernel)
  exact ⟨_, h.2, by decide +kernel⟩

example := merge_two_partial (E := exEnv) (d := exDisk) (cwd := "/home".toList) (dir := "/out".toList) (stem := ['a'])
  (fb := "b.asc".toList) (by decide) (by decide) (by decide) (by decide) (by decide) (by decide) exA_holds exB_holds ex_agree exA_says
  exB_says (by decide) (by decide) (by decide) (by decide)

example := merge_reversed_fails (E := exEnv) exA_ok exB_ok (by unfold Agree; decide +kernel) (fa := "a.asc".toList) (fb := "b.asc".toList)
  exA_says exB_says (by decide) (by decide)

example (Eh : Aod1b.Head.Env Int) := merged_unreadable_fails Eh (E := exEnv) (d := exDisk) (cwd := "/home".toList)
  (dir := "/out".toList) (stem := ['a']) (fb := "b.asc".toList) (by decide) (by decide) (by decide) (by decide) (by decide) (by decide)
  exA_holds exB_holds ex_agree exA_says exB_says (by decide) (by decide) (by decide) (by decide) (by decide +kernel) (by decide)
  (linesA := ["first day".toList]) (linesB := ["second day".toList]) (by decide) (by decide) (by decide +kernel)

/-- The same days under names without `.asc`. -/
def exDisk2 : Disk := fun p =>
  if p = "/home/a".toList then some (exText exA) else if p = "/home/b".toList then some (exText exB) else none

example := merge_overwrites_fails (E := exEnv) (d := exDisk2) (cwd := "/home".toList) (fa := ['a']) (fb := ['b'])
  (by decide) (by decide) (by decide) (by decide) (by decide) (by decide) ⟨exA_ok, _, if_pos (by decide), ex_written _ _⟩
  ⟨exB_ok, _, (if_neg (by decide)).trans (if_pos (by decide)), ex_written _ _⟩ ex_agree exA_says exB_says (by decide) (by decide)
  (by decide)

end Verif.Merge
