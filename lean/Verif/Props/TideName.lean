import Verif.Spec.TideName
import Verif.Props.GroopsDisk
import Verif.Proof.MatrixKept
/-
C108: a tide model reports the name it was given.
-/
namespace Verif.TideName
open Verif Verif.Groops Verif.Doodson
open Verif.MatrixKept (Res.bind_eq)

/-- An array that holds a name. -/
def Bears (b s : List Char) : Prop := b.length = 64 ∧ Fits s ∧ s ++ ['\x00'] <+: b

theorem report_bears {b s : List Char} (h : Bears b s) : report b = .ok s := by
  obtain ⟨-, ⟨-, h0⟩, t, rfl⟩ := h
  unfold report
  rw [if_pos (by simp)]
  congr 1
  rw [List.append_assoc, List.takeWhile_append_of_pos (by intro c hc; simp only [ne_eq, decide_eq_true_eq]; rintro rfl; exact h0 hc)]
  simp

theorem strcpy_bears {b s : List Char} (hb : b.length = 64) (hs : Fits s) : ∃ b', strcpy b s = .ok b' ∧ Bears b' s := by
  unfold strcpy
  rw [if_pos (by rw [hb]; exact hs.1)]
  refine ⟨_, rfl, ?_, hs, ⟨b.drop (s.length + 1), by simp⟩⟩
  simp only [List.length_append, List.length_cons, List.length_drop, hb]
  have := hs.1
  omega

theorem fits_nil : Fits [] := ⟨by decide, by simp⟩

theorem blank_bears : Bears blank [] := ⟨by decide, fits_nil, ⟨List.replicate 63 '\x00', by decide⟩⟩

theorem loop_bears {disk : List Int → Option (List Char)} {title : List Int → List Char} {dir : List Int} (files : List (List Int)) :
    ∀ (b s : List Char), Bears b s → (∀ fn ∈ files, Fits (title (dir ++ 47 :: fn)) ∧
      ∃ h pos, Icgem.Head.construct (disk (dir ++ 47 :: fn)) = .ok (h, pos) ∧ h.modelName = title (dir ++ 47 :: fn)) →
    ∃ b', forEach files (fileStep disk dir) b = .ok b' ∧ Bears b' ((files.getLast?.map fun fn => title (dir ++ 47 :: fn)).getD s) := by
  induction files with
  | nil => exact fun b s h _ => ⟨b, rfl, h⟩
  | cons f fs ih =>
    intro b s hb h
    obtain ⟨hf, hd, pos, hc, hn⟩ := h f (by simp)
    obtain ⟨b1, e1, g1⟩ := strcpy_bears hb.1 hf
    obtain ⟨b', e2, g2⟩ := ih b1 _ g1 fun fn m => h fn (by simp [m])
    refine ⟨b', ?_, ?_⟩
    · rw [forEach]
      unfold fileStep
      rw [hc]
      simp only [Res.bind, hn, e1]
      exact e2
    · cases fs with
      | nil => simpa using g2
      | cons g gs =>
        rw [List.getLast?_cons_cons]
        have hl : (g :: gs).getLast? = some ((g :: gs).getLast (by simp)) := List.getLast?_eq_some_getLast _
        rw [hl] at g2 ⊢
        exact g2

theorem groops_bears {disk : List Int → Option (List Char)} {title : List Int → List Char} {dir : List Int} {files : List (List Int)}
    (h : ∀ fn ∈ files, Fits (title (dir ++ 47 :: fn)) ∧
      ∃ h pos, Icgem.Head.construct (disk (dir ++ 47 :: fn)) = .ok (h, pos) ∧ h.modelName = title (dir ++ 47 :: fn)) :
    ∃ b', groopsName disk dir files = .ok b' ∧ Bears b' ((files.getLast?.map fun fn => title (dir ++ 47 :: fn)).getD []) := by
  obtain ⟨b, e, g⟩ := loop_bears files blank [] blank_bears h
  obtain ⟨b', e', g'⟩ := strcpy_bears (b := blank) (by decide) g.2.1
  refine ⟨b', ?_, g'⟩
  unfold groopsName
  rw [e]
  simp only [Res.bind]
  rw [report_bears g]
  exact e'

/-- Objects and names agree. -/
def Agree (s : State) (n : Names) : Prop := ∀ k, match n k with
  | none => s k = none
  | some t => ∃ b, s k = some b ∧ Bears b t

theorem Agree.put {s : State} {n : Names} (h : Agree s n) (k : Nat) {b t : List Char} (hb : Bears b t) :
    Agree (s.put k b) (fun i => if i = k then some t else n i) := by
  intro i
  unfold State.put
  by_cases e : i = k
  · simp only [e, if_pos]; exact ⟨b, rfl, hb⟩
  · simp only [if_neg e]; exact h i

theorem Agree.get {s : State} {n : Names} (h : Agree s n) {j : Nat} (hj : (n j).isSome) : ∃ t b, n j = some t ∧ s j = some b ∧ Bears b t := by
  obtain ⟨t, ht⟩ := Option.isSome_iff_exists.mp hj
  have := h j
  rw [ht] at this
  obtain ⟨b, e, g⟩ := this
  exact ⟨t, b, ht, e, g⟩

theorem step_agree {disk : List Int → Option (List Char)} {title : List Int → List Char} {s : State} {n : Names} (h : Agree s n) (o : Op)
    (ho : Allowed disk title n o) : ∃ s', step disk s o = .ok s' ∧ Agree s' (named title n o) := by
  cases o with
  | new k name =>
    cases name with
    | none => exact ⟨_, rfl, h.put k blank_bears⟩
    | some t =>
      obtain ⟨b, e, g⟩ := strcpy_bears (b := blank) (by decide) (ho t rfl)
      refine ⟨s.put k b, ?_, h.put k g⟩
      show (strcpy blank t).bind _ = _
      rw [e]; rfl
  | make k j name =>
    obtain ⟨t, a, ht, e1, g1⟩ := h.get ho.1
    cases name with
    | none =>
      refine ⟨s.put k a, ?_, ?_⟩
      · simp only [step, e1, construct, Res.bind]
      · simp only [named, ht]; exact h.put k g1
    | some t' =>
      obtain ⟨b, e, g⟩ := strcpy_bears (b := a) g1.1 (ho.2 t' rfl)
      refine ⟨s.put k b, ?_, h.put k g⟩
      simp only [step, e1, construct, e, Res.bind]
  | groops k dir files =>
    obtain ⟨b, e, g⟩ := groops_bears ho
    exact ⟨s.put k b, by simp only [step, e, Res.bind], h.put k g⟩
  | copy k j =>
    obtain ⟨t, a, ht, e1, g1⟩ := h.get ho
    refine ⟨s.put k a, by simp only [step, e1], ?_⟩
    simp only [named, ht]; exact h.put k g1
  | move k j =>
    obtain ⟨t, a, ht, e1, g1⟩ := h.get ho
    refine ⟨s.put k a, by simp only [step, e1], ?_⟩
    simp only [named, ht]; exact h.put k g1

theorem run_agree {disk : List Int → Option (List Char)} {title : List Int → List Char} {n n' : Names} {os : List Op} (h : Runs disk title n os n') :
    ∀ {s : State}, Agree s n → ∃ s', run disk s os = .ok s' ∧ Agree s' n' := by
  induction h with
  | done n => exact fun h => ⟨_, rfl, h⟩
  | step ha _ ih =>
    intro s hs
    obtain ⟨s1, e1, g1⟩ := step_agree hs _ ha
    obtain ⟨s2, e2, g2⟩ := ih g1
    exact ⟨s2, by rw [run, e1]; exact e2, g2⟩

/-- C108 (partial): through any history of construction, reading, copying and moving, every tide model reports the name it should have, and no
array is overrun, if names are shorter than 64 characters. Missing: longer names (`name_long_fails`, `groops_long_fails`). -/
theorem names_partial {disk : List Int → Option (List Char)} {title : List Int → List Char} {os : List Op} {n : Names}
    (h : Runs disk title (fun _ => none) os n) :
    ∃ s, run disk (fun _ => none) os = .ok s ∧ ∀ k t, n k = some t → ∃ b, s k = some b ∧ report b = .ok t := by
  obtain ⟨s, e, g⟩ := run_agree h (s := fun _ => none) (fun _ => rfl)
  refine ⟨s, e, fun k t hk => ?_⟩
  obtain ⟨t', b, e1, e2, e3⟩ := g.get (j := k) (by rw [hk]; rfl)
  rw [hk] at e1
  cases e1
  exact ⟨b, e2, report_bears e3⟩

theorem headers_read {T : Type} [LinearOrder T] (cal : Icgem.Cal T) (disk : List Int → Option (List Char)) (junkErr : Icgem.ErrorModel)
    (junkE : Icgem.Entry T) (junk : Nat → Nat → ℝ) (dir : List Int) (n m : Int) {files : List (List Int)} :
    ∀ {b b' : Build}, forEach files (addFile junk (readGfc cal disk junkErr junkE junk n m) dir n m) b = .ok b' →
    ∀ fn ∈ files, ∃ h pos, Icgem.Head.construct (disk (dir ++ 47 :: fn)) = .ok (h, pos) ∧ h.modelName.length < 64 := by
  induction files with
  | nil => intro b b' _ fn hfn; simp at hfn
  | cons f fs ih =>
    intro b b' h fn hfn
    rw [forEach] at h
    obtain ⟨b1, h1, h2⟩ := Res.bind_eq h
    rcases List.mem_cons.mp hfn with rfl | hfn
    · unfold addFile at h1
      obtain ⟨info, -, h1⟩ := Res.bind_eq h1
      obtain ⟨a, -, h1⟩ := Res.bind_eq h1
      split at h1
      · cases h1
      · split at h1
        · cases h1
        · obtain ⟨c, h1, -⟩ := Res.bind_eq h1
          unfold readGfc at h1
          obtain ⟨⟨hd, pos⟩, h3, h1⟩ := Res.bind_eq h1
          refine ⟨hd, pos, h3, ?_⟩
          simp only at h1
          split at h1
          · cases h1
          · omega
    · exact ih h2 fn hfn

/-- C108: a GROOPS atlas that is read without error bears the model name in the header of the last file of the list; the headers of all files could
be read, and their names were short enough. -/
theorem groops_name {T : Type} [LinearOrder T] (cal : Icgem.Cal T) (disk : List Int → Option (List Char)) (junkErr : Icgem.ErrorModel)
    (junkE : Icgem.Entry T) (junk : Nat → Nat → ℝ) (file : Option (List (List Int))) (dir : List Int) (n m : Int) {a : Tide.Atlas}
    (h : groopsAtlas junk (readGfc cal disk junkErr junkE junk n m) file dir n m = .ok a)
    (h0 : ∀ fn ∈ fileList file, ∀ hd pos, Icgem.Head.construct (disk (dir ++ 47 :: fn)) = .ok (hd, pos) → '\x00' ∉ hd.modelName) :
    ∃ fn hd pos b, (fileList file).getLast? = some fn ∧ Icgem.Head.construct (disk (dir ++ 47 :: fn)) = .ok (hd, pos) ∧
      groopsName disk dir (fileList file) = .ok b ∧ report b = .ok hd.modelName := by
  unfold groopsAtlas at h
  simp only at h
  split at h
  · cases h
  next hne =>
  split at h
  · cases h
  obtain ⟨st, -, h⟩ := Res.bind_eq h
  split at h
  · cases h
  obtain ⟨b, h, -⟩ := Res.bind_eq h
  have hh := headers_read cal disk junkErr junkE junk dir n m h
  have hne' : fileList file ≠ [] := by
    intro e; rw [e] at hne; simp at hne
  let title : List Int → List Char := fun p =>
    match Icgem.Head.construct (disk p) with
    | .ok (hd, _) => hd.modelName
    | _ => []
  obtain ⟨hd, pos, hc, hlen⟩ := hh _ (List.getLast_mem hne')
  obtain ⟨b', e, g⟩ := groops_bears (disk := disk) (title := title) (dir := dir) (files := fileList file) (by
    intro fn hfn
    obtain ⟨hd, pos, hc, hlen⟩ := hh fn hfn
    have ht : title (dir ++ 47 :: fn) = hd.modelName := by simp only [title, hc]
    rw [ht]
    exact ⟨⟨hlen, h0 fn hfn hd pos hc⟩, hd, pos, hc, rfl⟩)
  have hl : (fileList file).getLast? = some ((fileList file).getLast hne') := List.getLast?_eq_some_getLast _
  refine ⟨_, hd, pos, b', hl, hc, e, ?_⟩
  rw [report_bears g, hl]
  simp only [Option.map_some, Option.getD_some, title, hc]

/-- C108 fails: a name of 64 characters or more is written beyond the array, whatever constructor gets it. -/
theorem name_long_fails (disk : List Int → Option (List Char)) (s : State) (k : Nat) (t : List Char) (h : 64 ≤ t.length) :
    step disk s (.new k (some t)) = .ub := by
  have : ¬ t.length < blank.length := by
    have : blank.length = 64 := by decide
    omega
  simp only [step, construct, strcpy, if_neg this, Res.bind]

/-- C108 fails: a gravity file with a model name of 64 to 127 characters, which is read correctly by itself, overruns an array when it is part of
a tide model. -/
theorem groops_long_fails : ∃ (disk : List Int → Option (List Char)) (fn : List Int),
    (∃ h pos, Icgem.Head.construct (disk (47 :: fn)) = .ok (h, pos) ∧ h.modelName = List.replicate 64 'x') ∧
    step disk (fun _ => none) (.groops 0 [] [fn]) = .ub := by
  have hc : Icgem.Head.construct (some ("modelname ".toList ++ List.replicate 64 'x' ++ "\nend_of_head\n".toList)) =
      .ok ({ modelName := List.replicate 64 'x' }, some []) := by decide +kernel
  refine ⟨fun _ => some ("modelname ".toList ++ List.replicate 64 'x' ++ "\nend_of_head\n".toList), [97], ⟨_, _, hc, rfl⟩, ?_⟩
  simp only [step, groopsName, forEach, fileStep, hc, Res.bind]
  have : ¬ (List.replicate 64 'x').length < blank.length := by decide
  simp only [strcpy, if_neg this]

/-- A program meets the hypotheses of `names_partial`: a model with a name, a copy, a model made from the copy with another name. -/
example (disk : List Int → Option (List Char)) : ∃ s, run disk (fun _ => none) [.new 0 (some ['a', 'b']), .copy 1 0, .make 2 1 (some ['c']), .move 3 1] = .ok s ∧
    (∃ b, s 2 = some b ∧ report b = .ok ['c']) ∧ ∃ b, s 3 = some b ∧ report b = .ok ['a', 'b'] := by
  obtain ⟨s, e, h⟩ := names_partial (disk := disk) (title := fun _ => []) (.step (o := .new 0 (some ['a', 'b']))
    (by intro s hs; cases hs; exact ⟨by decide, by decide⟩) (.step (o := .copy 1 0) (by simp [Allowed, named]) (.step (o := .make 2 1 (some ['c']))
      ⟨by simp [named], by intro s hs; cases hs; exact ⟨by decide, by decide⟩⟩ (.step (o := .move 3 1) (by simp [Allowed, named]) (.done _)))))
  exact ⟨s, e, h 2 _ (by simp [named]), h 3 _ (by simp [named])⟩

theorem titled {disk : List Int → Option (List Char)} {dir : List Int} {list : List (List Int)} {waves : List (Wave Int)}
    (hs : StoredModel Icgem.exCal disk dir (-1) (-1) list waves) (hd : ∀ p, disk p = some (exGfc '2' 2).text ∨ disk p = none)
    (junkErr : Icgem.ErrorModel) (junkE : Icgem.Entry Int) (junk : Nat → Nat → ℝ) :
    ∃ a b, groopsAtlas junk (readGfc Icgem.exCal disk junkErr junkE junk (-1) (-1)) (some list) dir (-1) (-1) = .ok a ∧
      groopsName disk dir (fileList (some list)) = .ok b ∧ report b = .ok ['T'] := by
  obtain ⟨a, ha, -⟩ := atlas_waves (junkErr := junkErr) (junkE := junkE) (junk := junk) hs
  have ht : ∀ hd pos, Icgem.Head.construct (some (exGfc '2' 2).text) = .ok (hd, pos) → hd.modelName = ['T'] := by
    intro hd pos h
    have : (match Icgem.Head.construct (some (exGfc '2' 2).text) with | .ok (hd, _) => hd.modelName | _ => []) = ['T'] := by decide +kernel
    rw [h] at this
    exact this
  have hn : ∀ p hd pos, Icgem.Head.construct (disk p) = .ok (hd, pos) → hd.modelName = ['T'] := by
    intro p hd' pos h
    rcases hd p with e | e
    · rw [e] at h; exact ht _ _ h
    · rw [e] at h; simp [Icgem.Head.construct, Icgem.Head.parse, Res.bind] at h
  obtain ⟨fn, hd, pos, b, h1, h2, h3, h4⟩ := groops_name Icgem.exCal _ junkErr junkE junk _ _ _ _ ha (by
    intro fn _ hd pos h
    rw [hn _ _ _ h]
    decide)
  rw [hn _ _ _ h2] at h4
  exact ⟨a, b, ha, h3, h4⟩

/-- The hypotheses of `groops_name` are met by a model with one wave, whose files are titled "T". -/
example (junkErr : Icgem.ErrorModel) (junkE : Icgem.Entry Int) (junk : Nat → Nat → ℝ) : ∃ disk dir list a b,
    groopsAtlas junk (readGfc Icgem.exCal disk junkErr junkE junk (-1) (-1)) (some list) dir (-1) (-1) = .ok a ∧
      groopsName disk dir (fileList (some list)) = .ok b ∧ report b = .ok ['T']  := by
  have hs := exStored '2' '2' 2 2 (by decide) (by decide)
  have hd : ∀ p, exDisk (exGfc '2' 2) (exGfc '2' 2) p = some (exGfc '2' 2).text ∨ exDisk (exGfc '2' 2) (exGfc '2' 2) p = none := by
    intro p
    unfold exDisk
    split
    · exact .inl rfl
    · split
      · exact .inl rfl
      · exact .inr rfl
  generalize exDisk (exGfc '2' 2) (exGfc '2' 2) = disk at hs hd
  generalize [bytes "TiME22_162.556_pi1_cos.gfc TiME22_162.556_pi1_sin.gfc"] = list at hs
  generalize bytes "data" = dir at hs
  exact ⟨disk, dir, list, titled hs hd junkErr junkE junk⟩

end Verif.TideName
