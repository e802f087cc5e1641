import Verif.Spec.GetAod1b
import Verif.Props.Aod1bFiles
import Mathlib.Logic.Function.Iterate
/-
Lemmas on the download tool.
-/
namespace Verif.GetAod1b
open Verif Verif.Aod1b

/-! ### Names -/

theorem replaceFrom_pass (o : Char) (os new a s : Text) (h : o ∉ a) :
    replaceFrom (o :: os) new (a ++ s) 0 = a ++ replaceFrom (o :: os) new s 0 := by
  induction a with
  | nil => rfl
  | cons c a ih =>
    have hc : ¬ (o :: os).isPrefixOf (c :: (a ++ s)) := by
      simp only [List.isPrefixOf, Bool.and_eq_true, beq_iff_eq, not_and]
      intro e; exact absurd (by rw [e]; exact List.mem_cons_self) h
    simp only [List.cons_append, replaceFrom, hc]
    simp only [Bool.false_eq_true, if_false]
    rw [ih fun m => h (List.mem_cons_of_mem _ m)]

theorem digits_dec2 (rl : Nat) (hr : rl ≤ 99) : dec2 (rl : Int) = [Char.ofNat (48 + rl / 10), Char.ofNat (48 + rl % 10)] := by
  have h : dec2 (rl : Int) = twoDigits rl := by unfold dec2; rw [if_neg (by omega)]; rfl
  rw [h]
  exact twoDigits_eq ⟨rl, by omega⟩

theorem rlDigits (rl : Nat) (hr : rl ≤ 99) : ∀ c ∈ [Char.ofNat (48 + rl / 10), Char.ofNat (48 + rl % 10)], c.isDigit = true := by
  have : ∀ r : Fin 100, ∀ c ∈ [Char.ofNat (48 + r.val / 10), Char.ofNat (48 + r.val % 10)], c.isDigit = true := by decide +kernel
  exact this ⟨rl, by omega⟩

theorem not_mem_of_digits {a : Text} {o : Char} (h : ∀ c ∈ a, c.isDigit ∨ c = '-') (ho : o.isDigit = false) (ho' : o ≠ '-') : o ∉ a := by
  intro m
  rcases h o m with h | h
  · rw [ho] at h; cases h
  · exact ho' h

theorem t_name : "AOD1B_DATE_X_RL.asc.gz".toList = ['A', 'O', 'D', '1', 'B', '_'] ++ ['D', 'A', 'T', 'E'] ++ ['_', 'X', '_'] ++ ['R', 'L'] ++ ['.', 'a', 's', 'c'] ++ ['.', 'g', 'z'] := by decide
theorem t_dir : "/grace/Level-1B/GFZ/AOD/RLNN/YYYY".toList = "/grace/Level-1B/GFZ/AOD/RL".toList ++ ['N', 'N'] ++ ['/'] ++ ['Y', 'Y', 'Y', 'Y'] := by decide
theorem t_date : "DATE".toList = ['D', 'A', 'T', 'E'] := by decide
theorem t_rl : "RL".toList = ['R', 'L'] := by decide
theorem t_year : "YYYY".toList = ['Y', 'Y', 'Y', 'Y'] := by decide
theorem t_nn : "NN".toList = ['N', 'N'] := by decide
theorem t_gz : ".gz".toList = ['.', 'g', 'z'] := by decide
theorem t_aod : "AOD1B_".toList = ['A', 'O', 'D', '1', 'B', '_'] := by decide
theorem t_x : "_X_".toList = ['_', 'X', '_'] := by decide
theorem t_asc : ".asc".toList = ['.', 'a', 's', 'c'] := by decide

/-- The name of the day, in explicit characters. -/
theorem dayName_eq (ymd : Int → Text) (rl : Nat) (d : Int) : dayName ymd rl d =
    ['A', 'O', 'D', '1', 'B', '_'] ++ ymd d ++ ['_', 'X', '_'] ++ [Char.ofNat (48 + rl / 10), Char.ofNat (48 + rl % 10)] ++ ['.', 'a', 's', 'c'] := by
  unfold dayName
  rw [t_aod, t_x, t_asc]

/-- An occurrence. -/
theorem replaceFrom_hit (o : Char) (os new s : Text) : replaceFrom (o :: os) new ((o :: os) ++ s) 0 = new ++ replaceFrom (o :: os) new s 0 := by
  have skip : ∀ (a s : Text), replaceFrom (o :: os) new (a ++ s) a.length = replaceFrom (o :: os) new s 0 := by
    intro a
    induction a with
    | nil => intro s; rfl
    | cons c a ih => intro s; simp only [List.cons_append, List.length_cons, replaceFrom]; exact ih s
  have hp : (o :: os).isPrefixOf (o :: (os ++ s)) = true :=
    List.isPrefixOf_iff_prefix.mpr (by rw [← List.cons_append]; exact List.prefix_append _ _)
  simp only [List.cons_append, replaceFrom, hp, if_true, List.length_cons, Nat.add_sub_cancel]
  rw [skip]

theorem replaceFrom_nil (old new : Text) : replaceFrom old new [] 0 = [] := rfl

theorem replaceFrom_end (o : Char) (os new a : Text) (h : o ∉ a) : replaceFrom (o :: os) new a 0 = a := by
  have := replaceFrom_pass o os new a [] h
  rwa [List.append_nil, replaceFrom_nil, List.append_nil] at this

theorem productName_eq (E : Env) (hE : Dates E) (rl : Nat) (hr : rl ≤ 99) (d : Int) :
    productName E d rl = (dayName E.ymd rl d ++ ".gz".toList, remote E rl d) := by
  unfold productName replace remote
  rw [t_name, t_dir, t_date, t_rl, t_year, t_nn, t_gz, digits_dec2 rl hr, dayName_eq]
  simp only [List.append_assoc]
  generalize hn : [Char.ofNat (48 + rl / 10), Char.ofNat (48 + rl % 10)] = dg
  have hdg : ∀ c ∈ dg, c.isDigit = true := by rw [← hn]; exact rlDigits rl hr
  refine Prod.ext ?_ ?_
  · show replaceFrom ['R', 'L'] dg (replaceFrom ['D', 'A', 'T', 'E'] (E.ymd d) _ 0) 0 = _
    have e : replaceFrom ['D', 'A', 'T', 'E'] (E.ymd d)
        (['A', 'O', 'D', '1', 'B', '_'] ++ (['D', 'A', 'T', 'E'] ++ (['_', 'X', '_'] ++ (['R', 'L'] ++ (['.', 'a', 's', 'c'] ++ ['.', 'g', 'z']))))) 0 =
        ['A', 'O', 'D', '1', 'B', '_'] ++ (E.ymd d ++ (['_', 'X', '_'] ++ (['R', 'L'] ++ (['.', 'a', 's', 'c'] ++ ['.', 'g', 'z'])))) := by
      have h6 : replaceFrom ['D', 'A', 'T', 'E'] (E.ymd d)
          (['A', 'O', 'D', '1', 'B', '_'] ++ (['D', 'A', 'T', 'E'] ++ (['_', 'X', '_'] ++ (['R', 'L'] ++ (['.', 'a', 's', 'c'] ++ ['.', 'g', 'z']))))) 0 =
        ['A', 'O', 'D', '1', 'B', '_'] ++ replaceFrom ['D', 'A', 'T', 'E'] (E.ymd d)
          (['D', 'A', 'T', 'E'] ++ (['_', 'X', '_'] ++ (['R', 'L'] ++ (['.', 'a', 's', 'c'] ++ ['.', 'g', 'z'])))) 0 := by
        simp [replaceFrom, List.isPrefixOf]
      rw [h6, replaceFrom_hit, replaceFrom_end _ _ _ _ (by decide)]
    rw [e, replaceFrom_pass 'R' ['L'] _ _ _ (by decide),
      replaceFrom_pass 'R' ['L'] _ _ _ (not_mem_of_digits (hE.chars d) (by decide) (by decide)),
      replaceFrom_pass 'R' ['L'] _ _ _ (by decide), replaceFrom_hit, replaceFrom_end _ _ _ _ (by decide)]
  · show replaceFrom ['N', 'N'] dg (replaceFrom ['Y', 'Y', 'Y', 'Y'] (E.year d) _ 0) 0 = _
    rw [replaceFrom_pass 'Y' _ _ _ _ (by decide), replaceFrom_pass 'Y' _ _ ['N', 'N'] _ (by decide), replaceFrom_pass 'Y' _ _ ['/'] _ (by decide)]
    have e : replaceFrom ['Y', 'Y', 'Y', 'Y'] (E.year d) ['Y', 'Y', 'Y', 'Y'] 0 = E.year d := by
      have := replaceFrom_hit 'Y' ['Y', 'Y', 'Y'] (E.year d) []
      rwa [List.append_nil, replaceFrom_nil, List.append_nil] at this
    rw [e, replaceFrom_pass 'N' _ _ _ _ (by decide), replaceFrom_hit, replaceFrom_end 'N' _ _ _ (by
      simp only [List.mem_append, not_or]
      exact ⟨by decide, not_mem_of_digits (fun c hc => Or.inl (hE.year d c hc)) (by decide) (by decide)⟩)]
    simp

theorem dropGz_eq (E : Env) (hE : Dates E) (rl : Nat) (hr : rl ≤ 99) (d : Int) :
    replace (dayName E.ymd rl d ++ ".gz".toList) ".gz".toList [] = dayName E.ymd rl d := by
  unfold replace
  rw [t_gz, dayName_eq]
  have hdg := rlDigits rl hr
  generalize [Char.ofNat (48 + rl / 10), Char.ofNat (48 + rl % 10)] = dg at *
  rw [List.append_assoc, replaceFrom_pass '.' ['g', 'z'] _ _ _ (by
    simp only [List.mem_append, not_or]
    refine ⟨⟨⟨by decide, not_mem_of_digits (hE.chars d) (by decide) (by decide)⟩, by decide⟩,
      not_mem_of_digits (fun c hc => Or.inl (hdg c hc)) (by decide) (by decide)⟩)]
  simp [replaceFrom, List.isPrefixOf]

theorem join_eq (dir name : Text) (hd : dir ≠ []) : join dir name = inDir dir name := by
  unfold join inDir
  rw [if_neg hd]

theorem inDir_inj (dir a b : Text) (h : inDir dir a = inDir dir b) : a = b := by
  unfold inDir at h
  split at h
  · exact List.append_cancel_left h
  · have := List.append_cancel_left h
    injection this

theorem dayName_len (E : Env) (hE : Dates E) (rl : Nat) (d : Int) : (dayName E.ymd rl d).length = 25 := by
  rw [dayName_eq]
  simp [hE.length d]

theorem dayName_inj (E : Env) (hE : Dates E) (rl : Nat) (d d' : Int) (hd : E.date d) (hd' : E.date d') (h : dayName E.ymd rl d = dayName E.ymd rl d') : d = d' := by
  rw [dayName_eq, dayName_eq] at h
  simp only [List.append_assoc] at h
  have h1 := List.append_cancel_left h
  exact hE.different d d' hd hd' (List.append_inj h1 (by rw [hE.length, hE.length])).1

section paths
variable (E : Env) (hE : Dates E) (out : Text) (rl : Nat)
include hE

theorem plain_ne (d d' : Int) (hd : E.date d) (hd' : E.date d') (h : d ≠ d') : plain E out rl d ≠ plain E out rl d' := by
  intro e; exact h (dayName_inj E hE rl d d' hd hd' (inDir_inj _ _ _ e))

theorem packed_ne (d d' : Int) (hd : E.date d) (hd' : E.date d') (h : d ≠ d') : packed E out rl d ≠ packed E out rl d' := by
  intro e
  have := inDir_inj _ _ _ e
  exact h (dayName_inj E hE rl d d' hd hd' (List.append_cancel_right this))

theorem plain_packed (d d' : Int) : plain E out rl d ≠ packed E out rl d' := by
  intro e
  have := congrArg List.length (inDir_inj _ _ _ e)
  simp [dayName_len E hE] at this

end paths

theorem packed_eq (E : Env) (out : Text) (rl : Nat) (d : Int) : packed E out rl d = plain E out rl d ++ ['.', 'g', 'z'] := by
  unfold packed plain inDir
  rw [t_gz]
  generalize dayName E.ymd rl d = x
  split <;> simp

theorem packed_suffix (E : Env) (out : Text) (rl : Nat) (d : Int) : ".gz".toList.isSuffixOf (packed E out rl d) = true ∧
    (packed E out rl d).take ((packed E out rl d).length - 3) = plain E out rl d := by
  rw [packed_eq, t_gz]
  generalize plain E out rl d = x
  constructor
  · exact List.isSuffixOf_iff_suffix.mpr (List.suffix_append _ _)
  · rw [List.length_append]; simp

theorem plain_suffix (E : Env) (out : Text) (rl : Nat) (d : Int) : ".gz".toList.isSuffixOf (plain E out rl d) = false := by
  rw [Bool.eq_false_iff, t_gz]
  intro h
  obtain ⟨x, hx⟩ := List.isSuffixOf_iff_suffix.mp h
  have h2 : ∃ y, plain E out rl d = y ++ ['c'] := by
    unfold plain inDir
    rw [dayName_eq]
    generalize ['A', 'O', 'D', '1', 'B', '_'] ++ E.ymd d ++ ['_', 'X', '_'] ++ [Char.ofNat (48 + rl / 10), Char.ofNat (48 + rl % 10)] = z
    split
    · exact ⟨out ++ (z ++ ['.', 'a', 's']), by simp⟩
    · exact ⟨out ++ '/' :: (z ++ ['.', 'a', 's']), by simp⟩
  obtain ⟨y, hy⟩ := h2
  rw [hy] at hx
  have := congrArg List.getLast? hx
  simp at this

/-! ### Runs -/

/-- From one state to another, all files in between being as `I` says. -/
def Run (S : Server) (I : Disk → Prop) (s s' : Prog × Disk) : Prop :=
  ∃ n, after S n s = s' ∧ ∀ j, j ≤ n → I (after S j s).2

theorem Run.refl {S : Server} {I : Disk → Prop} {s : Prog × Disk} (h : I s.2) : Run S I s s :=
  ⟨0, rfl, fun j hj => by rw [Nat.le_zero.mp hj]; exact h⟩

theorem Run.trans {S : Server} {I : Disk → Prop} {a b c : Prog × Disk} (h1 : Run S I a b) (h2 : Run S I b c) : Run S I a c := by
  obtain ⟨n, e1, i1⟩ := h1
  obtain ⟨m, e2, i2⟩ := h2
  refine ⟨m + n, ?_, fun j hj => ?_⟩
  · unfold after at *; rw [Function.iterate_add_apply, e1, e2]
  · rcases Nat.lt_or_ge j n with h | h
    · exact i1 j (by omega)
    · obtain ⟨i, rfl⟩ := Nat.exists_eq_add_of_le h
      have : after S (n + i) a = after S i b := by unfold after at *; rw [Nat.add_comm, Function.iterate_add_apply, e1]
      rw [this]
      exact i2 i (by omega)

theorem Run.head {S : Server} {I : Disk → Prop} {a c : Prog × Disk} (h : I a.2) (h2 : Run S I (step S a) c) : Run S I a c := by
  obtain ⟨n, e, i⟩ := h2
  refine ⟨n + 1, by unfold after at *; rw [Function.iterate_succ_apply, e], fun j hj => ?_⟩
  cases j with
  | zero => exact h
  | succ j => unfold after; rw [Function.iterate_succ_apply]; exact i j (by omega)

theorem Run.mono {S : Server} {I J : Disk → Prop} {a b : Prog × Disk} (h : Run S I a b) (hij : ∀ D, I D → J D) : Run S J a b := by
  obtain ⟨n, e, i⟩ := h
  exact ⟨n, e, fun j hj => hij _ (i j hj)⟩

/-- Writing a text behind what a file holds. -/
theorem writeAll_after (S : Server) (p : Text) (k : Prog) (data pre : Text) (D : Disk) (hD : D p = some pre) (j : Nat) (hj : j ≤ data.length) :
    after S j (writeAll p data k, D) = (writeAll p (data.drop j) k, fun q => if q = p then some (pre ++ data.take j) else D q) := by
  induction j generalizing data pre D with
  | zero =>
    simp only [after, Function.iterate_zero, id, List.drop_zero, List.take_zero, List.append_nil]
    congr 1
    funext q
    split
    · rename_i h; rw [h, hD]
    · rfl
  | succ j ih =>
    cases data with
    | nil => simp at hj
    | cons c data =>
      have h := ih data (pre ++ [c]) (fun q => if q = p then some (pre ++ [c]) else D q) (if_pos rfl) (by simpa using hj)
      unfold after at h ⊢
      rw [Function.iterate_succ_apply]
      have e : step S (writeAll p (c :: data) k, D) = (writeAll p data k, fun q => if q = p then some (pre ++ [c]) else D q) := by
        simp [writeAll, step, hD]
      rw [e, h]
      congr 1
      funext q
      split
      · simp
      · rfl

theorem writeAll_run (S : Server) (I : Disk → Prop) (p : Text) (k : Prog) (data : Text) (D : Disk) (hD : D p = some [])
    (hI : ∀ j, j ≤ data.length → I (fun q => if q = p then some (data.take j) else D q)) :
    Run S I (writeAll p data k, D) (k, fun q => if q = p then some data else D q) := by
  refine ⟨data.length, ?_, fun j hj => ?_⟩
  · rw [writeAll_after S p k data [] D hD data.length le_rfl]
    simp [writeAll]
  · rw [writeAll_after S p k data [] D hD j hj]
    simpa using hI j hj

/-! ### One day -/

/-- Files other than those of the day. -/
def Same (E : Env) (A : Args) (rl : Nat) (t : Int) (D D' : Disk) : Prop :=
  ∀ q, q ≠ packed E A.out rl t → q ≠ plain E A.out rl t → D' q = D q

theorem Same.refl {E : Env} {A : Args} {rl : Nat} (t : Int) (D : Disk) : Same E A rl t D D := fun _ _ _ => rfl

section
variable {S : Server} {E : Env} (hE : Dates E) {A : Args} {rl : Nat} (hA : Plain E A rl)
include hE hA

theorem day_eq (t : Int) (k : Prog) : day E A t k =
    .isfile (packed E A.out rl t) fun a =>
    if a then .isfile (packed E A.out rl t) fun b => finish E A.dcmp (if b then packed E A.out rl t else plain E A.out rl t) k
    else .isfile (plain E A.out rl t) fun c =>
      if c then .isfile (packed E A.out rl t) fun b => finish E A.dcmp (if b then packed E A.out rl t else plain E A.out rl t) k
      else ftpget (remote E rl t) (dayName E.ymd rl t ++ ".gz".toList) (packed E A.out rl t) (finish E A.dcmp (packed E A.out rl t) k) := by
  unfold day
  rw [hA.tidal]
  simp only [Bool.false_eq_true, if_false]
  rw [hA.release, productName_eq E hE rl hA.small t]
  simp only
  rw [dropGz_eq E hE rl hA.small t, join_eq _ _ hA.out, join_eq _ _ hA.out]
  rfl

/-- The end of a day whose compressed file is there. -/
theorem finish_packed (t : Int) (k : Prog) (D : Disk) (x : Text) (hx : D (packed E A.out rl t) = some x) (hok : A.dcmp = true → (E.gunzip x).2 = true) :
    ∃ D', Run S (fun X => Same E A rl t D X ∧ X (packed E A.out rl t) = some x) (finish E A.dcmp (packed E A.out rl t) k, D) (k, D') ∧
      Same E A rl t D D' ∧ D' (packed E A.out rl t) = some x ∧ (A.dcmp = true → D' (plain E A.out rl t) = some (E.gunzip x).1) ∧
      (A.dcmp = false → D' = D) := by
  have hne := (plain_packed E hE A.out rl t t).symm
  have hI : Same E A rl t D D ∧ D (packed E A.out rl t) = some x := ⟨Same.refl t D, hx⟩
  obtain ⟨hs1, hs2⟩ := packed_suffix E A.out rl t
  cases hd : A.dcmp with
  | false =>
    refine ⟨D, ?_, Same.refl t D, hx, by simp, fun _ => rfl⟩
    refine Run.head hI ?_
    simp only [finish, step, hx, Option.isSome_some, if_true, decompress, Bool.and_false, Bool.false_eq_true, if_false]
    exact Run.refl hI
  | true =>
    have hg : (E.gunzip x).2 = true := hok hd
    refine ⟨fun q => if q = plain E A.out rl t then some (E.gunzip x).1 else D q, ?_, ?_, ?_, ?_, by simp⟩
    · refine Run.head hI ?_
      simp only [finish, step, hx, Option.isSome_some, if_true, decompress, hs1, hs2, Bool.and_self]
      refine Run.head hI ?_
      simp only [step, hx, hg, if_true]
      refine Run.head hI ?_
      simp only [step]
      have hw := writeAll_run S (fun X => Same E A rl t D X ∧ X (packed E A.out rl t) = some x) (plain E A.out rl t) k (E.gunzip x).1
        (fun q => if q = plain E A.out rl t then some [] else D q) (if_pos rfl) (fun j _ => ⟨fun q _ h2 => by simp only [if_neg h2], by
          simp only [if_neg hne, hx]⟩)
      have e : (fun q => if q = plain E A.out rl t then some (E.gunzip x).1 else (fun q => if q = plain E A.out rl t then some [] else D q) q) =
          (fun q => if q = plain E A.out rl t then some (E.gunzip x).1 else D q) := by
        funext q; simp only; split <;> rfl
      rw [e] at hw
      exact hw
    · intro q _ h2; simp only [if_neg h2]
    · simp only [if_neg hne, hx]
    · intro _; simp

/-- A day whose compressed file is there. -/
theorem day_packed (t : Int) (k : Prog) (D : Disk) (x : Text) (hx : D (packed E A.out rl t) = some x) (hok : A.dcmp = true → (E.gunzip x).2 = true) :
    ∃ D', Run S (fun X => Same E A rl t D X ∧ X (packed E A.out rl t) = some x) (day E A t k, D) (k, D') ∧
      Same E A rl t D D' ∧ D' (packed E A.out rl t) = some x ∧ (A.dcmp = true → D' (plain E A.out rl t) = some (E.gunzip x).1) ∧
      (A.dcmp = false → D' = D) := by
  obtain ⟨D', h1, h2⟩ := finish_packed (S := S) hE hA t k D x hx hok
  have hI : Same E A rl t D D ∧ D (packed E A.out rl t) = some x := ⟨Same.refl t D, hx⟩
  refine ⟨D', ?_, h2⟩
  rw [day_eq hE hA]
  refine Run.head hI ?_
  simp only [step, hx, Option.isSome_some, if_true]
  refine Run.head hI ?_
  simp only [step, hx, Option.isSome_some, if_true]
  exact h1

/-- A day of which only the plain file is there. -/
theorem day_plain (t : Int) (k : Prog) (D : Disk) (x : Text) (hg : D (packed E A.out rl t) = none) (hx : D (plain E A.out rl t) = some x) :
    Run S (fun X => X = D) (day E A t k, D) (k, D) := by
  rw [day_eq hE hA]
  refine Run.head rfl ?_
  simp only [step, hg, Option.isSome_none, Bool.false_eq_true, if_false]
  refine Run.head rfl ?_
  simp only [step, hx, Option.isSome_some, if_true]
  refine Run.head rfl ?_
  simp only [step, hg, Option.isSome_none, Bool.false_eq_true, if_false, finish]
  refine Run.head rfl ?_
  simp only [step, hx, Option.isSome_some, if_true, decompress, plain_suffix, Bool.false_and, Bool.false_eq_true, if_false]
  exact Run.refl rfl

/-- A day without files, up to its download. -/
theorem day_fetch (t : Int) (k : Prog) (D : Disk) (data : Text) (hg : D (packed E A.out rl t) = none) (ha : D (plain E A.out rl t) = none)
    (ho : Offers S E rl t data) (j : Nat) (hj : j ≤ data.length) :
    after S (j + 5) (day E A t k, D) = (writeAll (packed E A.out rl t) (data.drop j) (finish E A.dcmp (packed E A.out rl t) k),
      fun q => if q = packed E A.out rl t then some (data.take j) else D q) ∧
    ∀ i, i < 5 → (after S i (day E A t k, D)).2 = D ∨
      (after S i (day E A t k, D)).2 = fun q => if q = packed E A.out rl t then some [] else D q := by
  obtain ⟨files, hf1, hf2⟩ := ho
  have e1 : after S 1 (day E A t k, D) = (.isfile (plain E A.out rl t) fun c =>
      if c then .isfile (packed E A.out rl t) fun b => finish E A.dcmp (if b then packed E A.out rl t else plain E A.out rl t) k
      else ftpget (remote E rl t) (dayName E.ymd rl t ++ ".gz".toList) (packed E A.out rl t) (finish E A.dcmp (packed E A.out rl t) k), D) := by
    rw [day_eq hE hA]
    simp only [after, Function.iterate_one, step, hg, Option.isSome_none, Bool.false_eq_true, if_false]
  have e2 : after S 2 (day E A t k, D) =
      (ftpget (remote E rl t) (dayName E.ymd rl t ++ ".gz".toList) (packed E A.out rl t) (finish E A.dcmp (packed E A.out rl t) k), D) := by
    have : after S 2 (day E A t k, D) = step S (after S 1 (day E A t k, D)) := Function.iterate_succ_apply' ..
    rw [this, e1]
    simp only [step, ha, Option.isSome_none, Bool.false_eq_true, if_false]
  have e3 : after S 3 (day E A t k, D) = (.create (packed E A.out rl t) (.retr (some data) fun
    | none => .raise
    | some data => writeAll (packed E A.out rl t) data (finish E A.dcmp (packed E A.out rl t) k)), D) := by
    have : after S 3 (day E A t k, D) = step S (after S 2 (day E A t k, D)) := Function.iterate_succ_apply' ..
    rw [this, e2]
    simp only [ftpget, step, hf1, hf2]
    rfl
  have e4 : after S 4 (day E A t k, D) = (.retr (some data) fun
    | none => .raise
    | some data => writeAll (packed E A.out rl t) data (finish E A.dcmp (packed E A.out rl t) k),
      fun q => if q = packed E A.out rl t then some [] else D q) := by
    have : after S 4 (day E A t k, D) = step S (after S 3 (day E A t k, D)) := Function.iterate_succ_apply' ..
    rw [this, e3]
    rfl
  have e5 : after S 5 (day E A t k, D) = (writeAll (packed E A.out rl t) data (finish E A.dcmp (packed E A.out rl t) k),
      fun q => if q = packed E A.out rl t then some [] else D q) := by
    have : after S 5 (day E A t k, D) = step S (after S 4 (day E A t k, D)) := Function.iterate_succ_apply' ..
    rw [this, e4]
    rfl
  constructor
  · have : after S (j + 5) (day E A t k, D) = after S j (after S 5 (day E A t k, D)) := Function.iterate_add_apply ..
    rw [this, e5, writeAll_after S _ _ data [] _ (if_pos rfl) j hj]
    congr 1
    funext q
    simp only [List.nil_append]
    split <;> rfl
  · intro i hi
    match i, hi with
    | 0, _ => left; rfl
    | 1, _ => left; rw [e1]
    | 2, _ => left; rw [e2]
    | 3, _ => left; rw [e3]
    | 4, _ => right; rw [e4]

/-- A day without files. -/
theorem day_empty (t : Int) (k : Prog) (D : Disk) (data : Text) (hg : D (packed E A.out rl t) = none) (ha : D (plain E A.out rl t) = none)
    (ho : Offers S E rl t data) (hok : A.dcmp = true → (E.gunzip data).2 = true) :
    ∃ D', Run S (fun X => Same E A rl t D X ∧ (X = D ∨ Truncated data (X (packed E A.out rl t)) ∨ X (packed E A.out rl t) = some data)) (day E A t k, D) (k, D') ∧
      Same E A rl t D D' ∧ D' (packed E A.out rl t) = some data ∧ (A.dcmp = true → D' (plain E A.out rl t) = some (E.gunzip data).1) := by
  obtain ⟨D', h1, h2, h3, h4, _⟩ := finish_packed (S := S) hE hA t k (fun q => if q = packed E A.out rl t then some data else D q) data (if_pos rfl) hok
  have hsame : ∀ X, Same E A rl t (fun q => if q = packed E A.out rl t then some data else D q) X → Same E A rl t D X := by
    intro X h q q1 q2
    rw [h q q1 q2]
    simp only [if_neg q1]
  refine ⟨D', ?_, hsame _ h2, h3, h4⟩
  refine Run.trans (b := (finish E A.dcmp (packed E A.out rl t) k, fun q => if q = packed E A.out rl t then some data else D q)) ?_
    (h1.mono fun X hX => ⟨hsame X hX.1, Or.inr (Or.inr hX.2)⟩)
  have key := fun j hj => (day_fetch (S := S) hE hA t k D data hg ha ho j hj).1
  have low := (day_fetch (S := S) hE hA t k D data hg ha ho 0 (by omega)).2
  have pre : ∀ j, j ≤ data.length → Same E A rl t D (fun q => if q = packed E A.out rl t then some (data.take j) else D q) ∧
      ((fun q => if q = packed E A.out rl t then some (data.take j) else D q) = D ∨
        Truncated data ((fun q => if q = packed E A.out rl t then some (data.take j) else D q) (packed E A.out rl t)) ∨
        (fun q => if q = packed E A.out rl t then some (data.take j) else D q) (packed E A.out rl t) = some data) := by
    intro j hj
    refine ⟨fun q q1 _ => by simp only [if_neg q1], Or.inr ?_⟩
    simp only [if_true]
    rcases Nat.lt_or_ge j data.length with h | h
    · exact Or.inl ⟨j, h, rfl⟩
    · right; rw [List.take_of_length_le h]
  refine ⟨data.length + 5, ?_, ?_⟩
  · rw [key data.length le_rfl]
    simp [writeAll]
  · intro i hi
    rcases Nat.lt_or_ge i 5 with h | h
    · rcases low i h with h | h
      · rw [h]; exact ⟨Same.refl t D, Or.inl rfl⟩
      · rw [h]; simpa using pre 0 (by omega)
    · obtain ⟨j, rfl⟩ := Nat.exists_eq_add_of_le' h
      rw [key j (by omega)]
      exact pre j (by omega)

end

/-- Days one after the other: what holds of each day on its own holds of the run. -/
theorem loop_run {S : Server} {E : Env} (hE : Dates E) {A : Args} {rl : Nat} (Good Mid : Int → Option Text → Option Text → Prop)
    (After : Int → Option Text → Option Text → Option Text → Option Text → Prop) (t0 t1 : Int) (hdate : ∀ d, t0 ≤ d → d < t1 → E.date d)
    (hgm : ∀ d g a, Good d g a → Mid d g a) (ham : ∀ d g a g' a', After d g a g' a' → Mid d g' a')
    (hday : ∀ t k D, t0 ≤ t → t < t1 → Good t (D (packed E A.out rl t)) (D (plain E A.out rl t)) →
      ∃ D', Run S (fun X => Same E A rl t D X ∧ Mid t (X (packed E A.out rl t)) (X (plain E A.out rl t))) (day E A t k, D) (k, D') ∧
        Same E A rl t D D' ∧ After t (D (packed E A.out rl t)) (D (plain E A.out rl t)) (D' (packed E A.out rl t)) (D' (plain E A.out rl t))) :
    ∀ (n r : Nat) (t : Int) (D : Disk), t0 ≤ t → t + n ≤ t1 →
      (∀ d, t ≤ d → d < t + n → Good d (D (packed E A.out rl d)) (D (plain E A.out rl d))) →
      ∃ D', Run S (fun X => (∀ q, (∀ d, t ≤ d → d < t + n → q ≠ packed E A.out rl d ∧ q ≠ plain E A.out rl d) → X q = D q) ∧
          ∀ d, t ≤ d → d < t + n → Mid d (X (packed E A.out rl d)) (X (plain E A.out rl d)))
          (loop E A t (n + r), D) (loop E A (t + n) r, D') ∧
        (∀ q, (∀ d, t ≤ d → d < t + n → q ≠ packed E A.out rl d ∧ q ≠ plain E A.out rl d) → D' q = D q) ∧
        ∀ d, t ≤ d → d < t + n → After d (D (packed E A.out rl d)) (D (plain E A.out rl d)) (D' (packed E A.out rl d)) (D' (plain E A.out rl d)) := by
  intro n
  induction n with
  | zero =>
    intro r t D _ _ _
    refine ⟨D, ?_, fun _ _ => rfl, fun d h1 h2 => by simp at h2; omega⟩
    rw [Nat.zero_add, show t + ((0 : Nat) : Int) = t by simp]
    exact Run.refl ⟨fun _ _ => rfl, fun d h1 h2 => by omega⟩
  | succ n ih =>
    intro r t D h0 h1 hg
    obtain ⟨D1, r1, s1, a1⟩ := hday t (loop E A (t + 1) (n + r)) D h0 (by omega) (hg t le_rfl (by omega))
    have ht : E.date t := hdate t h0 (by omega)
    -- the other days are not touched
    have oth : ∀ X, Same E A rl t D X → ∀ d, E.date d → d ≠ t → X (packed E A.out rl d) = D (packed E A.out rl d) ∧ X (plain E A.out rl d) = D (plain E A.out rl d) := by
      intro X hX d hdd hd
      exact ⟨hX _ (packed_ne E hE A.out rl d t hdd ht hd) (plain_packed E hE A.out rl t d).symm,
        hX _ (plain_packed E hE A.out rl d t) (plain_ne E hE A.out rl d t hdd ht hd)⟩
    obtain ⟨D', r2, s2, a2⟩ := ih r (t + 1) D1 (by omega) (by omega) (fun d hd1 hd2 => by
      have hdd := hdate d (by omega) (by omega)
      rw [(oth D1 s1 d hdd (by omega)).1, (oth D1 s1 d hdd (by omega)).2]; exact hg d (by omega) (by omega))
    have mine : ∀ X : Disk, (∀ q, (∀ d, t + 1 ≤ d → d < t + 1 + n → q ≠ packed E A.out rl d ∧ q ≠ plain E A.out rl d) → X q = D1 q) →
        X (packed E A.out rl t) = D1 (packed E A.out rl t) ∧ X (plain E A.out rl t) = D1 (plain E A.out rl t) := by
      intro X hX
      exact ⟨hX _ fun d hd1 hd2 => ⟨packed_ne E hE A.out rl t d ht (hdate d (by omega) (by omega)) (by omega), (plain_packed E hE A.out rl d t).symm⟩,
        hX _ fun d hd1 hd2 => ⟨plain_packed E hE A.out rl t d, plain_ne E hE A.out rl t d ht (hdate d (by omega) (by omega)) (by omega)⟩⟩
    have out : ∀ X : Disk, (∀ q, (∀ d, t + 1 ≤ d → d < t + 1 + n → q ≠ packed E A.out rl d ∧ q ≠ plain E A.out rl d) → X q = D1 q) →
        ∀ q, (∀ d, t ≤ d → d < t + (n + 1 : Nat) → q ≠ packed E A.out rl d ∧ q ≠ plain E A.out rl d) → X q = D q := by
      intro X hX q hq
      rw [hX q fun d hd1 hd2 => hq d (by omega) (by push_cast; omega)]
      exact s1 q (hq t le_rfl (by omega)).1 (hq t le_rfl (by omega)).2
    refine ⟨D', ?_, out D' s2, ?_⟩
    · have e1 : loop E A t (n + 1 + r) = day E A t (loop E A (t + 1) (n + r)) := by rw [Nat.add_right_comm]; rfl
      have e2 : t + ((n + 1 : Nat) : Int) = t + 1 + n := by push_cast; ring
      rw [e1]
      refine Run.trans (r1.mono fun X hX => ⟨?_, ?_⟩) ?_
      · intro q hq
        exact hX.1 q (hq t le_rfl (by omega)).1 (hq t le_rfl (by omega)).2
      · intro d hd1 hd2
        by_cases hd : d = t
        · subst hd; exact hX.2
        · have hdd := hdate d (by omega) (by omega)
          rw [(oth X hX.1 d hdd hd).1, (oth X hX.1 d hdd hd).2]
          exact hgm d _ _ (hg d hd1 hd2)
      · rw [e2]
        refine r2.mono fun X hX => ⟨?_, ?_⟩
        · rw [← e2]; exact out X hX.1
        · intro d hd1 hd2
          by_cases hd : d = t
          · subst hd
            rw [(mine X hX.1).1, (mine X hX.1).2]
            exact ham d _ _ _ _ a1
          · exact hX.2 d (by omega) (by omega)
    · intro d hd1 hd2
      by_cases hd : d = t
      · subst hd
        rw [(mine D' s2).1, (mine D' s2).2]
        exact a1
      · have := a2 d (by omega) (by push_cast at hd2; omega)
        have hdd := hdate d (by omega) (by omega)
        rw [(oth D1 s1 d hdd hd).1, (oth D1 s1 d hdd hd).2] at this
        exact this

section
variable {S : Server} {E : Env} (hE : Dates E) {A : Args} {rl : Nat} (hA : Plain E A rl) (data : Int → Text) (D : Disk)
include hE hA

/-- A day with fine files. -/
theorem day_fine (t : Int) (k : Prog) (D : Disk) (ho : Offers S E rl t (data t)) (hz : A.dcmp = true → (E.gunzip (data t)).2 = true)
    (hf : Fine E (data t) (D (packed E A.out rl t)) (D (plain E A.out rl t))) :
    ∃ D', Run S (fun X => Same E A rl t D X ∧ (Fine E (data t) (X (packed E A.out rl t)) (X (plain E A.out rl t)) ∨ Truncated (data t) (X (packed E A.out rl t))))
        (day E A t k, D) (k, D') ∧ Same E A rl t D D' ∧
      Held E A.dcmp (data t) (D' (packed E A.out rl t)) (D' (plain E A.out rl t)) ∧ Fine E (data t) (D' (packed E A.out rl t)) (D' (plain E A.out rl t)) := by
  rcases hf with ⟨h1, h2⟩ | h1 | ⟨h1, h2⟩
  · obtain ⟨D', r, s, g, a⟩ := day_empty (S := S) hE hA t k D (data t) h1 h2 ho hz
    refine ⟨D', r.mono fun X hX => ⟨hX.1, ?_⟩, s, ⟨Or.inl g, a⟩, Or.inr (Or.inl g)⟩
    rcases hX.2 with h | h | h
    · left; left; rw [h]; exact ⟨h1, h2⟩
    · right; exact h
    · left; right; left; exact h
  · obtain ⟨D', r, s, g, a, _⟩ := day_packed (S := S) hE hA t k D (data t) h1 hz
    exact ⟨D', r.mono fun X hX => ⟨hX.1, Or.inl (Or.inr (Or.inl hX.2))⟩, s, ⟨Or.inl g, a⟩, Or.inr (Or.inl g)⟩
  · have r := day_plain (S := S) hE hA t k D _ h1 h2
    refine ⟨D, r.mono fun X hX => ?_, Same.refl t D, ⟨Or.inr h2, fun _ => h2⟩, Or.inr (Or.inr ⟨h1, h2⟩)⟩
    rw [hX]
    exact ⟨Same.refl t D, Or.inl (Or.inr (Or.inr ⟨h1, h2⟩))⟩

/-- The whole run, with what is there at any moment of it. -/
theorem run_fine (ho : ∀ d, A.has d → Offers S E rl d (data d)) (hz : ∀ d, A.has d → A.dcmp = true → (E.gunzip (data d)).2 = true)
    (hf : ∀ d, A.has d → Fine E (data d) (D (packed E A.out rl d)) (D (plain E A.out rl d))) :
    ∃ D', Run S (fun X => (∀ q, (∀ d, A.has d → q ≠ packed E A.out rl d ∧ q ≠ plain E A.out rl d) → X q = D q) ∧
        ∀ d, A.has d → Fine E (data d) (X (packed E A.out rl d)) (X (plain E A.out rl d)) ∨ Truncated (data d) (X (packed E A.out rl d)))
        (main E A, D) (.exit 0, D') ∧
      (∀ q, (∀ d, A.has d → q ≠ packed E A.out rl d ∧ q ≠ plain E A.out rl d) → D' q = D q) ∧
      ∀ d, A.has d → Held E A.dcmp (data d) (D' (packed E A.out rl d)) (D' (plain E A.out rl d)) := by
  have hr : ∀ d, (A.tfrom ≤ d ∧ d < A.tfrom + ((A.tend.getD (A.tfrom + 1) - A.tfrom).toNat : Int)) ↔ A.has d := by
    intro d; unfold Args.has; omega
  have hlt : ∀ d, A.tfrom ≤ d → d < A.tfrom + ((A.tend.getD (A.tfrom + 1) - A.tfrom).toNat : Int) → A.has d := fun d h1 h2 => (hr d).mp ⟨h1, h2⟩
  obtain ⟨D', r, s, a⟩ := loop_run (S := S) hE (A := A) (rl := rl) (fun d g a => Fine E (data d) g a) (fun d g a => Fine E (data d) g a ∨ Truncated (data d) g)
    (fun d _ _ g' a' => Held E A.dcmp (data d) g' a' ∧ Fine E (data d) g' a') A.tfrom (A.tfrom + ((A.tend.getD (A.tfrom + 1) - A.tfrom).toNat : Int))
    (fun d h1 h2 => hA.dates d (hlt d h1 h2)) (fun _ _ _ h => Or.inl h) (fun _ _ _ _ _ h => Or.inl h.2)
    (fun t k D h1 h2 hg => day_fine hE hA data t k D (ho t (hlt t h1 h2)) (hz t (hlt t h1 h2)) hg)
    (A.tend.getD (A.tfrom + 1) - A.tfrom).toNat 0 A.tfrom D le_rfl le_rfl (fun d h1 h2 => hf d (hlt d h1 h2))
  refine ⟨D', ?_, fun q hq => s q fun d h1 h2 => hq d (hlt d h1 h2), fun d hd => (a d ((hr d).mpr hd).1 ((hr d).mpr hd).2).1⟩
  refine r.mono fun X hX => ⟨fun q hq => hX.1 q fun d h1 h2 => hq d (hlt d h1 h2), fun d hd => hX.2 d ((hr d).mpr hd).1 ((hr d).mpr hd).2⟩

end

/-! ### What a run comes to, whatever the server and the directory -/

/-- The end of the run: the status and the files, or nothing after an exception. -/
def fate (S : Server) : Prog → Disk → Option (Nat × Disk)
  | .exit c, D => some (c, D)
  | .raise, _ => none
  | .isfile p k, D => fate S (k (D p).isSome) D
  | .cwd dir k, D => fate S (k (S dir)) D
  | .create p k, D => fate S k (fun q => if q = p then some [] else D q)
  | .retr r k, D => fate S (k r) D
  | .append p c k, D => fate S k (fun q => if q = p then some ((D p).getD [] ++ [c]) else D q)
  | .read p k, D => fate S (k (D p)) D

theorem fate_step (S : Server) (s : Prog × Disk) : fate S (step S s).1 (step S s).2 = fate S s.1 s.2 := by
  obtain ⟨p, D⟩ := s
  cases p <;> rfl

theorem fate_after (S : Server) (n : Nat) (s : Prog × Disk) : fate S (after S n s).1 (after S n s).2 = fate S s.1 s.2 := by
  induction n generalizing s with
  | zero => rfl
  | succ n ih =>
    have : after S (n + 1) s = after S n (step S s) := Function.iterate_succ_apply ..
    rw [this, ih, fate_step]

theorem fate_of_ends {S : Server} {E : Env} {A : Args} {D D' : Disk} {c : Nat} (h : Ends S E A D c D') : fate S (main E A) D = some (c, D') := by
  obtain ⟨n, h⟩ := h
  have := fate_after S n (main E A, D)
  rw [h] at this
  exact this.symm

/-- No file is lost. -/
def Keeps (D D' : Disk) : Prop := ∀ q, (D q).isSome → (D' q).isSome

theorem Keeps.trans {D D' D'' : Disk} (h : Keeps D D') (h' : Keeps D' D'') : Keeps D D'' := fun q hq => h' q (h q hq)

theorem keeps_write (D : Disk) (p : Text) (x : Text) : Keeps D (fun q => if q = p then some x else D q) := by
  intro q hq
  beta_reduce
  split
  · rfl
  · exact hq

theorem fate_writeAll (S : Server) (p : Text) (k : Prog) (s : Text) (D : Disk) : ∃ D', fate S (writeAll p s k) D = fate S k D' ∧ Keeps D D' := by
  induction s generalizing D with
  | nil => exact ⟨D, rfl, fun _ h => h⟩
  | cons c s ih =>
    obtain ⟨D', h1, h2⟩ := ih (fun q => if q = p then some ((D p).getD [] ++ [c]) else D q)
    exact ⟨D', h1, (keeps_write D p _).trans h2⟩

theorem fate_decompress (S : Server) (E : Env) (dcmp : Bool) (p : Text) (k : Prog) (D : Disk) :
    fate S (decompress E dcmp p k) D = none ∨ ∃ D', fate S (decompress E dcmp p k) D = fate S k D' ∧ Keeps D D' := by
  unfold decompress
  split
  · simp only [fate]
    rcases D p with _ | x
    · exact Or.inl rfl
    · simp only [fate]
      obtain ⟨D', h1, h2⟩ := fate_writeAll S (p.take (p.length - 3)) (if (E.gunzip x).2 then k else .raise) (E.gunzip x).1
        (fun q => if q = p.take (p.length - 3) then some [] else D q)
      rw [h1]
      by_cases hb : (E.gunzip x).2 = true
      · rw [if_pos hb]; exact Or.inr ⟨D', rfl, (keeps_write D _ _).trans h2⟩
      · rw [if_neg hb]; exact Or.inl rfl
  · exact Or.inr ⟨D, rfl, fun _ h => h⟩

/-- The check does not fail for a file that is there. -/
theorem fate_finish (S : Server) (E : Env) (dcmp : Bool) (p : Text) (k : Prog) (D : Disk) (h : (D p).isSome) :
    fate S (finish E dcmp p k) D = none ∨ ∃ D', fate S (finish E dcmp p k) D = fate S k D' ∧ Keeps D D' := by
  unfold finish
  simp only [fate, h, if_true]
  exact fate_decompress S E dcmp p k D

theorem fate_ftpget (S : Server) (dir fn p : Text) (k : Prog) (D : Disk) :
    fate S (ftpget dir fn p k) D = none ∨ ∃ D', fate S (ftpget dir fn p k) D = fate S k D' ∧ Keeps D D' ∧ (D' p).isSome := by
  unfold ftpget
  simp only [fate]
  rcases S dir with _ | files
  · exact Or.inl rfl
  · simp only [fate]
    rcases files fn with _ | data
    · exact Or.inl rfl
    · obtain ⟨D', h1, h2⟩ := fate_writeAll S p k data (fun q => if q = p then some [] else D q)
      exact Or.inr ⟨D', h1, (keeps_write D _ _).trans h2, h2 p (by simp)⟩

theorem fate_day (S : Server) {E : Env} (hE : Dates E) {A : Args} {rl : Nat} (hA : Plain E A rl) (t : Int) (k : Prog) (D : Disk) :
    fate S (day E A t k) D = none ∨ ∃ D', fate S (day E A t k) D = fate S k D' ∧ Keeps D D' ∧
      ((D' (packed E A.out rl t)).isSome ∨ (D' (plain E A.out rl t)).isSome) := by
  rw [day_eq hE hA]
  simp only [fate]
  by_cases hg : (D (packed E A.out rl t)).isSome = true
  · simp only [hg, if_true, fate]
    rcases fate_finish S E A.dcmp (packed E A.out rl t) k D hg with h | ⟨D', h1, h2⟩
    · exact Or.inl h
    · exact Or.inr ⟨D', h1, h2, Or.inl (h2 _ hg)⟩
  · simp only [hg, Bool.false_eq_true, if_false, fate]
    by_cases ha : (D (plain E A.out rl t)).isSome = true
    · simp only [ha, if_true, fate, hg, Bool.false_eq_true, if_false]
      rcases fate_finish S E A.dcmp (plain E A.out rl t) k D ha with h | ⟨D', h1, h2⟩
      · exact Or.inl h
      · exact Or.inr ⟨D', h1, h2, Or.inr (h2 _ ha)⟩
    · simp only [ha, Bool.false_eq_true, if_false]
      rcases fate_ftpget S (remote E rl t) (dayName E.ymd rl t ++ ".gz".toList) (packed E A.out rl t) (finish E A.dcmp (packed E A.out rl t) k) D with h | ⟨D1, h1, h2, h3⟩
      · exact Or.inl h
      · rw [h1]
        rcases fate_finish S E A.dcmp (packed E A.out rl t) k D1 h3 with h | ⟨D', g1, g2⟩
        · exact Or.inl h
        · exact Or.inr ⟨D', g1, h2.trans g2, Or.inl (g2 _ h3)⟩

theorem fate_loop (S : Server) {E : Env} (hE : Dates E) {A : Args} {rl : Nat} (hA : Plain E A rl) (n : Nat) : ∀ (t : Int) (D : Disk),
    fate S (loop E A t n) D = none ∨ ∃ D', fate S (loop E A t n) D = some (0, D') ∧ Keeps D D' ∧
      ∀ d, t ≤ d → d < t + n → (D' (packed E A.out rl d)).isSome ∨ (D' (plain E A.out rl d)).isSome := by
  induction n with
  | zero => intro t D; exact Or.inr ⟨D, rfl, fun _ h => h, fun d h1 h2 => by simp at h2; omega⟩
  | succ n ih =>
    intro t D
    unfold loop
    rcases fate_day S hE hA t (loop E A (t + 1) n) D with h | ⟨D1, h1, h2, h3⟩
    · exact Or.inl h
    · rw [h1]
      rcases ih (t + 1) D1 with h | ⟨D', g1, g2, g3⟩
      · exact Or.inl h
      · refine Or.inr ⟨D', g1, h2.trans g2, fun d k1 k2 => ?_⟩
        by_cases e : d = t
        · subst e
          exact h3.imp (g2 _) (g2 _)
        · exact g3 d (by omega) (by push_cast at k2; omega)

end Verif.GetAod1b
