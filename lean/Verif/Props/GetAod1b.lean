import Verif.Proof.GetAod1b
/-
C104: the tool that downloads daily AOD1B files (bin/getAod1b.py): runs, stopped runs and repeated runs.
-/
namespace Verif.GetAod1b
open Verif Verif.Aod1b

section
variable {S : Server} {E : Env} (hE : Dates E) {A : Args} {rl : Nat} (hA : Plain E A rl) (data : Int → Text) (D : Disk)
include hE hA

/-- C104: a run that is not stopped, in a directory whose files of these days are complete, ends with status 0; every day's product is then there,
complete, under its official name; plain if decompression was asked for; no other file has changed. -/
theorem fetch_partial (ho : ∀ d, A.has d → Offers S E rl d (data d)) (hz : ∀ d, A.has d → A.dcmp = true → (E.gunzip (data d)).2 = true)
    (hf : ∀ d, A.has d → Fine E (data d) (D (packed E A.out rl d)) (D (plain E A.out rl d))) :
    ∃ D', Ends S E A D 0 D' ∧ (∀ d, A.has d → Held E A.dcmp (data d) (D' (packed E A.out rl d)) (D' (plain E A.out rl d))) ∧
      ∀ q, (∀ d, A.has d → q ≠ packed E A.out rl d ∧ q ≠ plain E A.out rl d) → D' q = D q := by
  obtain ⟨D', ⟨n, e, _⟩, s, h⟩ := run_fine (S := S) hE hA data D ho hz hf
  exact ⟨D', ⟨n, e⟩, h, s⟩

/-- C104: a run stopped at any moment leaves for every day no file, a complete one, or (what is not wanted) the beginning of a compressed one. -/
theorem stopped_states (ho : ∀ d, A.has d → Offers S E rl d (data d)) (hz : ∀ d, A.has d → A.dcmp = true → (E.gunzip (data d)).2 = true)
    (hf : ∀ d, A.has d → Fine E (data d) (D (packed E A.out rl d)) (D (plain E A.out rl d))) (n : Nat) :
    (∀ d, A.has d → Fine E (data d) (stopped S E A n D (packed E A.out rl d)) (stopped S E A n D (plain E A.out rl d)) ∨
      Truncated (data d) (stopped S E A n D (packed E A.out rl d))) ∧
    ∀ q, (∀ d, A.has d → q ≠ packed E A.out rl d ∧ q ≠ plain E A.out rl d) → stopped S E A n D q = D q := by
  obtain ⟨D', ⟨m, e, hI⟩, s, h⟩ := run_fine (S := S) hE hA data D ho hz hf
  have key : ∃ j, j ≤ m ∧ stopped S E A n D = (after S j (main E A, D)).2 := by
    rcases Nat.le_total n m with h | h
    · exact ⟨n, h, rfl⟩
    · refine ⟨m, le_rfl, ?_⟩
      obtain ⟨i, rfl⟩ := Nat.exists_eq_add_of_le h
      have : after S (m + i) (main E A, D) = after S m (main E A, D) := by
        have e1 : after S (m + i) (main E A, D) = after S i (after S m (main E A, D)) := by
          unfold after; rw [Nat.add_comm, Function.iterate_add_apply]
        rw [e1, e]
        clear e1 h
        induction i with
        | zero => rfl
        | succ i ih => unfold after at *; rw [Function.iterate_succ_apply]; exact ih
      unfold stopped; rw [this]
  obtain ⟨j, hj, ej⟩ := key
  rw [ej]
  exact ⟨(hI j hj).2, (hI j hj).1⟩

end

/-- C104, any number of stopped runs (other days, with or without decompression): if none was stopped within a download, the next run that is not
stopped is as good as on the first day. -/
theorem repeated_partial {S : Server} {E : Env} (hE : Dates E) {rl : Nat} (out : Text) (data : Int → Text) (ho : ∀ d, E.date d → Offers S E rl d (data d))
    (hz : ∀ d, E.date d → (E.gunzip (data d)).2 = true) (runs : List (Args × Nat)) (hruns : ∀ p ∈ runs, Plain E p.1 rl ∧ p.1.out = out) (D : Disk)
    (hf : ∀ d, E.date d → Fine E (data d) (D (packed E out rl d)) (D (plain E out rl d)))
    (hw : ∀ i, i ≤ runs.length → ∀ d, E.date d → ¬ Truncated (data d) (replay S E (runs.take i) D (packed E out rl d)))
    {A : Args} (hA : Plain E A rl) (hout : A.out = out) :
    ∃ D', Ends S E A (replay S E runs D) 0 D' ∧ ∀ d, A.has d → Held E A.dcmp (data d) (D' (packed E out rl d)) (D' (plain E out rl d)) := by
  induction runs generalizing D with
  | nil =>
    subst hout
    obtain ⟨D', h1, h2, _⟩ := fetch_partial (S := S) hE hA data D (fun d h => ho d (hA.dates d h)) (fun d h _ => hz d (hA.dates d h)) (fun d h => hf d (hA.dates d h))
    exact ⟨D', h1, h2⟩
  | cons p rs ih =>
    obtain ⟨A1, n⟩ := p
    obtain ⟨hp, hpo⟩ := hruns (A1, n) List.mem_cons_self
    simp only at hp hpo
    refine ih (fun p hp => hruns p (List.mem_cons_of_mem _ hp)) (stopped S E A1 n D) ?_ ?_
    · intro d hdd
      have h1 := stopped_states (S := S) hE hp data D (fun d h => ho d (hp.dates d h)) (fun d h _ => hz d (hp.dates d h))
        (fun d h => by rw [hpo]; exact hf d (hp.dates d h)) n
      rw [hpo] at h1
      by_cases hd : A1.has d
      · rcases h1.1 d hd with h | h
        · exact h
        · exact absurd h (by simpa [replay] using hw 1 (by simp) d hdd)
      · rw [h1.2 _ fun d' hd' => ⟨packed_ne E hE out rl d d' hdd (hp.dates d' hd') (fun e => hd (e ▸ hd')), (plain_packed E hE out rl d' d).symm⟩,
          h1.2 _ fun d' hd' => ⟨plain_packed E hE out rl d d', plain_ne E hE out rl d d' hdd (hp.dates d' hd') (fun e => hd (e ▸ hd'))⟩]
        exact hf d hdd
    · intro i hi d hdd
      have := hw (i + 1) (by simpa using hi) d hdd
      simpa [replay] using this

/-- C104, any server and any directory: a run that ends with a status ends with 0, and then every day has a file under its official name, compressed or
plain; no file is lost. -/
theorem status_zero {S : Server} {E : Env} (hE : Dates E) {A : Args} {rl : Nat} (hA : Plain E A rl) {D D' : Disk} {c : Nat} (h : Ends S E A D c D') :
    c = 0 ∧ (∀ d, A.has d → (D' (packed E A.out rl d)).isSome ∨ (D' (plain E A.out rl d)).isSome) ∧ ∀ q, (D q).isSome → (D' q).isSome := by
  have e := fate_of_ends h
  unfold main at e
  rcases fate_loop S hE hA (A.tend.getD (A.tfrom + 1) - A.tfrom).toNat A.tfrom D with h1 | ⟨D1, h1, h2, h3⟩
  · rw [h1] at e; cases e
  · rw [h1] at e
    injection e with e
    obtain ⟨rfl, rfl⟩ := Prod.mk.inj e
    exact ⟨rfl, fun d hd => h3 d hd.1 (by have := hd.2; omega), h2⟩

/-- C104: a directory that the server does not have raises an exception, and nothing is left behind. -/
theorem no_directory {S : Server} {E : Env} (hE : Dates E) {A : Args} {rl : Nat} (hA : Plain E A rl) (hd : A.has A.tfrom) (D : Disk)
    (hg : D (packed E A.out rl A.tfrom) = none) (ha : D (plain E A.out rl A.tfrom) = none) (hdir : S (remote E rl A.tfrom) = none) : Raises S E A D D := by
  obtain ⟨n, hn⟩ : ∃ n, (A.tend.getD (A.tfrom + 1) - A.tfrom).toNat = n + 1 :=
    ⟨(A.tend.getD (A.tfrom + 1) - A.tfrom).toNat - 1, by have := hd.2; omega⟩
  refine ⟨3, ?_⟩
  unfold main
  rw [hn, show loop E A A.tfrom (n + 1) = day E A A.tfrom (loop E A (A.tfrom + 1) n) from rfl, day_eq hE hA]
  simp only [after, Function.iterate_succ, Function.iterate_zero, Function.comp, id, step, hg, ha, Option.isSome_none, Bool.false_eq_true, if_false, ftpget, hdir]

/-- C104 fails: a run in a fresh directory can be stopped so that any day's file is any beginning of the product; the next run, which is not stopped,
reports success and leaves that file as it is. -/
theorem truncated_fails {S : Server} {E : Env} (hE : Dates E) {A : Args} {rl : Nat} (hA : Plain E A rl) (hn : A.dcmp = false) (data : Int → Text) (D : Disk)
    (ho : ∀ d, A.has d → Offers S E rl d (data d)) (hf : ∀ d, A.has d → D (packed E A.out rl d) = none ∧ D (plain E A.out rl d) = none)
    (d : Int) (hd : A.has d) (k : Nat) (hk : k < (data d).length) :
    ∃ n D', stopped S E A n D (packed E A.out rl d) = some ((data d).take k) ∧
      Ends S E A (stopped S E A n D) 0 D' ∧ D' (packed E A.out rl d) = some ((data d).take k) ∧ D' (packed E A.out rl d) ≠ some (data d) := by
  have hnz : ∀ x, A.dcmp = true → (E.gunzip x).2 = true := fun x h => by rw [hn] at h; cases h
  have hlen : A.tfrom ≤ d ∧ d < A.tend.getD (A.tfrom + 1) := hd
  obtain ⟨p, hp⟩ : ∃ p : Nat, d = A.tfrom + p := ⟨(d - A.tfrom).toNat, by omega⟩
  obtain ⟨r, hr⟩ : ∃ r : Nat, (A.tend.getD (A.tfrom + 1) - A.tfrom).toNat = p + (r + 1) := ⟨(A.tend.getD (A.tfrom + 1) - A.tfrom).toNat - p - 1, by omega⟩
  have hin : ∀ e : Int, A.tfrom ≤ e → e < A.tfrom + p → A.has e := fun e h1 h2 => ⟨h1, by omega⟩
  -- the days before
  obtain ⟨D1, ⟨m, e1, _⟩, s1, a1⟩ := loop_run (S := S) hE (A := A) (rl := rl) (fun d g a => Fine E (data d) g a) (fun _ _ _ => True)
    (fun d _ _ g' a' => Fine E (data d) g' a') A.tfrom (A.tfrom + p) (fun e h1 h2 => hA.dates e (hin e h1 h2)) (fun _ _ _ _ => trivial) (fun _ _ _ _ _ _ => trivial)
    (fun t k D h1 h2 hg => by
      obtain ⟨D', r, s, _, f⟩ := day_fine (S := S) hE hA data t k D (ho t (hin t h1 h2)) (hnz _) hg
      exact ⟨D', r.mono fun X hX => ⟨hX.1, trivial⟩, s, f⟩)
    p (r + 1) A.tfrom D le_rfl le_rfl (fun d h1 h2 => Or.inl (hf d (hin d h1 h2)))
  rw [← hp] at e1
  -- the files of this and later days are as before
  have hlater : ∀ e, A.has e → d ≤ e → D1 (packed E A.out rl e) = D (packed E A.out rl e) ∧ D1 (plain E A.out rl e) = D (plain E A.out rl e) := by
    intro e hhe he
    exact ⟨s1 _ fun d' h1 h2 => ⟨packed_ne E hE A.out rl e d' (hA.dates e hhe) (hA.dates d' (hin d' h1 h2)) (by omega), (plain_packed E hE A.out rl d' e).symm⟩,
      s1 _ fun d' h1 h2 => ⟨plain_packed E hE A.out rl e d', plain_ne E hE A.out rl e d' (hA.dates e hhe) (hA.dates d' (hin d' h1 h2)) (by omega)⟩⟩
  have e2 := (day_fetch (S := S) hE hA d (loop E A (d + 1) r) D1 (data d) (by rw [(hlater d hd le_rfl).1]; exact (hf d hd).1)
    (by rw [(hlater d hd le_rfl).2]; exact (hf d hd).2) (ho d hd) k (by omega)).1
  have hst : stopped S E A (k + 5 + m) D = fun q => if q = packed E A.out rl d then some ((data d).take k) else D1 q := by
    unfold stopped main
    rw [hr]
    have : after S (k + 5 + m) (loop E A A.tfrom (p + (r + 1)), D) = after S (k + 5) (after S m (loop E A A.tfrom (p + (r + 1)), D)) :=
      Function.iterate_add_apply ..
    rw [this, e1, show loop E A d (r + 1) = day E A d (loop E A (d + 1) r) from rfl, e2]
  have hcut : ((data d).take k) ≠ data d := by
    intro h
    have := congrArg List.length h
    rw [List.length_take] at this; omega
  -- the second run
  obtain ⟨D', ⟨m', e3, _⟩, s3, a3⟩ := loop_run (S := S) hE (A := A) (rl := rl) (fun t g a => Fine E (data t) g a ∨ g.isSome) (fun _ _ _ => True)
    (fun _ g _ g' _ => g.isSome → g' = g) A.tfrom (A.tend.getD (A.tfrom + 1)) (fun e h1 h2 => hA.dates e ⟨h1, h2⟩) (fun _ _ _ _ => trivial) (fun _ _ _ _ _ _ => trivial)
    (fun t k D h1 h2 hg => by
      have ht : A.has t := ⟨h1, h2⟩
      rcases hg' : D (packed E A.out rl t) with _ | x
      · obtain ⟨D', r, s, _, f⟩ := day_fine (S := S) hE hA data t k D (ho t ht) (hnz _) (hg.resolve_right (by rw [hg']; simp))
        exact ⟨D', r.mono fun X hX => ⟨hX.1, trivial⟩, s, fun h => by cases h⟩
      · obtain ⟨D', r, s, g, _, _⟩ := day_packed (S := S) hE hA t k D x hg' (hnz x)
        exact ⟨D', r.mono fun X hX => ⟨hX.1, trivial⟩, s, fun _ => g⟩)
    (A.tend.getD (A.tfrom + 1) - A.tfrom).toNat 0 A.tfrom (fun q => if q = packed E A.out rl d then some ((data d).take k) else D1 q) le_rfl (by omega)
    (fun e h1 h2 => by
      by_cases hed : e = d
      · right; subst hed; simp
      · left
        have hhe : A.has e := ⟨h1, by omega⟩
        simp only [if_neg (packed_ne E hE A.out rl e d (hA.dates e hhe) (hA.dates d hd) hed), if_neg (plain_packed E hE A.out rl e d)]
        rcases Int.lt_or_lt_of_ne hed with h | h
        · exact a1 e h1 (by omega)
        · rw [(hlater e hhe (by omega)).1, (hlater e hhe (by omega)).2]
          exact Or.inl (hf e ⟨h1, by omega⟩))
  have hfin : D' (packed E A.out rl d) = some ((data d).take k) := by
    have := a3 d hlen.1 (by omega) (by simp)
    simpa using this
  refine ⟨k + 5 + m, D', ?_, ?_, hfin, ?_⟩
  · rw [hst]; simp
  · rw [hst]; exact ⟨m', e3⟩
  · rw [hfin]; intro h; injection h with h; exact hcut h

/-- C104 fails: a product that the server does not have yet makes the run raise an exception, but an empty file is left; when the server has it, the
next run reports success and leaves the empty file. -/
theorem missing_fails {S S' : Server} {E : Env} (hE : Dates E) {A : Args} {rl : Nat} (hA : Plain E A rl) (hn : A.dcmp = false) (hone : A.tend = none) (D : Disk)
    (hg : D (packed E A.out rl A.tfrom) = none) (ha : D (plain E A.out rl A.tfrom) = none) (files : Text → Option Text)
    (hdir : S (remote E rl A.tfrom) = some files) (hno : files (dayName E.ymd rl A.tfrom ++ ".gz".toList) = none) :
    ∃ D', Raises S E A D D' ∧ D' (packed E A.out rl A.tfrom) = some [] ∧ Ends S' E A D' 0 D' := by
  have hm : main E A = day E A A.tfrom (.exit 0) := by
    unfold main
    rw [hone, show (Option.getD none (A.tfrom + 1) - A.tfrom).toNat = 1 by simp]
    rfl
  refine ⟨fun q => if q = packed E A.out rl A.tfrom then some [] else D q, ⟨5, ?_⟩, if_pos rfl, ?_⟩
  · rw [hm, day_eq hE hA]
    simp only [after, Function.iterate_succ, Function.iterate_zero, Function.comp, id, step, hg, ha, Option.isSome_none, Bool.false_eq_true, if_false, ftpget, hdir,
      hno]
  · obtain ⟨D', ⟨n, e, _⟩, _, _, _, hD⟩ := day_packed (S := S') hE hA A.tfrom (.exit 0) (fun q => if q = packed E A.out rl A.tfrom then some [] else D q) [] (if_pos rfl)
      (fun h => by rw [hn] at h; cases h)
    rw [hD hn] at e
    exact ⟨n, by rw [hm]; exact e⟩

/-- C104 fails: with decompression such a file makes this and every later run raise an exception; the file stays, and beside it the beginning of the
plain file, under the name the library looks for. -/
theorem stuck_fails {S : Server} {E : Env} (hE : Dates E) {A : Args} {rl : Nat} (hA : Plain E A rl) (hd : A.dcmp = true) (hone : A.tend = none) (D : Disk)
    (x : Text) (hx : D (packed E A.out rl A.tfrom) = some x) (hbad : (E.gunzip x).2 = false) :
    ∃ D', Raises S E A D D' ∧ D' (packed E A.out rl A.tfrom) = some x ∧ D' (plain E A.out rl A.tfrom) = some (E.gunzip x).1 := by
  have hm : main E A = day E A A.tfrom (.exit 0) := by
    unfold main
    rw [hone, show (Option.getD none (A.tfrom + 1) - A.tfrom).toNat = 1 by simp]
    rfl
  have hne := (plain_packed E hE A.out rl A.tfrom A.tfrom).symm
  obtain ⟨h1, h2⟩ := packed_suffix E A.out rl A.tfrom
  have hw := writeAll_after S (plain E A.out rl A.tfrom) .raise (E.gunzip x).1 []
    (fun q => if q = plain E A.out rl A.tfrom then some [] else D q) (if_pos rfl) (E.gunzip x).1.length le_rfl
  refine ⟨fun q => if q = plain E A.out rl A.tfrom then some (E.gunzip x).1 else D q, ⟨(E.gunzip x).1.length + 5, ?_⟩, ?_, if_pos rfl⟩
  · rw [hm, day_eq hE hA]
    have e : ∀ n s, after S (n + 5) s = after S n (after S 5 s) := fun n s => Function.iterate_add_apply ..
    rw [e]
    have e5 : after S 5 (Prog.isfile (packed E A.out rl A.tfrom) fun a =>
        if a then .isfile (packed E A.out rl A.tfrom) fun b => finish E A.dcmp (if b then packed E A.out rl A.tfrom else plain E A.out rl A.tfrom) (.exit 0)
        else .isfile (plain E A.out rl A.tfrom) fun c =>
          if c then .isfile (packed E A.out rl A.tfrom) fun b => finish E A.dcmp (if b then packed E A.out rl A.tfrom else plain E A.out rl A.tfrom) (.exit 0)
          else ftpget (remote E rl A.tfrom) (dayName E.ymd rl A.tfrom ++ ".gz".toList) (packed E A.out rl A.tfrom)
            (finish E A.dcmp (packed E A.out rl A.tfrom) (.exit 0)), D) =
        (writeAll (plain E A.out rl A.tfrom) (E.gunzip x).1 .raise, fun q => if q = plain E A.out rl A.tfrom then some [] else D q) := by
      simp only [after, Function.iterate_succ, Function.iterate_zero, Function.comp, id, step, hx, Option.isSome_some, if_true, finish, decompress, h1, hd,
        Bool.and_self, h2, hbad, Bool.false_eq_true, if_false]
    rw [e5, hw]
    simp only [List.drop_length, writeAll, List.take_length, List.nil_append]
    refine Prod.ext rfl (funext fun q => ?_)
    by_cases h : q = plain E A.out rl A.tfrom
    · simp [h]
    · simp [h]
  · simp only [if_neg hne, hx]

/-- C104 fails: the tidal product cannot be asked for. -/
theorem tidal_fails (S : Server) (E : Env) (A : Args) (ht : A.tidal = true) (hd : ∃ d, A.has d) (D : Disk) : Raises S E A D D := by
  obtain ⟨d, h1, h2⟩ := hd
  refine ⟨0, ?_⟩
  obtain ⟨n, hn⟩ : ∃ n, (A.tend.getD (A.tfrom + 1) - A.tfrom).toNat = n + 1 := ⟨(A.tend.getD (A.tfrom + 1) - A.tfrom).toNat - 1, by omega⟩
  simp only [after, Function.iterate_zero, id, main, hn, loop, day, ht, if_true]

/-- C104, with C85: what a run with decompression leaves is an archive that the library's dealiasing stream runs through. -/
theorem archive_fetched {T : Type} (W : World T) (ty : Ty) (deg : Int) {S : Server} {E : Env} (hE : Dates E) {A : Args} {rl : Nat} (hA : Plain E A rl)
    (hd : A.dcmp = true) (data : Int → Text) (ho : ∀ d, A.has d → Offers S E rl d (data d)) (hz : ∀ d, A.has d → (E.gunzip (data d)).2 = true)
    (D : Disk) (hf : ∀ d, A.has d → Fine E (data d) (D (packed E A.out rl d)) (D (plain E A.out rl d))) (hymd : W.ymd = E.ymd)
    (sets : List (List (DataSet T))) (hlen : A.tend = some (A.tfrom + sets.length))
    (hfile : ∀ (i : Nat) (s : List (DataSet T)), sets[i]? = some s → DayFile W ty deg (A.tfrom + i) (E.gunzip (data (A.tfrom + i))).1 s ∧ 2 ≤ s.length) :
    ∃ D', Ends S E A D 0 D' ∧ Archive { W with disk := D' } ty deg A.out rl A.tfrom sets := by
  obtain ⟨D', h1, h2, _⟩ := fetch_partial (S := S) hE hA data D ho (fun d h _ => hz d h) hf
  refine ⟨D', h1, ?_⟩
  have hrange : ∀ d, A.tfrom ≤ d → d < A.tfrom + sets.length → D' (plain E A.out rl d) = some (E.gunzip (data d)).1 := by
    intro d hd1 hd2
    exact (h2 d ⟨hd1, by rw [hlen]; exact hd2⟩).2 hd
  generalize A.tfrom = t at *
  clear hlen h1 h2 hf ho hz
  induction sets generalizing t with
  | nil => trivial
  | cons s rest ih =>
    refine ⟨⟨(E.gunzip (data t)).1, ?_, ?_⟩, ?_, ?_⟩
    · have := hrange t le_rfl (by simp)
      unfold plain at this
      rw [← hymd] at this
      exact this
    · have := (hfile 0 s rfl).1
      rw [show t + ((0 : Nat) : Int) = t by simp] at this
      exact this
    · exact (hfile 0 s rfl).2
    · refine ih (t + 1) (fun i s' hs => ?_) (fun d h1 h2 => hrange d (by omega) (by simp; omega))
      have := hfile (i + 1) s' (by simpa using hs)
      rw [show t + ((i + 1 : Nat) : Int) = t + 1 + i by push_cast; ring] at this
      exact this

/-! ### A calendar of two days and a server -/

/-- Two days; a compressed file is the text and a `z` behind it. -/
def toyEnv : Env where
  first := 0
  last := 2
  ymd d := List.replicate 10 (if d = 0 then '0' else '1')
  year _ := ['2', '0', '2', '3']
  gunzip x := (x.dropLast, x.getLast? == some 'z')

/-- The products: the files of the archive of C85. -/
def toyPlain (d : Int) : Text :=
  if d = 0 then twoText '4' '0' [('1', true), ('2', false), ('3', true), ('4', false)] else twoText '2' '1' [('5', true), ('6', false)]
def toyData (d : Int) : Text := toyPlain d ++ ['z']

/-- A server with both. -/
def toyServer : Server := fun dir => if dir = "/grace/Level-1B/GFZ/AOD/RL06/2023".toList then
    some fun fn => if fn = "AOD1B_0000000000_X_06.asc.gz".toList then some (toyData 0)
      else if fn = "AOD1B_1111111111_X_06.asc.gz".toList then some (toyData 1) else none
  else none

def toyArgs (dcmp : Bool) : Args := ⟨0, some 2, 6, "/a".toList, false, dcmp⟩

theorem toyDates : Dates toyEnv where
  length d := by simp [toyEnv]
  chars d c h := by
    left
    simp only [toyEnv, List.mem_replicate] at h
    rw [h.2]; split <;> decide
  different d d' h h' e := by
    obtain ⟨h1, h2⟩ := h
    obtain ⟨h3, h4⟩ := h'
    simp only [toyEnv] at *
    by_cases a : d = 0 <;> by_cases b : d' = 0
    · omega
    · rw [if_pos a, if_neg b] at e; exact absurd e (by decide)
    · rw [if_neg a, if_pos b] at e; exact absurd e (by decide)
    · omega
  year d c h := by
    have : ∀ c ∈ ['2', '0', '2', '3'], c.isDigit = true := by decide
    exact this c h

theorem toyPlainArgs (dcmp : Bool) : Plain toyEnv (toyArgs dcmp) 6 where
  dates d h := h
  release := rfl
  small := by decide
  out := by simp [toyArgs]
  tidal := rfl

theorem toyOffers (d : Int) (h : toyEnv.date d) : Offers toyServer toyEnv 6 d (toyData d) := by
  obtain ⟨h1, h2⟩ := h
  simp only [toyEnv] at h1 h2
  refine ⟨_, if_pos (by show remote toyEnv 6 0 = _; decide), ?_⟩
  rcases (by omega : d = 0 ∨ d = 1) with rfl | rfl
  · exact if_pos (by decide)
  · rw [if_neg (by decide)]; exact if_pos (by decide)

theorem toyGunzip (d : Int) : toyEnv.gunzip (toyData d) = (toyPlain d, true) := by simp [toyEnv, toyData]

/-- Both days fetched into an empty directory, the plain files beside the compressed ones. -/
example : ∃ D', Ends toyServer toyEnv (toyArgs true) (fun _ => none) 0 D' ∧
    (∀ d, (toyArgs true).has d → Held toyEnv true (toyData d) (D' (packed toyEnv "/a".toList 6 d)) (D' (plain toyEnv "/a".toList 6 d))) ∧
    ∀ q, (∀ d, (toyArgs true).has d → q ≠ packed toyEnv "/a".toList 6 d ∧ q ≠ plain toyEnv "/a".toList 6 d) → D' q = none :=
  fetch_partial toyDates (toyPlainArgs true) toyData (fun _ => none) (fun d h => toyOffers d h) (fun d _ _ => by rw [toyGunzip])
    (fun _ _ => Or.inl ⟨rfl, rfl⟩)

/-- The archive of C85, fetched. -/
example : ∃ D', Ends toyServer toyEnv (toyArgs true) (fun _ => none) 0 D' ∧
    Archive { twoWorld with disk := D' } .atm 0 "/a".toList 6 0 [digitSets [('1', true), ('2', false), ('3', true), ('4', false)],
      digitSets [('5', true), ('6', false)]] :=
  archive_fetched twoWorld .atm 0 toyDates (toyPlainArgs true) rfl toyData (fun d h => toyOffers d h) (fun d _ => by rw [toyGunzip])
    (fun _ => none) (fun _ _ => Or.inl ⟨rfl, rfl⟩) rfl _ rfl (fun i s h => by
      rcases i with _ | _ | i
      · obtain rfl : digitSets [('1', true), ('2', false), ('3', true), ('4', false)] = s := by simpa using h
        rw [toyGunzip]
        exact ⟨twoFile '4' '0' (.inl ⟨rfl, rfl⟩) _ (by decide) (by decide), by decide⟩
      · obtain rfl : digitSets [('5', true), ('6', false)] = s := by simpa using h
        rw [toyGunzip]
        exact ⟨twoFile '2' '1' (.inr ⟨rfl, rfl⟩) _ (by decide) (by decide), by decide⟩
      · simp at h)

/-- Stopped after three bytes of the first file: the next run ends with status 0 and the three bytes. -/
example : ∃ n D', stopped toyServer toyEnv (toyArgs false) n (fun _ => none) (packed toyEnv "/a".toList 6 0) = some ((toyData 0).take 3) ∧
    Ends toyServer toyEnv (toyArgs false) (stopped toyServer toyEnv (toyArgs false) n fun _ => none) 0 D' ∧
    D' (packed toyEnv "/a".toList 6 0) = some ((toyData 0).take 3) ∧ D' (packed toyEnv "/a".toList 6 0) ≠ some (toyData 0) :=
  truncated_fails toyDates (toyPlainArgs false) rfl toyData (fun _ => none) (fun d h => toyOffers d h) (fun _ _ => ⟨rfl, rfl⟩) 0
    (by unfold Args.has; decide) 3 (by decide +kernel)

/-- A run stopped before any download, and one stopped behind the first: the next run is good. -/
example : ∃ D', Ends toyServer toyEnv (toyArgs true) (replay toyServer toyEnv [(toyArgs true, 2), (toyArgs false, (toyData 0).length + 5)] fun _ => none) 0 D' ∧
    ∀ d, (toyArgs true).has d → Held toyEnv true (toyData d) (D' (packed toyEnv "/a".toList 6 d)) (D' (plain toyEnv "/a".toList 6 d)) := by
  have h1 : stopped toyServer toyEnv (toyArgs true) 2 (fun _ => none) = fun _ => none := rfl
  have h2 : stopped toyServer toyEnv (toyArgs false) ((toyData 0).length + 5) (fun _ => none) =
      fun q => if q = packed toyEnv "/a".toList 6 0 then some (toyData 0) else none := by
    have := (day_fetch (S := toyServer) toyDates (toyPlainArgs false) 0 (loop toyEnv (toyArgs false) (0 + 1) 1) (fun _ => none) (toyData 0) rfl rfl
      (toyOffers 0 ⟨by decide, by decide⟩) (toyData 0).length le_rfl).1
    unfold stopped
    rw [show main toyEnv (toyArgs false) = day toyEnv (toyArgs false) 0 (loop toyEnv (toyArgs false) (0 + 1) 1) from rfl, this, List.take_length]
    rfl
  refine repeated_partial toyDates "/a".toList toyData toyOffers (fun d _ => by rw [toyGunzip]) _
    (fun p hp => by
      rcases List.mem_cons.mp hp with rfl | hp
      · exact ⟨toyPlainArgs true, rfl⟩
      · rcases List.mem_cons.mp hp with rfl | hp
        · exact ⟨toyPlainArgs false, rfl⟩
        · cases hp)
    (fun _ => none) (fun _ _ => Or.inl ⟨rfl, rfl⟩) (fun i hi d hd => ?_) (toyPlainArgs true) rfl
  have hnone : ¬ Truncated (toyData d) none := by rintro ⟨k, _, h⟩; cases h
  rcases i with _ | _ | _ | i
  · exact hnone
  · show ¬ Truncated (toyData d) (stopped toyServer toyEnv (toyArgs true) 2 (fun _ => none) _)
    rw [h1]; exact hnone
  · show ¬ Truncated (toyData d) (stopped toyServer toyEnv (toyArgs false) ((toyData 0).length + 5) (stopped toyServer toyEnv (toyArgs true) 2 (fun _ => none)) _)
    rw [h1, h2]
    beta_reduce
    by_cases h0 : d = 0
    · subst h0
      rw [if_pos rfl]
      rintro ⟨k, hk, h⟩
      injection h with h
      have := congrArg List.length h
      rw [List.length_take] at this; omega
    · rw [if_neg (packed_ne toyEnv toyDates _ 6 d 0 hd ⟨by decide, by decide⟩ h0)]
      exact hnone
  · simp at hi

/-- The product of day 0 is not there yet. -/
example : ∃ D', Raises (fun _ => some fun _ => none) toyEnv ⟨0, none, 6, "/a".toList, false, false⟩ (fun _ => none) D' ∧
    D' (packed toyEnv "/a".toList 6 0) = some [] ∧ Ends toyServer toyEnv ⟨0, none, 6, "/a".toList, false, false⟩ D' 0 D' :=
  missing_fails toyDates ⟨fun d h => ⟨h.1, lt_trans h.2 (by decide)⟩, rfl, by decide, by simp, rfl⟩ rfl rfl _ rfl rfl _ rfl rfl

/-- A file without its last byte, with decompression. -/
example : ∃ D', Raises toyServer toyEnv ⟨0, none, 6, "/a".toList, false, true⟩ (fun q => if q = packed toyEnv "/a".toList 6 0 then some ['a', 'b'] else none) D' ∧
    D' (packed toyEnv "/a".toList 6 0) = some ['a', 'b'] ∧ D' (plain toyEnv "/a".toList 6 0) = some ['a'] :=
  stuck_fails toyDates ⟨fun d h => ⟨h.1, lt_trans h.2 (by decide)⟩, rfl, by decide, by simp, rfl⟩ rfl rfl _ ['a', 'b'] (if_pos rfl) rfl

/-- The tidal product of day 0. -/
example (D : Disk) : Raises toyServer toyEnv ⟨0, none, 6, "/a".toList, true, true⟩ D D := tidal_fails _ _ _ rfl ⟨0, by decide, by decide⟩ D

/-- A run that ends: both days have a file. -/
example : ∃ D', Ends toyServer toyEnv (toyArgs true) (fun _ => none) 0 D' ∧ ((D' (packed toyEnv "/a".toList 6 1)).isSome ∨ (D' (plain toyEnv "/a".toList 6 1)).isSome) := by
  obtain ⟨D', h, _⟩ := fetch_partial (S := toyServer) toyDates (toyPlainArgs true) toyData (fun _ => none) (fun d h => toyOffers d h) (fun d _ _ => by rw [toyGunzip])
    (fun _ _ => Or.inl ⟨rfl, rfl⟩)
  exact ⟨D', h, (status_zero toyDates (toyPlainArgs true) h).2.1 1 (by unfold Args.has; decide)⟩

/-- A server without the directory. -/
example : Raises (fun _ => none) toyEnv (toyArgs true) (fun _ => none) (fun _ => none) :=
  no_directory toyDates (toyPlainArgs true) (by unfold Args.has; decide) _ rfl rfl rfl

/-- Any stopped run of the two days. -/
example (n : Nat) := stopped_states (S := toyServer) toyDates (toyPlainArgs true) toyData (fun _ => none) (fun d h => toyOffers d h)
  (fun d _ _ => by rw [toyGunzip]) (fun _ _ => Or.inl ⟨rfl, rfl⟩) n

end Verif.GetAod1b
