import Verif.Proof.Aod1bTidal
/-
AOD1B files: C32 (names), C33 (blocks), C34 (seeking blocks), C36 (tidal files).
-/
namespace Verif.Aod1b
open Verif.Chars Verif.Icgem

variable {T : Type}

/-! ### C33 -/

/-- C33: a block whose lines hold these records is read, up to the request; the set keeps its size, holds for every place
the last value that the block gives for it and zero elsewhere, and the stream is just after the block. The request has to
be reached by the block. -/
theorem collect_complete (a : Aod T) {n m : Int} (hm : 0 ≤ m) (hn : m ≤ n) (hna : n ≤ a.maxDegree) (co : Coeffs ℝ)
    (hd : n ≤ co.deg) (ho : m ≤ co.ord) (hr : co.deg < co.rows) {lines : List (List Char)} {rows : List Row}
    (hl : List.Forall₂ (RowLine true ws1 n m) lines rows) (hs : ∀ l ∈ lines, ShortLine l)
    (ht : ∀ r ∈ rows, r.In n m → r.Triangle) (hdeg : Top n m Row.n rows n) (hord : Top n m Row.m rows m)
    (rest : List Char) (junk : Nat → Nat → ℝ) :
    ∃ co', collectCoeffs a (At (unlines lines ++ rest)) n m lines.length co false junk = .ok (0, At rest, co') ∧
      co'.deg = co.deg ∧ co'.ord = co.ord ∧ co'.rows = co.rows ∧ Holds n m rows co.rows co' := by
  have hh : ∀ r ∈ rows, r.In n m → co.clear.Has r.n r.m := by
    intro r hr' hin
    obtain ⟨t1, t2⟩ := ht r hr' hin
    refine ⟨t1, t2, ?_⟩
    have := hin.1
    simp only [Coeffs.clear]; omega
  refine ⟨rows.foldl (putRow n m) co.clear, ?_, (foldl_dims n m rows _).2.1, (foldl_dims n m rows _).2.2.1,
    (foldl_dims n m rows _).1, foldl_holds rows ht co _⟩
  unfold collectCoeffs
  rw [if_neg (by omega), if_neg (by simp), if_neg (by omega)]
  unfold collectInto
  rw [Int.toNat_natCast, collectLoop_ok sepOk1 hl hs rest co.clear 0 0 hh]
  have e1 : topOf n m Row.n 0 rows = n := (topOf_top n m Row.n rows).unique hdeg
  have e2 : topOf n m Row.m 0 rows = m := (topOf_top n m Row.m rows).unique hord
  simp [Res.bind, e1, e2, In.good, At]

/-- C33: with permission to resize, the set gets the largest degree and order found within the request. -/
theorem collect_resize_complete (a : Aod T) {n m : Int} (hm : 0 ≤ m) (hn : m ≤ n) (hna : n ≤ a.maxDegree) (co : Coeffs ℝ)
    {lines : List (List Char)} {rows : List Row}
    (hl : List.Forall₂ (RowLine true ws1 n m) lines rows) (hs : ∀ l ∈ lines, ShortLine l)
    (ht : ∀ r ∈ rows, r.In n m → r.Triangle) (rest : List Char) (junk : Nat → Nat → ℝ) :
    ∃ co', collectCoeffs a (At (unlines lines ++ rest)) n m lines.length co true junk = .ok (0, At rest, co') ∧
      Top n m Row.n rows co'.deg ∧ Top n m Row.m rows co'.ord ∧ (co'.rows : Int) = co'.deg + 1 ∧ Holds n m rows co'.rows co' := by
  have hh : ∀ co : Coeffs ℝ, co.rows = (n + 1).toNat → ∀ r ∈ rows, r.In n m → co.clear.Has r.n r.m := by
    intro co hc r hr' hin
    obtain ⟨t1, t2⟩ := ht r hr' hin
    refine ⟨t1, t2, ?_⟩
    have := hin.1
    simp only [Coeffs.clear, hc]; omega
  have td := topOf_top n m Row.n rows
  have hdn : topOf n m Row.n 0 rows ≤ n := by
    obtain ⟨_, _, h | ⟨r, _, hin, h⟩⟩ := td
    · omega
    · rw [← h]; exact hin.1
  unfold collectCoeffs
  rw [if_neg (by omega), if_pos rfl, Coeffs.resize, if_neg (by omega)]
  simp only [Res.bind]
  unfold collectInto
  rw [Int.toNat_natCast, collectLoop_ok sepOk1 hl hs rest _ 0 0 (hh _ rfl)]
  have hneg : ¬ (topOf n m Row.n 0 rows < -1) := by have := td.1; omega
  simp only [Res.bind, In.good, At, Coeffs.cresize, if_neg hneg]
  refine ⟨_, rfl, td, topOf_top n m Row.m rows, ?_, ?_⟩
  · have := td.1
    simp only [Int.toNat_of_nonneg (show 0 ≤ topOf n m Row.n 0 rows + 1 by omega)]
  · intro i j hj hi
    simp only at hi
    have := td.1
    have hi' : i < (n + 1).toNat := by omega
    simp only [(foldl_dims n m rows _).1, Coeffs.clear, hi', if_true]
    exact foldl_holds rows ht ⟨n, m, (n + 1).toNat, junk, junk, co.gm, co.re, co.normalized⟩ (n + 1).toNat i j hj hi'

/-- C33: whenever reading a block succeeds, the announced number of lines were there, each of them ended and holding a
record; the set holds for every place the last value given within the request and zero elsewhere; exactly these lines are
consumed. -/
theorem collect_sound (a : Aod T) {s s' : In} {n m L : Int} (hn : 0 ≤ n) {co co' : Coeffs ℝ} {allow : Bool}
    {junk : Nat → Nat → ℝ} (h : collectCoeffs a s n m L co allow junk = .ok (0, s', co')) :
    ∃ (lines : List (List Char)) (rows : List Row), lines.length = L.toNat ∧ (∀ l ∈ lines, ShortLine l) ∧
      List.Forall₂ (RowLine false ws1 n m) lines rows ∧ (∀ r ∈ rows, r.In n m → r.Triangle) ∧
      s = At (unlines lines ++ s'.rest) ∧ s' = At s'.rest ∧ Holds n m rows co'.rows co' ∧
      m ≤ n ∧ n ≤ a.maxDegree ∧
      (allow = true → Top n m Row.n rows co'.deg ∧ Top n m Row.m rows co'.ord) ∧
      (allow = false → Top n m Row.n rows n ∧ Top n m Row.m rows m ∧ co'.deg = co.deg ∧ co'.ord = co.ord ∧
        co'.rows = co.rows) := by
  unfold collectCoeffs at h
  split at h
  · simp at h
  rename_i hc1
  have hmn : m ≤ n ∧ n ≤ a.maxDegree := by omega
  -- both ways end in the same loop
  have key : ∀ co1 : Coeffs ℝ, collectInto s n m L co1 allow junk = .ok (0, s', co') →
      ∃ (lines : List (List Char)) (rows : List Row), lines.length = L.toNat ∧ (∀ l ∈ lines, ShortLine l) ∧
        List.Forall₂ (RowLine false ws1 n m) lines rows ∧ (∀ r ∈ rows, r.In n m → co1.Has r.n r.m) ∧
        s = At (unlines lines ++ s'.rest) ∧ s' = At s'.rest ∧
        (allow = true → (rows.foldl (putRow n m) co1.clear).cresize junk (topOf n m Row.n 0 rows) (topOf n m Row.m 0 rows)
          = .ok co') ∧
        (allow = false → co' = rows.foldl (putRow n m) co1.clear ∧ topOf n m Row.n 0 rows = n ∧ topOf n m Row.m 0 rows = m) := by
    intro co1 h
    unfold collectInto at h
    cases hc : collectLoop ws1 n m L.toNat ⟨s, co1.clear, 0, 0⟩ with
    | ok v =>
      obtain ⟨err, g⟩ := v
      simp only [hc, Res.bind] at h
      split at h
      · simp at h
      · rename_i he
        rw [not_or, not_not, Bool.not_eq_false] at he
        obtain ⟨rfl, hg⟩ := he
        obtain ⟨lines, rows, a1, a2, a3, a4, a5, a6, a7, a8, a9⟩ := collectLoop_sound _ _ _ hc hg
        simp only at a4 a6 a7 a8 a9
        cases allow with
        | true =>
          simp only [if_true] at h
          rw [a6, a7, a8] at h
          cases hz : (rows.foldl (putRow n m) co1.clear).cresize junk (topOf n m Row.n 0 rows) (topOf n m Row.m 0 rows) with
          | ok c =>
            simp only [hz, Res.ok.injEq, Prod.mk.injEq, true_and] at h
            obtain ⟨rfl, rfl⟩ := h
            exact ⟨lines, rows, a1, a3, a2, a9, a4, a5, fun _ => hz, by simp⟩
          | ub => simp [hz] at h
          | abort => simp [hz] at h
          | throw => simp [hz] at h
        | false =>
          simp only [Bool.false_eq_true, if_false] at h
          split at h
          · simp at h
          · rename_i hdo
            simp only [Res.ok.injEq, Prod.mk.injEq, true_and] at h
            obtain ⟨rfl, rfl⟩ := h
            exact ⟨lines, rows, a1, a3, a2, a9, a4, a5, by simp, fun _ => ⟨a6, by omega, by omega⟩⟩
    | ub => simp [hc, Res.bind] at h
    | abort => simp [hc, Res.bind] at h
    | throw => simp [hc, Res.bind] at h
  split at h
  · rename_i hall
    subst hall
    unfold Coeffs.resize at h
    rw [if_neg (by omega)] at h
    simp only [Res.bind] at h
    obtain ⟨lines, rows, a1, a2, a3, a4, a5, a6, a7, a8⟩ := key _ h
    have ht : ∀ r ∈ rows, r.In n m → r.Triangle := fun r hr hin => has_triangle (a4 r hr hin)
    have td := topOf_top n m Row.n rows
    have hdn : topOf n m Row.n 0 rows ≤ n := by
      obtain ⟨_, _, h | ⟨r, _, hin, h⟩⟩ := td
      · omega
      · rw [← h]; exact hin.1
    have a7 := a7 rfl
    unfold Coeffs.cresize at a7
    rw [if_neg (by have := td.1; omega)] at a7
    simp only [Res.ok.injEq] at a7
    subst a7
    refine ⟨lines, rows, a1, a2, a3, ht, a5, a6, ?_, hmn.1, hmn.2, fun _ => ⟨td, topOf_top n m Row.m rows⟩, by simp⟩
    intro i j hj hi
    simp only at hi
    have := td.1
    have hi' : i < (n + 1).toNat := by omega
    simp only [(foldl_dims n m rows _).1, Coeffs.clear, hi', if_true]
    exact foldl_holds rows ht ⟨n, m, (n + 1).toNat, junk, junk, co.gm, co.re, co.normalized⟩ (n + 1).toNat i j hj hi'
  · rename_i hall
    have hall : allow = false := by simpa using hall
    subst hall
    split at h
    · simp at h
    · obtain ⟨lines, rows, a1, a2, a3, a4, a5, a6, _, a8⟩ := key _ h
      have ht : ∀ r ∈ rows, r.In n m → r.Triangle := fun r hr hin => has_triangle (a4 r hr hin)
      obtain ⟨rfl, b2, b3⟩ := a8 rfl
      refine ⟨lines, rows, a1, a2, a3, ht, a5, a6, foldl_holds rows ht co _, hmn.1, hmn.2, by simp, fun _ => ⟨?_, ?_,
        (foldl_dims n m rows _).2.1, (foldl_dims n m rows _).2.2.1, (foldl_dims n m rows _).1⟩⟩
      · have := topOf_top n m Row.n rows; rwa [b2] at this
      · have := topOf_top n m Row.m rows; rwa [b3] at this

/-- The records of the example: degree 1, the last record is beyond the request. -/
def exRows : List Row := [⟨0, 0, 3/2, 0⟩, ⟨1, 0, 2, 0⟩, ⟨1, 1, -1/4, 1/2⟩, ⟨1, 0, 7, 0⟩, ⟨2, 0, 0, 0⟩]
/-- The lines of the example. -/
def exLines : List (List Char) := ["  0  0  1.5 0.0".toList, "  1  0 2e0 0.0".toList, " 1 1 -0.25 5e-1".toList,
  "1 0 7.0 0.0".toList, "2 0 garbage".toList]

theorem exLines_rows : List.Forall₂ (RowLine true ws1 1 1) exLines exRows := by
  refine .cons ?_ (.cons ?_ (.cons ?_ (.cons ?_ (.cons ?_ .nil))))
  · exact ⟨"  0  1.5 0.0".toList, "  1.5 0.0".toList,
      ⟨"  ".toList, ⟨false, ['0']⟩, by decide, ⟨by decide, by decide⟩, rfl, rfl, by decide, by decide, by decide⟩,
      ⟨"  ".toList, ⟨false, ['0']⟩, by decide, ⟨by decide, by decide⟩, rfl, rfl, by decide, by decide, by decide⟩,
      fun _ => ⟨" 0.0".toList, [],
        ⟨"  ".toList, ⟨false, ['1'], some ['5'], none⟩, by decide, Dec.ok_of (by decide), by decide +kernel, rfl,
          fun _ => by unfold Ends; decide⟩,
        ⟨" ".toList, ⟨false, ['0'], some ['0'], none⟩, by decide, Dec.ok_of (by decide), by decide +kernel, rfl,
          fun _ => by unfold Ends; decide⟩⟩⟩
  · exact ⟨"  0 2e0 0.0".toList, " 2e0 0.0".toList,
      ⟨"  ".toList, ⟨false, ['1']⟩, by decide, ⟨by decide, by decide⟩, rfl, rfl, by decide, by decide, by decide⟩,
      ⟨"  ".toList, ⟨false, ['0']⟩, by decide, ⟨by decide, by decide⟩, rfl, rfl, by decide, by decide, by decide⟩,
      fun _ => ⟨" 0.0".toList, [],
        ⟨" ".toList, ⟨false, ['2'], none, some ('e', none, ['0'])⟩, by decide, Dec.ok_of (by decide), by decide +kernel, rfl,
          fun _ => by unfold Ends; decide⟩,
        ⟨" ".toList, ⟨false, ['0'], some ['0'], none⟩, by decide, Dec.ok_of (by decide), by decide +kernel, rfl,
          fun _ => by unfold Ends; decide⟩⟩⟩
  · exact ⟨" 1 -0.25 5e-1".toList, " -0.25 5e-1".toList,
      ⟨" ".toList, ⟨false, ['1']⟩, by decide, ⟨by decide, by decide⟩, rfl, rfl, by decide, by decide, by decide⟩,
      ⟨" ".toList, ⟨false, ['1']⟩, by decide, ⟨by decide, by decide⟩, rfl, rfl, by decide, by decide, by decide⟩,
      fun _ => ⟨" 5e-1".toList, [],
        ⟨" ".toList, ⟨true, ['0'], some ['2', '5'], none⟩, by decide, Dec.ok_of (by decide), by decide +kernel, rfl,
          fun _ => by unfold Ends; decide⟩,
        ⟨" ".toList, ⟨false, ['5'], none, some ('e', some true, ['1'])⟩, by decide, Dec.ok_of (by decide), by decide +kernel,
          rfl, fun _ => by unfold Ends; decide⟩⟩⟩
  · exact ⟨" 0 7.0 0.0".toList, " 7.0 0.0".toList,
      ⟨[], ⟨false, ['1']⟩, by decide, ⟨by decide, by decide⟩, rfl, rfl, by decide, by decide, by decide⟩,
      ⟨" ".toList, ⟨false, ['0']⟩, by decide, ⟨by decide, by decide⟩, rfl, rfl, by decide, by decide, by decide⟩,
      fun _ => ⟨" 0.0".toList, [],
        ⟨" ".toList, ⟨false, ['7'], some ['0'], none⟩, by decide, Dec.ok_of (by decide), by decide +kernel, rfl,
          fun _ => by unfold Ends; decide⟩,
        ⟨" ".toList, ⟨false, ['0'], some ['0'], none⟩, by decide, Dec.ok_of (by decide), by decide +kernel, rfl,
          fun _ => by unfold Ends; decide⟩⟩⟩
  · exact ⟨" 0 garbage".toList, " garbage".toList,
      ⟨[], ⟨false, ['2']⟩, by decide, ⟨by decide, by decide⟩, rfl, rfl, by decide, by decide, by decide⟩,
      ⟨" ".toList, ⟨false, ['0']⟩, by decide, ⟨by decide, by decide⟩, rfl, rfl, by decide, by decide, by decide⟩,
      fun h => absurd h (by decide)⟩

/-- The example block is read into a set of degree 2; `C(1, 0)` is the later of its two values. -/
example (junk : Nat → Nat → ℝ) (rest : List Char) (x : Nat → Nat → ℝ) :
    ∃ co', collectCoeffs (⟨[], 5, 9, (), (), []⟩ : Aod Unit) (At (unlines exLines ++ rest)) 1 1 5 ⟨2, 2, 3, x, x, 1, 1, true⟩ false junk
      = .ok (0, At rest, co') ∧ co'.C 1 0 = 7 ∧ co'.S 1 1 = 1 / 2 ∧ co'.C 2 2 = 0 := by
  obtain ⟨co', h, -, -, -, hh⟩ := collect_complete (⟨[], 5, 9, (), (), []⟩ : Aod Unit) (n := 1) (m := 1) (by omega) (by omega) (by simp)
    ⟨2, 2, 3, x, x, 1, 1, true⟩ (by simp) (by simp) (by simp) exLines_rows
    (by unfold ShortLine exLines; decide) (by unfold Row.Triangle exRows Row.In; decide)
    (by unfold Top exRows Row.In; decide) (by unfold Top exRows Row.In; decide) rest junk
  refine ⟨co', h, ?_, ?_, ?_⟩
  · rw [(hh 1 0 (by omega) (by simp)).1]; simp [lastValue, exRows, Row.In]
  · rw [(hh 1 1 (by omega) (by simp)).2]; simp [lastValue, exRows, Row.In]
  · rw [(hh 2 2 (by omega) (by simp)).1]; simp [lastValue, exRows, Row.In]

/-! ### C34 -/

/-- C34, for a stream that stands before at most `numSets - 1` blocks (as it does whenever a block has been taken already):
the first block of the type is found and the stream stands before its first line of coefficients; the status is -1 if no
block of the type follows. Missing: a stream before all the blocks of a file, see `goto_fails`. -/
theorem goto_next_partial (date : List Char → Option (T × List Char)) (a : Aod T) (ty : Ty) (bs : List (Block T))
    (hok : ∀ b ∈ bs, b.Ok date) (hlen : (bs.length : Int) ≤ a.numSets - 1) (h : Hdr T) :
    (∀ pre b post, bs = pre ++ b :: post → (∀ x ∈ pre, x.hdr.type ≠ ty) → b.hdr.type = ty →
      gotoNext date a ty (At (blocksText bs)) h = .ok (0, At (unlines b.lines ++ blocksText post), b.hdr)) ∧
    ((∀ b ∈ bs, b.hdr.type ≠ ty) →
      ∃ s' h', gotoNext date a ty (At (blocksText bs)) h = .ok (-1, s', h')) := by
  unfold gotoNext
  constructor
  · rintro pre b post rfl h1 h2
    apply goto_first (fun x hx => hok x (by simp [hx])) h1 (hok b (by simp)) h2
    simp at hlen
    omega
  · intro hn
    obtain ⟨h', e⟩ := goto_none hok hn (a.numSets - 1).toNat (by omega) h
    exact ⟨_, h', e⟩

/-- C34, from the start of the blocks: found if it is not the last block of the file. -/
theorem goto_begin_partial (date : List Char → Option (T × List Char)) (a : Aod T) (ty : Ty) (pre post : List (Block T))
    (b : Block T) (hok : ∀ x ∈ pre ++ [b], x.Ok date) (hlen : a.numSets = (pre ++ b :: post).length) (hpost : post ≠ [])
    (h1 : ∀ x ∈ pre, x.hdr.type ≠ ty) (h2 : b.hdr.type = ty) (h : Hdr T) :
    gotoNext date a ty (At (blocksText (pre ++ b :: post))) h = .ok (0, At (unlines b.lines ++ blocksText post), b.hdr) := by
  unfold gotoNext
  apply goto_first (fun x hx => hok x (by simp [hx])) h1 (hok b (by simp)) h2
  cases post with
  | nil => exact absurd rfl hpost
  | cons => simp at hlen; omega

/-- C34 fails for a file whose only block of the type is its last one: the status is 1 and the block is not found. -/
theorem goto_fails (date : List Char → Option (T × List Char)) (a : Aod T) (ty : Ty) (pre : List (Block T))
    (b : Block T) (hok : ∀ x ∈ pre ++ [b], x.Ok date) (hlen : a.numSets = (pre ++ [b]).length)
    (h1 : ∀ x ∈ pre, x.hdr.type ≠ ty) (h : Hdr T) :
    ∃ s' h', gotoNext date a ty (At (blocksText (pre ++ [b]))) h = .ok (1, s', h') := by
  unfold gotoNext
  have e : blocksText (pre ++ [b]) = blocksText pre ++ (blocksText [b] ++ []) := by simp [blocksText]
  have hk : (a.numSets - 1).toNat = pre.length := by simp at hlen; omega
  obtain ⟨h', hs⟩ := gotoLoop_skip (ty := ty) (blocksText [b] ++ []) pre (fun x hx => hok x (by simp [hx])) h1
    (a.numSets - 1).toNat h (by omega)
  rw [e, hs, hk, Nat.sub_self, gotoLoop_zero (hok b (by simp))]
  exact ⟨_, _, rfl⟩

/-- A date library for the examples: an epoch is one digit. -/
def exDate : List Char → Option (Nat × List Char)
  | c :: r => if isDig c then some (c.toNat - 48, r) else none
  | [] => none

/-- A block with two lines of coefficients. -/
def exBlock (ty : Ty) : Block Nat :=
  ⟨"DATA SET 01:  2 COEFFICIENTS FOR 5 OF TYPE ".toList ++ ty.text, ⟨1, 2, 5, ty⟩, ["0 0 1 0".toList, "1 0 2 0".toList]⟩

theorem exBlock_ok (ty : Ty) : (exBlock ty).Ok exDate := by
  refine ⟨?_, ?_, ?_, rfl⟩
  · refine ⟨" 01:  2 COEFFICIENTS FOR 5 OF TYPE ".toList ++ ty.text, "  2 COEFFICIENTS FOR 5 OF TYPE ".toList ++ ty.text,
      "5 OF TYPE ".toList ++ ty.text, 1, [], rfl,
      ⟨[' '], ⟨false, ['0', '1']⟩, by decide, ⟨by decide, by decide⟩, rfl, rfl, by simp; decide,
        show (_ : Int) ≤ 1 by decide, show (1 : Int) ≤ _ by decide⟩,
      ⟨"  ".toList, ⟨false, ['2']⟩, by decide, ⟨by decide, by decide⟩, rfl, rfl, by simp; decide,
        show (_ : Int) ≤ 2 by decide, show (2 : Int) ≤ _ by decide⟩, ?_, ?_⟩
    · simp
    · cases ty <;> rfl
  · cases ty <;> (unfold ShortLine; decide)
  · unfold ShortLine exBlock; simp

/-- The first of the two blocks of type `ocn` among four blocks is found from the start; after it the next one; -/
example (h : Hdr Nat) : gotoNext exDate (⟨[], 5, 4, 0, 0, []⟩ : Aod Nat) .ocn
    (At (blocksText ([exBlock .atm] ++ exBlock .ocn :: [exBlock .glo, exBlock .ocn]))) h
    = .ok (0, At (unlines (exBlock .ocn).lines ++ blocksText [exBlock .glo, exBlock .ocn]), (exBlock .ocn).hdr) :=
  goto_begin_partial exDate _ .ocn [exBlock .atm] [exBlock .glo, exBlock .ocn] (exBlock .ocn)
    (by intro x hx; simp at hx; rcases hx with rfl | rfl <;> exact exBlock_ok _) (by simp) (by simp)
    (by intro x hx; rw [List.mem_singleton.mp hx]; exact (by decide : Ty.atm ≠ .ocn)) rfl h

example (h : Hdr Nat) : gotoNext exDate (⟨[], 5, 4, 0, 0, []⟩ : Aod Nat) .ocn (At (blocksText [exBlock .glo, exBlock .ocn])) h
    = .ok (0, At (unlines (exBlock .ocn).lines ++ blocksText ([] : List (Block Nat))), (exBlock .ocn).hdr) :=
  (goto_next_partial exDate (⟨[], 5, 4, 0, 0, []⟩ : Aod Nat) .ocn [exBlock .glo, exBlock .ocn]
    (by intro x hx; simp at hx; rcases hx with rfl | rfl <;> exact exBlock_ok _) (by simp) h).1 [exBlock .glo] (exBlock .ocn) []
    rfl (by intro x hx; rw [List.mem_singleton.mp hx]; exact (by decide : Ty.glo ≠ .ocn)) rfl

/-- A file with one block: its block is not found. -/
example (h : Hdr Nat) : ∃ s' h', gotoNext exDate (⟨[], 5, 1, 0, 0, []⟩ : Aod Nat) .atm (At (blocksText ([] ++ [exBlock .atm]))) h
    = .ok (1, s', h') :=
  goto_fails exDate _ .atm [] (exBlock .atm) (by intro x hx; simp at hx; subst hx; exact exBlock_ok _) (by simp) (by simp) h

/-! ### C36 -/

/-- C36: a tidal file with both blocks is read into sets that are large enough: both hold the values of the file within
the request. -/
theorem tidal_complete (a : Aod T) (cc cs : Coeffs ℝ) (maxDegree maxOrder : Int) {cosRows sinRows : List Row} {tail : List Char}
    (hf : TidalFile true (request a maxDegree) (request a maxOrder) a.text cosRows sinRows tail)
    (hmn : request a maxOrder ≤ request a maxDegree) (hna : request a maxDegree ≤ a.maxDegree)
    (hc : request a maxDegree ≤ cc.deg ∧ request a maxOrder ≤ cc.ord ∧ cc.deg < cc.rows)
    (hs : request a maxDegree ≤ cs.deg ∧ request a maxOrder ≤ cs.ord ∧ cs.deg < cs.rows)
    (htc : ∀ r ∈ cosRows, r.In (request a maxDegree) (request a maxOrder) → r.Triangle)
    (hts : ∀ r ∈ sinRows, r.In (request a maxDegree) (request a maxOrder) → r.Triangle) :
    ∃ cc' cs', getTidal a cc cs maxDegree maxOrder = .ok (0, cc', cs') ∧
      Holds (request a maxDegree) (request a maxOrder) cosRows cc.rows cc' ∧
      Holds (request a maxDegree) (request a maxOrder) sinRows cs.rows cs' := by
  obtain ⟨hd, lc, ls, h1, h2, h3, h4, h5, h6⟩ := hf
  refine ⟨_, _, ?_, foldl_holds cosRows htc cc _, foldl_holds sinRows hts cs _⟩
  unfold getTidal
  have hh : skipHeader a (In.start a.text) = (0, At (unlines lc ++ (unlines ls ++ tail))) := skipHeader_ok h1 h2 h6 _ rfl
  simp only [hh]
  rw [if_neg (by omega), if_neg (by omega)]
  generalize request a maxDegree = n at *
  generalize request a maxOrder = m at *
  have hhas : ∀ (co : Coeffs ℝ) (rows : List Row), n ≤ co.deg ∧ m ≤ co.ord ∧ co.deg < co.rows →
      (∀ r ∈ rows, r.In n m → r.Triangle) → ∀ r ∈ rows, r.In n m → co.clear.Has r.n r.m := by
    intro co rows hco ht r hr hin
    obtain ⟨t1, t2⟩ := ht r hr hin
    refine ⟨t1, t2, ?_⟩
    have := hin.1
    simp only [Coeffs.clear]; omega
  rw [tidalBlock_ok nr_cos h3 (hhas cc _ hc htc)]
  simp only [Res.bind]
  rw [if_neg (by simp), tidalBlock_ok nr_sin h4 (hhas cs _ hs hts)]
  simp only []
  rw [if_neg (by simp), if_pos (eof_tail.mpr h5)]

/-- C36: whenever reading a tidal file succeeds, the file has a header, the two blocks with the announced number of lines,
each holding a record, and nothing after them but one line that is not ended; both sets hold the values of the file within
the request and zero elsewhere. Missing: that this last line is empty, see `tidal_trailing_fails`. -/
theorem tidal_sound_partial (a : Aod T) (cc cs : Coeffs ℝ) (maxDegree maxOrder : Int) {cc' cs' : Coeffs ℝ}
    (h : getTidal a cc cs maxDegree maxOrder = .ok (0, cc', cs')) :
    ∃ cosRows sinRows tail,
      TidalFile false (request a maxDegree) (request a maxOrder) a.text cosRows sinRows tail ∧
      request a maxOrder ≤ request a maxDegree ∧ request a maxDegree ≤ a.maxDegree ∧
      (∀ r ∈ cosRows ++ sinRows, r.In (request a maxDegree) (request a maxOrder) → r.Triangle) ∧
      cc'.deg = cc.deg ∧ cc'.ord = cc.ord ∧ cc'.rows = cc.rows ∧ cs'.deg = cs.deg ∧ cs'.ord = cs.ord ∧ cs'.rows = cs.rows ∧
      Holds (request a maxDegree) (request a maxOrder) cosRows cc.rows cc' ∧
      Holds (request a maxDegree) (request a maxOrder) sinRows cs.rows cs' := by
  unfold getTidal at h
  rcases hk : skipHeader a (In.start a.text) with ⟨e, s0⟩
  cases e with
  | succ e => simp [hk] at h
  | zero =>
    simp only [hk] at h
    generalize hn : request a maxDegree = n at *
    generalize hm : request a maxOrder = m at *
    split at h
    · simp at h
    rename_i hmn
    split at h
    · simp at h
    cases h1 : tidalBlock "DATA SET 01:".toList "COEFFICIENTS OF TYPE cos".toList n m s0 cc.clear with
    | ok v =>
      obtain ⟨e1, s1, c1⟩ := v
      simp only [h1, Res.bind] at h
      split at h
      · simp at h
      rename_i he1
      have he1 : e1 = 0 := by omega
      subst he1
      cases h2 : tidalBlock "DATA SET 02:".toList "COEFFICIENTS OF TYPE sin".toList n m s1 cs.clear with
      | ok v =>
        obtain ⟨e2, s2, c2⟩ := v
        simp only [h2] at h
        split at h
        · simp at h
        rename_i he2
        have he2 : e2 = 0 := by omega
        subst he2
        simp only [Res.ok.injEq, Prod.mk.injEq] at h
        obtain ⟨h3, rfl, rfl⟩ := h
        obtain ⟨lc, rc, b1, b2, b3, b4, b5⟩ := tidalBlock_sound nr_cos h1
        obtain ⟨ls, rs, d1, d2, d3, d4, d5⟩ := tidalBlock_sound nr_sin h2
        have hs0 : s0.good = true := by rw [b2]; rfl
        obtain ⟨hd, f1, f2, f3, f4⟩ := skipHeaderLoop_sound 99 _ _ hk hs0
        have hto : (s2.getline 124).2.2.eof = true := by
          by_contra hne; rw [if_neg hne] at h3; cases h3
        rw [d3, eof_tail] at hto
        have htc : ∀ r ∈ rc, r.In n m → r.Triangle := fun r hr hin => has_triangle (b5 r hr hin)
        have hts : ∀ r ∈ rs, r.In n m → r.Triangle := fun r hr hin => has_triangle (d5 r hr hin)
        refine ⟨rc, rs, s2.rest, ⟨hd, lc, ls, f1, f2, b1, d1, hto, ?_⟩, by omega, by omega, ?_, ?_⟩
        · have e0 : a.text = unlines hd ++ s0.rest := by
            have := congrArg In.rest f3
            simpa [In.start, In.seek0, At] using this
          have e1 : s0.rest = unlines lc ++ s1.rest := by rw [b2]; rfl
          have e2 : s1.rest = unlines ls ++ s2.rest := by rw [d2]; rfl
          rw [e0, e1, e2]
        · intro r hr hin
          rcases List.mem_append.mp hr with hr | hr
          · exact htc r hr hin
          · exact hts r hr hin
        · subst b4 d4
          obtain ⟨x1, x2, x3, -⟩ := foldl_dims n m rc cc.clear
          obtain ⟨y1, y2, y3, -⟩ := foldl_dims n m rs cs.clear
          exact ⟨x2, x3, x1, y2, y3, y1, foldl_holds rc htc cc _, foldl_holds rs hts cs _⟩
      | ub => simp only [h2] at h; cases h
      | abort => simp only [h2] at h; cases h
      | throw => simp only [h2] at h; cases h
    | ub => simp only [h1, Res.bind] at h; cases h
    | abort => simp only [h1, Res.bind] at h; cases h
    | throw => simp only [h1, Res.bind] at h; cases h

/-- The lines of a small tidal file. -/
def exTidal (tail : List Char) : List Char :=
  unlines ["SOME HEADER".toList, "END OF HEADER".toList] ++ (unlines ["DATA SET 01:  1 COEFFICIENTS OF TYPE cos".toList, "0 0 1.5 0".toList] ++
    (unlines ["DATA SET 02:  1 COEFFICIENTS OF TYPE sin".toList, "0 0 2 0".toList] ++ tail))

theorem exTidal_file (tail : List Char) (ht : ShortLine tail) (n m : Int := 0) :
    TidalFile true n m (exTidal tail) [⟨0, 0, 3/2, 0⟩] [⟨0, 0, 2, 0⟩] tail := by
  refine ⟨_, _, _, ⟨["SOME HEADER".toList], "END OF HEADER".toList, rfl, by unfold ShortLine; decide, by unfold ShortLine; decide, by decide⟩,
    by decide, ⟨_, 1, _, rfl, by unfold ShortLine; decide,
      ⟨"  1 COEFFICIENTS OF TYPE cos".toList, 1, [], rfl,
        ⟨"  ".toList, ⟨false, ['1']⟩, by decide, ⟨by decide, by decide⟩, rfl, rfl, by decide, by decide, by decide⟩⟩, rfl, .cons ?_ .nil⟩,
    ⟨_, 1, _, rfl, by unfold ShortLine; decide,
      ⟨"  1 COEFFICIENTS OF TYPE sin".toList, 1, [], rfl,
        ⟨"  ".toList, ⟨false, ['1']⟩, by decide, ⟨by decide, by decide⟩, rfl, rfl, by decide, by decide, by decide⟩⟩, rfl, .cons ?_ .nil⟩,
    ht, rfl⟩
  · exact ⟨" 0 1.5 0".toList, " 1.5 0".toList,
      ⟨[], ⟨false, ['0']⟩, by decide, ⟨by decide, by decide⟩, rfl, rfl, by decide, by decide, by decide⟩,
      ⟨" ".toList, ⟨false, ['0']⟩, by decide, ⟨by decide, by decide⟩, rfl, rfl, by decide, by decide, by decide⟩,
      fun _ => ⟨" 0".toList, [],
        ⟨" ".toList, ⟨false, ['1'], some ['5'], none⟩, by decide, Dec.ok_of (by decide), by decide +kernel, rfl,
          fun _ => by unfold Ends; decide⟩,
        ⟨" ".toList, ⟨false, ['0'], none, none⟩, by decide, Dec.ok_of (by decide), by decide +kernel, rfl,
          fun _ => by unfold Ends; decide⟩⟩⟩
  · exact ⟨" 0 2 0".toList, " 2 0".toList,
      ⟨[], ⟨false, ['0']⟩, by decide, ⟨by decide, by decide⟩, rfl, rfl, by decide, by decide, by decide⟩,
      ⟨" ".toList, ⟨false, ['0']⟩, by decide, ⟨by decide, by decide⟩, rfl, rfl, by decide, by decide, by decide⟩,
      fun _ => ⟨" 0".toList, [],
        ⟨" ".toList, ⟨false, ['2'], none, none⟩, by decide, Dec.ok_of (by decide), by decide +kernel, rfl,
          fun _ => by unfold Ends; decide⟩,
        ⟨" ".toList, ⟨false, ['0'], none, none⟩, by decide, Dec.ok_of (by decide), by decide +kernel, rfl,
          fun _ => by unfold Ends; decide⟩⟩⟩

theorem exTidal_read (tail : List Char) (ht : ShortLine tail) (x : Nat → Nat → ℝ) :
    ∃ cc' cs', getTidal (⟨exTidal tail, 3, 2, (), (), []⟩ : Aod Unit) ⟨3, 3, 4, x, x, 1, 1, true⟩ ⟨3, 3, 4, x, x, 1, 1, true⟩ 0 0
      = .ok (0, cc', cs') ∧ cc'.C 0 0 = 3 / 2 ∧ cs'.C 0 0 = 2 ∧ cs'.C 3 1 = 0 := by
  have e : request (⟨exTidal tail, 3, 2, (), (), []⟩ : Aod Unit) 0 = 0 := rfl
  obtain ⟨cc', cs', h, hc, hs⟩ := tidal_complete (⟨exTidal tail, 3, 2, (), (), []⟩ : Aod Unit) ⟨3, 3, 4, x, x, 1, 1, true⟩
    ⟨3, 3, 4, x, x, 1, 1, true⟩ 0 0 (by rw [e]; exact exTidal_file tail ht) (by simp) (by simp [e]) (by simp [e]) (by simp [e])
    (by simp [Row.Triangle]) (by simp [Row.Triangle])
  rw [e] at hc hs
  refine ⟨cc', cs', h, ?_, ?_, ?_⟩
  · rw [(hc 0 0 (by omega) (by simp)).1]; simp [lastValue, Row.In]
  · rw [(hs 0 0 (by omega) (by simp)).1]; simp [lastValue, Row.In]
  · rw [(hs 3 1 (by omega) (by simp)).1]; simp [lastValue, Row.In]

/-- The small file is read. -/
example (x : Nat → Nat → ℝ) : ∃ cc' cs', getTidal (⟨exTidal [], 3, 2, (), (), []⟩ : Aod Unit) ⟨3, 3, 4, x, x, 1, 1, true⟩
    ⟨3, 3, 4, x, x, 1, 1, true⟩ 0 0 = .ok (0, cc', cs') ∧ cc'.C 0 0 = 3 / 2 ∧ cs'.C 0 0 = 2 ∧ cs'.C 3 1 = 0 :=
  exTidal_read [] (by unfold ShortLine; decide) x

/-- C36 fails: text after the second block is accepted if its line is not ended. -/
theorem tidal_trailing_fails (x : Nat → Nat → ℝ) :
    ∃ cc' cs', getTidal (⟨exTidal "DATA SET 03: more".toList, 3, 2, (), (), []⟩ : Aod Unit) ⟨3, 3, 4, x, x, 1, 1, true⟩
      ⟨3, 3, 4, x, x, 1, 1, true⟩ 0 0 = .ok (0, cc', cs') := by
  obtain ⟨cc', cs', h, _⟩ := exTidal_read "DATA SET 03: more".toList (by unfold ShortLine; decide) x
  exact ⟨cc', cs', h⟩

/-- C36 fails: a file that ends after its header is not reported; the buffer is read beyond the end of the text in it. -/
theorem tidal_empty_fails (hd : List (List Char)) (h : FileHeader hd) (hl : hd.length ≤ 99) (n s : Int) (t t' : T)
    (name : List Char) (cc cs : Coeffs ℝ) (hn : 0 ≤ n) (hc : n ≤ cc.deg ∧ n ≤ cc.ord) (hs : n ≤ cs.deg ∧ n ≤ cs.ord) :
    getTidal (⟨unlines hd, n, s, t, t', name⟩ : Aod T) cc cs n n = .ub := by
  unfold getTidal
  have hh : skipHeader (⟨unlines hd, n, s, t, t', name⟩ : Aod T) (In.start (unlines hd)) = (0, At []) :=
    skipHeader_ok h hl (by simp) _ rfl
  have e : ¬ n < 0 := by omega
  simp only [hh, request, if_neg e]
  rw [if_neg (by omega), if_neg (by omega)]
  rfl

example (x : Nat → Nat → ℝ) : getTidal (⟨unlines ["END OF HEADER".toList], 2, 2, (), (), []⟩ : Aod Unit) ⟨3, 3, 4, x, x, 1, 1, true⟩
    ⟨3, 3, 4, x, x, 1, 1, true⟩ 2 2 = .ub :=
  tidal_empty_fails ["END OF HEADER".toList] ⟨[], _, rfl, by simp, by unfold ShortLine; decide, by decide⟩ (by decide) 2 2 () ()
    [] _ _ (by omega) (by simp) (by simp)

/-! ### C32 -/

/-- The two digits of a release. -/
theorem twoDigits_ok : ∀ rl : Fin 100, (twoDigits rl).length = 2 ∧ fromCharsInt (twoDigits rl) = some (((rl : Nat) : Int), []) ∧
    '/' ∉ twoDigits rl ∧ '\x00' ∉ twoDigits rl := by decide +kernel

/-- The plain name. -/
def plainName (date : List Char) (rl : Nat) (sat : Char) : List Char :=
  "AOD1B_".toList ++ date ++ ['_', sat, '_'] ++ twoDigits rl ++ ".asc".toList

theorem filename_cstr (date : List Char) (hd : date.length = 10) (hz : '\x00' ∉ date) (rl : Nat) (hr : rl ≤ 99) (sat : Char)
    (hsz : sat ≠ '\x00') (gz : Bool) (old : List Char) (ho : 31 ≤ old.length) :
    ∃ buf, filename date rl sat gz old = .ok buf ∧ cstr buf = plainName date rl sat := by
  obtain ⟨h1, h2, h3, h4⟩ := twoDigits_ok ⟨rl, by omega⟩
  simp only at h1 h2 h3 h4
  have hp0 : '\x00' ∉ plainName date rl sat := by
    unfold plainName
    simp only [List.mem_append, not_or]
    exact ⟨⟨⟨⟨by decide, hz⟩, by simp [Ne.symm hsz]⟩, h4⟩, by decide⟩
  have hpl : (plainName date rl sat ++ ['\x00']).length = 26 := by
    unfold plainName; simp [hd, h1]
  have hcs : ∀ x, cstr (plainName date rl sat ++ ('\x00' :: x)) = plainName date rl sat := by
    intro x
    exact (takeWhile_run (p := fun c : Char => decide (c ≠ '\x00')) (b := '\x00' :: x) (by
      intro c hc; simp only [decide_eq_true_eq]; rintro rfl; exact hp0 hc) (by simp)).1
  unfold filename
  change ∃ buf, (if (plainName date rl sat ++ ['\x00']).length ≤ old.length then _ else _) = _ ∧ _
  rw [if_pos (by omega)]
  cases gz with
  | false =>
    refine ⟨_, rfl, ?_⟩
    change cstr ((plainName date rl sat ++ ['\x00']) ++ _) = _
    rw [List.append_assoc]
    exact hcs _
  | true =>
    simp only [if_true]
    change ∃ buf, (if 31 ≤ ((plainName date rl sat ++ ['\x00']) ++ old.drop (plainName date rl sat ++ ['\x00']).length).length then _ else _) = _ ∧ _
    rw [if_pos (by rw [List.length_append, List.length_drop]; omega)]
    refine ⟨_, rfl, ?_⟩
    change cstr (List.take 27 ((plainName date rl sat ++ ['\x00']) ++ _) ++ _ ++ _) = _
    rw [List.take_append, hpl, List.take_of_length_le (by omega), List.append_assoc, List.append_assoc, List.append_assoc]
    exact hcs _

/-- C32: the release read back from a path whose base name was written by `filename` is the release given. The buffer must
have room for 31 characters. Missing: the compressed name, see `filename_gz_fails`. -/
theorem release_round_trip_partial (date : List Char) (hd : date.length = 10) (hz : ∀ c ∈ date, c ≠ '\x00' ∧ c ≠ '/') (rl : Nat)
    (hr : rl ≤ 99) (sat : Char) (hs : sat ≠ '\x00' ∧ sat ≠ '/') (gz : Bool) (old : List Char) (ho : 31 ≤ old.length)
    (dir : List Char) :
    ∃ buf, filename date rl sat gz old = .ok buf ∧ resolveRl (dir ++ '/' :: cstr buf) = .ok rl := by
  obtain ⟨buf, h, hc⟩ := filename_cstr date hd (fun hm => (hz _ hm).1 rfl) rl hr sat hs.1 gz old ho
  refine ⟨buf, h, ?_⟩
  obtain ⟨h1, h2, h3, h4⟩ := twoDigits_ok ⟨rl, by omega⟩
  simp only at h1 h2 h3 h4
  have hp0 : '/' ∉ plainName date rl sat := by
    unfold plainName
    simp only [List.mem_append, not_or]
    exact ⟨⟨⟨⟨by decide, fun hm => (hz _ hm).2 rfl⟩, by simp [Ne.symm hs.2]⟩, h3⟩, by decide⟩
  have hb : basename (dir ++ '/' :: plainName date rl sat) = some (plainName date rl sat) := by
    unfold basename
    rw [if_pos (by simp)]
    congr 1
    rw [List.reverse_append, List.reverse_cons, List.append_assoc]
    rw [(takeWhile_run (p := fun c : Char => decide (c ≠ '/')) (a := (plainName date rl sat).reverse) (b := ['/'] ++ dir.reverse) (by
      intro c hc; simp only [decide_eq_true_eq]; rintro rfl; exact hp0 (by simpa using hc)) (by simp)).1, List.reverse_reverse]
  rw [hc]
  unfold resolveRl
  rw [hb]
  have hpl : (plainName date rl sat).length = 25 := by unfold plainName; simp [hd, h1]
  have hpre : ("AOD1B_".toList ++ date ++ ['_', sat, '_']).length = 19 := by simp [hd]
  have hdr : ((plainName date rl sat).drop 19).take 2 = twoDigits rl := by
    unfold plainName
    rw [List.append_assoc, List.drop_left' hpre, List.take_left' h1]
  simp only []
  rw [if_neg (by omega), hdr, h2]

example : ∃ buf, filename "2008-07-03".toList 6 'X' false (List.replicate 64 'q') = .ok buf ∧
    resolveRl ("/data/aod".toList ++ '/' :: cstr buf) = .ok 6 :=
  release_round_trip_partial _ rfl (by decide) 6 (by omega) 'X' (by decide) false _ (by simp) _

/-- C32 fails: the compressed name is the plain name (the suffix is written behind the terminating zero). -/
theorem filename_gz_fails (date : List Char) (hd : date.length = 10) (hz : '\x00' ∉ date) (rl : Nat) (hr : rl ≤ 99) (sat : Char)
    (hsz : sat ≠ '\x00') (old : List Char) (ho : 31 ≤ old.length) :
    ∃ buf buf', filename date rl sat true old = .ok buf ∧ filename date rl sat false old = .ok buf' ∧ cstr buf = cstr buf' ∧
      cstr buf ≠ cstr buf' ++ ".gz".toList := by
  obtain ⟨buf, h, hc⟩ := filename_cstr date hd hz rl hr sat hsz true old ho
  obtain ⟨buf', h', hc'⟩ := filename_cstr date hd hz rl hr sat hsz false old ho
  refine ⟨buf, buf', h, h', hc.trans hc'.symm, ?_⟩
  intro e
  rw [hc, hc'] at e
  have := congrArg List.length e
  simp at this

example : ∃ buf buf', filename "2008-07-03".toList 6 'X' true (List.replicate 64 'q') = .ok buf ∧
    filename "2008-07-03".toList 6 'X' false (List.replicate 64 'q') = .ok buf' ∧ cstr buf = cstr buf' ∧
    cstr buf ≠ cstr buf' ++ ".gz".toList :=
  filename_gz_fails _ rfl (by decide) 6 (by omega) 'X' (by decide) _ (by simp)

/-- C32 fails: a path without a directory (a file name alone) is not decoded. -/
theorem release_no_dir_fails (name : List Char) (h : '/' ∉ name) : resolveRl name = .ub := by
  unfold resolveRl basename
  rw [if_neg h]

example : resolveRl "AOD1B_2008-07-03_X_06.asc".toList = .ub := release_no_dir_fails _ (by decide)

end Verif.Aod1b
