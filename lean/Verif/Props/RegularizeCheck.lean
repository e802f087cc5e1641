import Verif.Model.RegularizeCheck
import Verif.Spec.RegularizeCheck
import Verif.Props.RoundedEopTides
import Verif.Props.Orient
/-
C131: the check that removing and adding the zonal tides undo each other, in double precision.
-/
namespace Verif.RegularizeCheck
open Verif Verif.Rounded Verif.Rounding Verif.Eop Verif.RoundedEopTides
open Verif.Angle (sec2rad)
open Verif.Fundarg (lPoly lpPoly fPoly dPoly omPoly)
open Verif.Orient (centuries zonalUT1 zonalLod)

theorem compare_ok {p : Rec ℝ → Rec ℝ → Prop} {as bs : List (Rec ℝ)} (h : List.Forall₂ p as bs) : compare p as bs = .ok () := by
  induction h with
  | nil => rfl
  | cons h _ ih => rw [compare, if_pos h, ih]

theorem compare_abort {p : Rec ℝ → Rec ℝ → Prop} : ∀ {as bs : List (Rec ℝ)}, as.length = bs.length → ¬ List.Forall₂ p as bs → compare p as bs = .abort
  | [], [], _, h => absurd .nil h
  | a :: as, b :: bs, hl, h => by
    rw [compare]
    by_cases hp : p a b
    · rw [if_pos hp]
      exact compare_abort (by simpa using hl) fun h' => h (.cons hp h')
    · rw [if_neg hp]

theorem both {p q : Rec ℝ → Rec ℝ → Prop} {as bs : List (Rec ℝ)} (h : List.Forall₂ p as bs) (h' : List.Forall₂ q as bs) :
    List.Forall₂ (fun a b => p a b ∧ q a b) as bs := by
  induction h with
  | nil => exact .nil
  | cons h _ ih =>
    cases h' with
    | cons h1 h2 => exact .cons ⟨h, h1⟩ (ih h2)

theorem tides (T : ℝ) :
    let Z := EopTides.deopZonalTide ![sec2rad (lPoly T), sec2rad (lpPoly T), sec2rad (fPoly T), sec2rad (dPoly T), sec2rad (omPoly T)]
    Z.dut1 * 1e-6 = zonalUT1 T ∧ Z.dlod * 1e-6 = zonalLod T := by
  intro Z
  have h : EopTides.deopZonalTide (Orient.fundarg T) = Z := by
    rw [Orient.fundarg_eq, EopTides.zonal_turns (EopTides.fargsAt_cong T)]
    rfl
  rw [← h]
  exact ⟨Orient.zonal_ut1 T, Orient.zonal_lod T⟩

theorem close_accepted {fl : Arith} (hf : Faithful fl) {x : ℝ} (h : |x| ≤ 4e-16) : |fl x| < lit fl 1e-15 := by
  have hu := u_pos
  have hul := u_lt
  have h1 := abs_fl hf h
  have h2 := (abs_le.mp (App.lit hf (1e-15) (M := 1e-15) (by norm_num)).2).1
  nlinarith

theorem compare_iff {p : Rec ℝ → Rec ℝ → Prop} {as bs : List (Rec ℝ)} (hl : as.length = bs.length) : compare p as bs = .ok () ↔ List.Forall₂ p as bs := by
  refine ⟨fun h => ?_, compare_ok⟩
  by_contra hn
  rw [compare_abort hl hn] at h
  simp at h

theorem same_iff {a b : Rec ℝ} : same a b ↔ Kept a b := by
  unfold same Kept
  simp only [Prod.mk.injEq]
  tauto

/-- C131: the assertions after the removal hold for two series of the same length exactly if UT1 and length of day of all records differ and
the rest is the same. -/
theorem removed_assertions {as bs : List (Rec ℝ)} (hl : as.length = bs.length) :
    compare first as bs = .ok () ↔ List.Forall₂ Kept as bs ∧ Changed bs as := by
  rw [compare_iff hl]
  constructor
  · intro h
    exact ⟨h.imp fun _ _ x => same_iff.mp x.1, (h.imp fun _ _ x => x.2).flip⟩
  · rintro ⟨h1, h2⟩
    exact (both h1 h2.flip).imp fun _ _ x => ⟨same_iff.mpr x.1, x.2⟩

/-- C131: the assertions after the return hold for no two series of the same length in which UT1 or length of day differ by more than
1.000000001e-15 s or something else is not the same, and for all that agree to 0.999999999e-15 s. -/
theorem restored_assertions {fl : Arith} (hf : Faithful fl) {as bs : List (Rec ℝ)} (hl : as.length = bs.length) :
    (compare (second fl) as bs = .ok () → List.Forall₂ (Alike 1.000000001e-15) as bs) ∧
    (List.Forall₂ (Alike 0.999999999e-15) as bs → compare (second fl) as bs = .ok ()) := by
  rw [compare_iff hl]
  have hu := u_pos
  have hul := u_lt
  obtain ⟨l1, l2⟩ := abs_le.mp (App.lit hf (1e-15) (M := 1e-15) (by norm_num)).2
  have down : ∀ {x : ℝ}, |fl x| < lit fl 1e-15 → |x| ≤ 1.000000001e-15 := fun {x} h => by
    have h1 := (App.exact (x := x)).fl hf
    have h2 := abs_le.mp h1.2
    have h3 : |x| ≤ |fl x| + u * |x| := by
      have := abs_sub_abs_le_abs_sub x (fl x)
      rw [abs_sub_comm] at this
      have h4 := h1.2
      simp only [zero_add, add_zero] at h4
      linarith
    have h0 := abs_nonneg x
    nlinarith
  have up : ∀ {x : ℝ}, |x| ≤ 0.999999999e-15 → |fl x| < lit fl 1e-15 := fun {x} h => by
    have h1 := abs_fl hf h
    nlinarith
  constructor
  · exact fun h => h.imp fun _ _ x => ⟨same_iff.mp x.1, down x.2.1, down x.2.2⟩
  · exact fun h => h.imp fun _ _ x => ⟨same_iff.mpr x.1, up x.2.1, up x.2.2⟩

open Classical in
/-- C131: for nine records the program succeeds exactly if removing the zonal tides changes UT1 and length of day of every record. No other
assertion fails: whatever the rounding, removing and adding gives the values back to the tolerance of the check. -/
theorem regularize_check {fl : Arith} {fsin fcos s2r cents : ℝ → ℝ} (hf : Faithful fl) (hT : Trig fsin fcos) (hs : SecToRad s2r) {s : Series ℝ}
    (hn : s.vec.length = 9) (h : Ordinary cents s.vec) :
    program fl fsin fcos s2r cents s = if Changed s.vec (regularize fl fsin fcos s2r cents s).vec then .ok 0 else .abort := by
  unfold program
  rw [if_neg (by simp [hn])]
  have hc : (regularize fl fsin fcos s2r cents s.copy).vec = (regularize fl fsin fcos s2r cents s).vec := rfl
  have hr := (regularize_rounded (cents := cents) hf hT hs s h).1
  have hb := regularize_back (cents := cents) hf hT hs s h
  have hd : (deregularize fl fsin fcos s2r cents (regularize fl fsin fcos s2r cents s.copy)).vec =
    (deregularize fl fsin fcos s2r cents (regularize fl fsin fcos s2r cents s)).vec := rfl
  simp only
  rw [hc, hd]
  have h2 : compare (second fl) (deregularize fl fsin fcos s2r cents (regularize fl fsin fcos s2r cents s)).vec s.vec = .ok () := by
    refine compare_ok ((hb.imp fun r r' hrr => ?_).flip)
    obtain ⟨e, e1, e2⟩ := hrr
    refine ⟨?_, close_accepted hf e1, close_accepted hf (e2.trans (by norm_num))⟩
    rw [e]
    exact ⟨rfl, rfl, rfl, rfl, rfl⟩
  have h1 : List.Forall₂ first (regularize fl fsin fcos s2r cents s).vec s.vec ↔ Changed s.vec (regularize fl fsin fcos s2r cents s).vec := by
    constructor
    · intro h
      exact (h.imp fun _ _ x => x.2).flip
    · intro h
      refine ((both hr h).imp fun r r' hrr => ?_).flip
      refine ⟨?_, hrr.2⟩
      rw [hrr.1.1]
      exact ⟨rfl, rfl, rfl, rfl, rfl⟩
  by_cases hch : Changed s.vec (regularize fl fsin fcos s2r cents s).vec
  · rw [if_pos hch, compare_ok (h1.mpr hch)]
    simp only [Res.bind]
    rw [h2]
  · rw [if_neg hch, compare_abort hr.length_eq.symm fun x => hch (h1.mp x)]
    rfl

/-- C131: a series with any other number of records is not accepted. -/
theorem regularize_check_count {s : Series ℝ} (hn : s.vec.length ≠ 9) (fl : Arith) (fsin fcos s2r cents : ℝ → ℝ) :
    program fl fsin fcos s2r cents s = .abort := by
  unfold program
  rw [if_pos hn]

/-- C131: nine records pass, unless at one of the epochs the zonal tides nearly vanish: in UT1 they are at most 2.3e-12 s or in the length of
day at most 6e-14 s. -/
theorem regularize_check_passes {fl : Arith} {fsin fcos s2r cents : ℝ → ℝ} (hf : Faithful fl) (hT : Trig fsin fcos) (hs : SecToRad s2r) {s : Series ℝ}
    (hn : s.vec.length = 9) (h : Ordinary cents s.vec) :
    program fl fsin fcos s2r cents s = .ok 0 ∨ (program fl fsin fcos s2r cents s = .abort ∧
      ∃ r ∈ s.vec, |zonalUT1 (centuries r.t)| ≤ 2.3e-12 ∨ |zonalLod (centuries r.t)| ≤ 6e-14) := by
  classical
  rw [regularize_check hf hT hs hn h]
  by_cases hch : Changed s.vec (regularize fl fsin fcos s2r cents s).vec
  · exact Or.inl (if_pos hch)
  · refine Or.inr ⟨if_neg hch, ?_⟩
    by_contra hno
    push Not at hno
    refine hch ?_
    have hr := (regularize_rounded (cents := cents) hf hT hs s h).1
    refine ((List.forall₂_and_left _ _).mpr ⟨hno, hr⟩).imp fun r r' hrr => ?_
    obtain ⟨⟨n1, n2⟩, -, e1, e2⟩ := hrr
    obtain ⟨t1, t2⟩ := tides ((r.t - 51544.5) / 36525)
    rw [t1] at e1
    rw [t2] at e2
    refine ⟨fun e => ?_, fun e => ?_⟩
    · rw [e, sub_sub_cancel] at e1
      exact absurd e1 (not_le.mpr n1)
    · rw [e, sub_sub_cancel] at e2
      exact absurd e2 (not_le.mpr n2)

/-- Nine daily records with UT1-UTC between -0.25 s and 0.55 s, whichever products are fused. -/
example (f : ℕ → Bool) (r : Rec ℝ) (hl : r.lod = 0.001) :
    let S : Series ℝ := ⟨(List.range 9).map fun i : ℕ => { r with t := 57750 + i, dut := -0.25 + 0.1 * i }, 9, some 0⟩
    let c := fun t : ℝ => (t - 51544.5) / 36525
    let s2r := fun x : ℝ => x * (2 * Real.pi / 1296000)
    program (rnArith f) Real.sin Real.cos s2r c S = .ok 0 ∨ (program (rnArith f) Real.sin Real.cos s2r c S = .abort ∧
      ∃ r ∈ S.vec, |zonalUT1 (centuries r.t)| ≤ 2.3e-12 ∨ |zonalLod (centuries r.t)| ≤ 6e-14) := by
  intro S c s2r
  have hu := u_pos
  have hT : Trig Real.sin Real.cos := ⟨fun x => by simp [hu.le], fun x => by simp [hu.le]⟩
  refine regularize_check_passes (rn_faithful f) hT s2r_exact (by simp [S]) fun q hq => ?_
  obtain ⟨i, hi, rfl⟩ := List.mem_map.mp hq
  have h0 : (0 : ℝ) ≤ i := Nat.cast_nonneg i
  have h8 : (i : ℝ) ≤ 8 := by exact_mod_cast Nat.le_of_lt_succ (List.mem_range.mp hi)
  refine ⟨⟨by simp [c, hu.le], ?_⟩, ?_, ?_⟩
  · show |((57750 + (i : ℝ)) - 51544.5) / 36525| ≤ 1
    rw [abs_le]
    constructor <;> linarith
  · show |-0.25 + 0.1 * (i : ℝ)| ≤ 1
    rw [abs_le]
    constructor <;> linarith
  · show |r.lod| ≤ 0.01
    rw [hl]
    norm_num [abs_of_pos]

/-- A record whose UT1 comes back 2e-15 s off is not accepted, one that is 5e-16 s off is. -/
example {fl : Arith} (hf : Faithful fl) (r : Rec ℝ) : compare (second fl) [{ r with dut := r.dut + 2e-15 }] [r] ≠ .ok () ∧
    compare (second fl) [{ r with dut := r.dut + 5e-16 }] [r] = .ok () := by
  constructor
  · intro h
    cases (restored_assertions hf (by simp)).1 h with
    | cons h _ =>
      have := h.2.1
      simp only [add_sub_cancel_left] at this
      rw [abs_of_pos (by norm_num)] at this
      norm_num at this
  · refine (restored_assertions hf (by simp)).2 (.cons ⟨⟨rfl, rfl, rfl⟩, ?_, ?_⟩ .nil)
    · simp only [add_sub_cancel_left]
      rw [abs_of_pos (by norm_num)]
      norm_num
    · simp only [sub_self, abs_zero]
      norm_num

/-- A series that is changed in UT1 only does not meet the assertions after the removal; one that is changed in both does. -/
example (r : Rec ℝ) : compare first [{ r with dut := r.dut + 1 }] [r] ≠ .ok () ∧
    compare first [{ r with dut := r.dut + 1, lod := r.lod + 1 }] [r] = .ok () := by
  constructor
  · intro h
    cases ((removed_assertions (by simp)).mp h).2 with
    | cons h _ => exact h.2 rfl
  · exact (removed_assertions (by simp)).mpr ⟨.cons ⟨rfl, rfl, rfl⟩ .nil, .cons ⟨by simp, by simp⟩ .nil⟩

end Verif.RegularizeCheck
