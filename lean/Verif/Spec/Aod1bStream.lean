import Verif.Spec.Aod1b
import Verif.Model.Aod1bStream
/-
What a dealiasing stream should give: linear interpolation between adjacent data sets.
-/
namespace Verif.Aod1b
open Verif.Chars Verif.Icgem

/-- A data set: an epoch and records. -/
structure DataSet (T : Type) where
  epoch : T
  rows : List Row

variable {T : Type}

/-- The block holds the data set: each of its lines is a record, and degree and order `n` are reached. -/
def SetOf (n : Int) (b : Block T) (s : DataSet T) : Prop :=
  b.hdr.epoch = s.epoch ∧ List.Forall₂ (RowLine true sep1 n n) b.lines s.rows ∧ (∀ r ∈ s.rows, r.In n n → r.Triangle) ∧
    Top n n Row.n s.rows n ∧ Top n n Row.m s.rows n

/-- The blocks of a type, among some blocks, hold these data sets. -/
def SetsOf (n : Int) (ty : Ty) (bs : List (Block T)) (sets : List (DataSet T)) : Prop :=
  List.Forall₂ (SetOf n) (bs.filter fun b => decide (b.hdr.type = ty)) sets

/-- The file has a header and well-formed blocks, as many as announced; those of type `ty` hold `sets`. -/
def FileOf (date : List Char → Option (T × List Char)) (ty : Ty) (a : Aod T) (sets : List (DataSet T)) : Prop :=
  ∃ hd bs, FileHeader hd ∧ hd.length ≤ 99 ∧ a.text = unlines hd ++ blocksText bs ∧ (∀ b ∈ bs, Block.Ok date b) ∧
    a.numSets = bs.length ∧ 0 ≤ a.maxDegree ∧ SetsOf a.maxDegree ty bs sets

/-- The epochs of the data sets increase; none is the mark for the end. -/
def Chron [LinearOrder T] (min : T) (sets : List (DataSet T)) : Prop :=
  sets.Pairwise (fun s s' => s.epoch < s'.epoch) ∧ ∀ s ∈ sets, min < s.epoch

/-- One data set follows the other. -/
def Adjacent (sets : List (DataSet T)) (s1 s2 : DataSet T) : Prop := ∃ p q, sets = p ++ s1 :: s2 :: q

/-- The value at `t` of the line through the values `v1`, `v2` at two epochs. -/
noncomputable def lineAt (day : T → ℝ) (t e1 e2 : T) (v1 v2 : ℝ) : ℝ := v1 + (v2 - v1) * ((day t - day e1) / (day e2 - day e1))

/-- `cs'` has the size of `cs` and holds the values at `t` of the lines through the values of two data sets. -/
def OnLine (day : T → ℝ) (n : Int) (t : T) (s1 s2 : DataSet T) (cs cs' : Coeffs ℝ) : Prop :=
  cs'.deg = cs.deg ∧ cs'.ord = cs.ord ∧ cs'.rows = cs.rows ∧ ∀ l m : Nat, m ≤ l → (l : Int) ≤ cs.deg → (m : Int) ≤ cs.ord →
    cs'.C l m = lineAt day t s1.epoch s2.epoch (lastValue n n Row.C s1.rows l m) (lastValue n n Row.C s2.rows l m) ∧
    cs'.S l m = lineAt day t s1.epoch s2.epoch (lastValue n n Row.S s1.rows l m) (lastValue n n Row.S s2.rows l m)

/-- `cs'` is interpolated at `t` between adjacent data sets around `t`. -/
def Interpolated [LinearOrder T] (day : T → ℝ) (n : Int) (sets : List (DataSet T)) (t : T) (cs cs' : Coeffs ℝ) : Prop :=
  ∃ s1 s2, Adjacent sets s1 s2 ∧ s1.epoch ≤ t ∧ t < s2.epoch ∧ OnLine day n t s1 s2 cs cs'

/-- A set that can take the result. -/
def Fits (n : Int) (cs : Coeffs ℝ) : Prop := cs.deg ≤ n ∧ cs.deg < cs.rows

/-- A set as the constructor of the stream makes it: degree and order `n`. -/
def Room (n : Int) (c : Coeffs ℝ) : Prop := c.deg = n ∧ c.ord = n ∧ (c.rows : Int) = n + 1

/-- The number of data sets with an epoch not after `t`. -/
def position [LinearOrder T] (sets : List (DataSet T)) (t : T) : Nat := (sets.filter fun s => decide (s.epoch ≤ t)).length

/-- Queries that do not run ahead: each lies between the first and the last data set; it is among the first four data sets
or in the interval of the query before (whose position is `p`) or the next one. -/
def Steps [LinearOrder T] (sets : List (DataSet T)) : Nat → List T → Prop
  | _, [] => True
  | p, t :: ts => 1 ≤ position sets t ∧ position sets t < sets.length ∧
      (position sets t ≤ 3 ∨ position sets t = p ∨ position sets t = p + 1) ∧ Steps sets (position sets t) ts

/-- Queries that go forward, at most one interval at a time. -/
def Forward [LinearOrder T] (sets : List (DataSet T)) : Nat → List T → Prop
  | _, [] => True
  | p, t :: ts => position sets t < sets.length ∧ (position sets t = p ∨ position sets t = p + 1) ∧
      Forward sets (position sets t) ts

/-- The files that follow one another, with the data sets of all of them after the first. -/
inductive Files (date : List Char → Option (T × List Char)) (ty : Ty) (feed : Aod T → Res (Option (Aod T))) :
    Aod T → List (DataSet T) → Prop where
  | last {a} : Files date ty feed a []
  | next {a a' sets later} : feed a = .ok (some a') → FileOf date ty a' sets → 2 ≤ sets.length → a'.maxDegree = a.maxDegree →
      Files date ty feed a' later → Files date ty feed a (sets ++ later)

/-- A stream as its constructor makes it: three sets with the degree of the file. -/
def Ds.New (d : Ds T) : Prop := Room d.a.maxDegree d.c0 ∧ Room d.a.maxDegree d.c1 ∧ Room d.a.maxDegree d.c2

end Verif.Aod1b
