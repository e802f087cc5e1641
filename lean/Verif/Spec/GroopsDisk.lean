import Verif.Spec.Groops
import Verif.Spec.Icgem
import Verif.Spec.IcgemHeader
import Verif.Spec.Tide
/-
The files of a GROOPS ocean tide model and the coefficients they stand for.
-/
namespace Verif.Groops
open Verif Verif.Doodson Verif.Tide Verif.Icgem Verif.Icgem.Head

/-- A gravity file: its header lines and what they set, its data lines and the records they hold. -/
structure Gfc (T : Type) where
  header : List (List Char)
  settings : List Setting
  errors : ErrorModel
  tail : List Char
  data : List (List Char)
  records : List (Record T)

variable {T : Type}

/-- The text of the file. -/
def Gfc.text (g : Gfc T) : List Char := unlines g.header ++ ("end_of_head".toList ++ g.tail ++ '\n' :: unlines g.data)

/-- The largest degree of its header. -/
def Gfc.maxDegree (g : Gfc T) : Int := lastOf Setting.maxDegree? 0 g.settings

/-- The gravitational constant and the radius of its header. -/
def Gfc.gm (g : Gfc T) : ℚ := lastOf Setting.gm? 0 g.settings
def Gfc.radius (g : Gfc T) : ℚ := lastOf Setting.radius? 0 g.settings

/-- The degree that is read if `md` is asked for; a negative number asks for all. -/
def Gfc.degree (g : Gfc T) (md : Int) : Int := if md < 0 then g.maxDegree else md

/-- The order that is read if `md` and `mo` are asked for. -/
def Gfc.order (g : Gfc T) (md mo : Int) : Int := if mo < 0 then g.degree md else mo

/-- The coefficient of degree `i` and order `j`: the sum of its records, if the order is asked for. -/
noncomputable def Gfc.value (g : Gfc T) (md mo : Int) (val : Record T → ℚ) (i j : Nat) : ℝ :=
  if (j : Int) ≤ g.order md mo then ((g.records.filter fun r => r.n = (i : Int) ∧ r.m = (j : Int)).map fun r => (val r : ℝ)).sum else 0

/-- The file is a well formed ICGEM file of static coefficients (version 1 or 2), from which this degree and order can be read;
its model name has less than 64 characters. -/
structure Gfc.Ok (cal : Cal T) (md mo : Int) (g : Gfc T) : Prop where
  header : Holds g.header g.settings
  short : g.header.length ≤ 1000
  errors : lastOf Setting.errors? none g.settings = some g.errors
  name : (lastOf Setting.modelName? [] g.settings).length < 64
  tail : '\n' ∉ g.tail ∧ g.tail.length + 11 < 256
  one : ∀ l ∈ g.data, '\n' ∉ l
  lines : List.Forall₂ (if lastOf Setting.format? false g.settings then GoodLine2 true cal g.errors else GoodLine1 true cal g.errors)
    g.data g.records
  static : ∀ r ∈ g.records, r.kind = .static
  triangle : ∀ r ∈ g.records, r.n ≤ g.degree md → r.m ≤ g.order md mo → 0 ≤ r.m ∧ r.m ≤ r.n
  order : 0 ≤ g.order md mo ∧ g.order md mo ≤ g.degree md
  degree : g.degree md ≤ g.maxDegree

/-- A record of the largest degree asked for is in the file. -/
def Gfc.Reaches (g : Gfc T) (md mo : Int) : Prop := ∃ r ∈ g.records, r.n = g.degree md ∧ r.m ≤ g.order md mo

/-- A record of the largest degree asked for, of the same order, is in the file. -/
def Gfc.Full (g : Gfc T) (md mo : Int) : Prop := ∃ r ∈ g.records, r.n = g.degree md ∧ r.m = g.degree md ∧ r.m ≤ g.order md mo

/-- A wave: Doodson number, the model and wave names that occur in the file names, the two file names, the two files. -/
structure Wave (T : Type) where
  d : DC
  model : List Int
  name : List Int
  cosName : List Int
  sinName : List Int
  cos : Gfc T
  sin : Gfc T

/-- The line of the file list holds the two names, in any order. -/
def Wave.Listed (w : Wave T) (line : List Int) : Prop :=
  line.length < 512 ∧ (TwoWords line w.cosName w.sinName ∨ TwoWords line w.sinName w.cosName)

/-- The two files are there, under names of the documented form. -/
structure Wave.Stored (cal : Cal T) (disk : List Int → Option (List Char)) (dir : List Int) (md mo : Int) (w : Wave T) : Prop where
  names : Canonical w.cosName w.model w.d w.name .cos ∧ Canonical w.sinName w.model w.d w.name .sin
  lengths : w.model.length < 48 ∧ w.name.length < 16
  paths : dir.length + w.cosName.length ≤ 246
  cosFile : disk (dir ++ bytes "/" ++ w.cosName) = some w.cos.text
  sinFile : disk (dir ++ bytes "/" ++ w.sinName) = some w.sin.text
  cosOk : w.cos.Ok cal md mo
  sinOk : w.sin.Ok cal md mo

/-- The wave at the angle `θ`. -/
noncomputable def Wave.at (w : Wave T) (md mo : Int) (val : Record T → ℚ) (θ : ℝ) (i j : Nat) : ℝ :=
  w.cos.value md mo val i j * Real.cos θ + w.sin.value md mo val i j * Real.sin θ

/-- The files of the waves, in the order of the list. -/
structure StoredModel [LinearOrder T] (cal : Cal T) (disk : List Int → Option (List Char)) (dir : List Int) (md mo : Int) (list : List (List Int))
    (waves : List (Wave T)) : Prop where
  listed : List.Forall₂ (fun line w => w.Listed line) list waves
  stored : ∀ w ∈ waves, w.Stored cal disk dir md mo
  distinct : waves.Pairwise fun w w' => ¬ SameMultipliers w.d w'.d
  some : waves ≠ []
  calendar : cal.min < cal.max

end Verif.Groops
