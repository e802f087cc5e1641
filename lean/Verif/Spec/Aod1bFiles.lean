import Verif.Spec.Aod1bStream
import Verif.Spec.Aod1bHeader
import Verif.Model.Aod1bFiles
/-
A directory with one AOD1B file per day, as the data centres distribute them.
-/
namespace Verif.Aod1b

/-- The name of the file of a day: `AOD1B_YYYY-MM-DD_X_RL.asc`. -/
def dayName (ymd : Int → List Char) (rl : Nat) (day : Int) : List Char :=
  "AOD1B_".toList ++ ymd day ++ "_X_".toList ++ [Char.ofNat (48 + rl / 10), Char.ofNat (48 + rl % 10)] ++ ".asc".toList

/-- A path to the name in the directory. -/
def inDir (dir name : List Char) : List Char :=
  if dir.getLast? = some '/' then dir ++ name else dir ++ '/' :: name

/-- The text is that of the file of a day: a header with degree `n`, the constants, the number of blocks, a first epoch and a last epoch on that
day, and the blocks; those of type `ty` hold `sets`. -/
def DayFileFrom {T : Type} (W : World T) (ty : Ty) (n : Int) (gm re : ℚ) (first : T) (day : Int) (text : List Char) (sets : List (DataSet T)) : Prop :=
  ∃ (lines : List (List Char)) (ss : List (Head.Setting T)) (bs : List (Block T)) (last : T),
    Head.Holds W.head.date W.head.addNs W.head.newYear W.head.unset lines ss ∧ lines.length ≤ 98 ∧
    Head.Once Head.Setting.agency? ss ∧ Head.Once Head.Setting.satellite? ss ∧ Head.Once Head.Setting.sensor? ss ∧
    Head.Once Head.Setting.level? ss ∧ Head.Once Head.Setting.pressure? ss ∧
    Head.lastOf Head.Setting.maxDegree? none ss = some n ∧
    Head.lastOf Head.Setting.dataSets? none ss = some (bs.length : Int) ∧
    Head.lastOf Head.Setting.gm? none ss = some gm ∧ Head.lastOf Head.Setting.radius? none ss = some re ∧
    Head.lastOf Head.Setting.first? W.head.unset ss = first ∧ Head.lastOf Head.Setting.last? W.head.unset ss = last ∧ W.mjd last = day ∧
    text = unlines (lines ++ ["END OF HEADER".toList]) ++ blocksText bs ∧
    (∀ b ∈ bs, Block.Ok W.date b) ∧ SetsOf n ty bs sets

/-- Such a file, whatever first epoch its header gives. -/
def DayFileWith {T : Type} (W : World T) (ty : Ty) (n : Int) (gm re : ℚ) (day : Int) (text : List Char) (sets : List (DataSet T)) : Prop :=
  ∃ first, DayFileFrom W ty n gm re first day text sets

/-- Such a file with some constants. -/
def DayFile {T : Type} (W : World T) (ty : Ty) (n : Int) (day : Int) (text : List Char) (sets : List (DataSet T)) : Prop :=
  ∃ gm re, DayFileWith W ty n gm re day text sets

/-- The directory holds the files of the days from `day` on, one for each element of the list of data sets, with at least two data
sets each. -/
def Archive {T : Type} (W : World T) (ty : Ty) (n : Int) (dir : List Char) (rl : Nat) : Int → List (List (DataSet T)) → Prop
  | _, [] => True
  | day, sets :: rest => (∃ text, W.disk (inDir dir (dayName W.ymd rl day)) = some text ∧ DayFile W ty n day text sets) ∧
      2 ≤ sets.length ∧ Archive W ty n dir rl (day + 1) rest

/-- The directory holds the files of the days from `day` on and none after them. Each has at least four data sets, the first of them at the first epoch that
the header gives. -/
def FullArchive {T : Type} (W : World T) (ty : Ty) (n : Int) (dir : List Char) (rl : Nat) : Int → List (List (DataSet T)) → Prop
  | day, [] => W.disk (inDir dir (dayName W.ymd rl day)) = none
  | day, sets :: rest => (∃ text gm re first, W.disk (inDir dir (dayName W.ymd rl day)) = some text ∧ DayFileFrom W ty n gm re first day text sets ∧
      ∀ s ∈ sets.head?, first = s.epoch) ∧ 4 ≤ sets.length ∧ FullArchive W ty n dir rl (day + 1) rest

end Verif.Aod1b
