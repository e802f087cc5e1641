import Verif.Model.GetAod1b
import Verif.Spec.Aod1bFiles
/-
What one expects of a tool that downloads daily files: the official names, and complete files.
-/
namespace Verif.GetAod1b
open Verif.Aod1b

/-- The days that have a date (Python: from year 1 to year 9999). -/
def Env.date (E : Env) (d : Int) : Prop := E.first ≤ d ∧ d < E.last

/-- Dates are written with ten digits and hyphens, different days differently. -/
structure Dates (E : Env) : Prop where
  length : ∀ d, (E.ymd d).length = 10
  chars : ∀ d, ∀ c ∈ E.ymd d, c.isDigit ∨ c = '-'
  different : ∀ d d', E.date d → E.date d' → E.ymd d = E.ymd d' → d = d'
  year : ∀ d, ∀ c ∈ E.year d, c.isDigit

/-- The plain file of a day, and the compressed one. -/
def plain (E : Env) (out : Text) (rl : Nat) (d : Int) : Text := inDir out (dayName E.ymd rl d)
def packed (E : Env) (out : Text) (rl : Nat) (d : Int) : Text := inDir out (dayName E.ymd rl d ++ ".gz".toList)

/-- The directory of the data centre: `/grace/Level-1B/GFZ/AOD/RL06/2023`. -/
def remote (E : Env) (rl : Nat) (d : Int) : Text :=
  "/grace/Level-1B/GFZ/AOD/RL".toList ++ [Char.ofNat (48 + rl / 10), Char.ofNat (48 + rl % 10)] ++ '/' :: E.year d

/-- The server offers `data` as the product of the day. -/
def Offers (S : Server) (E : Env) (rl : Nat) (d : Int) (data : Text) : Prop :=
  ∃ files, S (remote E rl d) = some files ∧ files (dayName E.ymd rl d ++ ".gz".toList) = some data

/-- The days of a run: from the first to the one before the last; one day if no last day is given. -/
def Args.has (A : Args) (d : Int) : Prop := A.tfrom ≤ d ∧ d < A.tend.getD (A.tfrom + 1)

/-- The arguments of a run for the non-tidal product of a release. -/
structure Plain (E : Env) (A : Args) (rl : Nat) : Prop where
  dates : ∀ d, A.has d → E.date d
  release : A.rl = rl
  small : rl ≤ 99
  out : A.out ≠ []
  tidal : A.tidal = false

/-- Files of the day: none, the complete compressed one, or the complete plain one only. -/
def Fine (E : Env) (data : Text) (gz asc : Option Text) : Prop :=
  (gz = none ∧ asc = none) ∨ gz = some data ∨ (gz = none ∧ asc = some (E.gunzip data).1)

/-- A part of the compressed file. -/
def Truncated (data : Text) (gz : Option Text) : Prop := ∃ k, k < data.length ∧ gz = some (data.take k)

/-- The product is there, compressed or plain; plain if that was asked for. -/
def Held (E : Env) (dcmp : Bool) (data : Text) (gz asc : Option Text) : Prop :=
  (gz = some data ∨ asc = some (E.gunzip data).1) ∧ (dcmp = true → asc = some (E.gunzip data).1)

/-- The run ends with the status, and the files are then `D'`. -/
def Ends (S : Server) (E : Env) (A : Args) (D : Disk) (code : Nat) (D' : Disk) : Prop :=
  ∃ n, after S n (main E A, D) = (.exit code, D')

/-- The run ends with an exception. -/
def Raises (S : Server) (E : Env) (A : Args) (D : Disk) (D' : Disk) : Prop :=
  ∃ n, after S n (main E A, D) = (.raise, D')

/-- What a run leaves that is stopped after `n` operations. -/
def stopped (S : Server) (E : Env) (A : Args) (n : Nat) (D : Disk) : Disk := (after S n (main E A, D)).2

/-- Runs that are stopped, one after the other. -/
def replay (S : Server) (E : Env) : List (Args × Nat) → Disk → Disk
  | [], D => D
  | (A, n) :: rs, D => replay S E rs (stopped S E A n D)

end Verif.GetAod1b
