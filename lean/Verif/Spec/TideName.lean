import Verif.Model.TideName
/-
The names of tide models, as their documentation has them.
-/
namespace Verif.TideName
open Verif

/-- The names of the objects that exist. -/
abbrev Names := Nat → Option (List Char)

/-- The names after one statement; `title path` is the model name in the header of the gravity file at `path`. -/
def named (title : List Int → List Char) (n : Names) : Op → Names
  | .new k name => fun i => if i = k then some (name.getD []) else n i
  | .make k j name => fun i => if i = k then (match name with | some s => some s | none => n j) else n i
  | .groops k dir files => fun i => if i = k then some ((files.getLast?.map fun fn => title (dir ++ 47 :: fn)).getD []) else n i
  | .copy k j => fun i => if i = k then n j else n i
  | .move k j => fun i => if i = k then n j else n i

/-- A name that fits in the 64 characters with its terminating NUL. -/
def Fits (s : List Char) : Prop := s.length < 64 ∧ '\x00' ∉ s

/-- What a statement needs: objects that exist, names that fit, and gravity files with readable headers. -/
def Allowed (disk : List Int → Option (List Char)) (title : List Int → List Char) (n : Names) : Op → Prop
  | .new _ name => ∀ s ∈ name, Fits s
  | .make _ j name => (n j).isSome ∧ ∀ s ∈ name, Fits s
  | .groops _ dir files => ∀ fn ∈ files, Fits (title (dir ++ 47 :: fn)) ∧
      ∃ h pos, Icgem.Head.construct (disk (dir ++ 47 :: fn)) = .ok (h, pos) ∧ h.modelName = title (dir ++ 47 :: fn)
  | .copy _ j => (n j).isSome
  | .move _ j => (n j).isSome

/-- A program all of whose statements are allowed when they are reached, and the names it leads to. -/
inductive Runs (disk : List Int → Option (List Char)) (title : List Int → List Char) : Names → List Op → Names → Prop
  | done (n : Names) : Runs disk title n [] n
  | step {n n' : Names} {o : Op} {os : List Op} : Allowed disk title n o → Runs disk title (named title n o) os n' → Runs disk title n (o :: os) n'

end Verif.TideName
