import Verif.Spec.Aod1bStream
/-
What a dealiasing stream answers, for every history of queries: a small machine on lists of data sets, one list for each file.
-/
namespace Verif.Aod1b

variable {T : Type} [LinearOrder T]

/-- Three data sets that are at hand, and those of the file that are not read yet. -/
structure Window (T : Type) where
  s0 : DataSet T
  s1 : DataSet T
  s2 : DataSet T
  rest : List (DataSet T)

/-- What a look for an epoch comes to: two data sets, none, the end of the file, or the wish to start again from the top of the file. -/
inductive Look (T : Type) where
  | found (a b : DataSet T) (w : Window T)
  | refused (w : Window T)
  | ended (w : Window T)
  | back

namespace Window

/-- The window at the top of a file. -/
def top : List (DataSet T) → Option (Window T)
  | s0 :: s1 :: s2 :: rest => some ⟨s0, s1, s2, rest⟩
  | _ => none

/-- A query at or after the third data set, where `s` comes next. Before `s`, one data set is read, and the query lies between the third data set
and `s`. At the epoch of `s` the file is read to its end and there is no answer. After `s`, the answer is on the line through the first
data set at hand and `s`, before the query; if `s` is the last, the third data set at hand is marked with the epoch `min`. -/
def forward (min : T) (w : Window T) (t : T) (s : DataSet T) (rest : List (DataSet T)) : Look T :=
  if t < s.epoch then .found w.s2 s ⟨w.s1, w.s2, s, rest⟩
  else if t = s.epoch then .refused ⟨rest.getLastD s, w.s1, w.s2, []⟩
  else match rest with
    | [] => .found w.s0 s ⟨w.s0, s, { w.s2 with epoch := min }, []⟩
    | s' :: rest => .found w.s0 s ⟨w.s0, s, s', rest⟩

/-- A look from where the stream stands. -/
def look (min : T) (w : Window T) (t : T) : Look T :=
  if w.s0.epoch ≤ t ∧ t < w.s1.epoch then .found w.s0 w.s1 w
  else if w.s1.epoch ≤ t ∧ t < w.s2.epoch then .found w.s1 w.s2 w
  else match w.rest with
    | s :: rest => if w.s2.epoch ≤ t then w.forward min t s rest else .back
    | [] => if t < w.s0.epoch then .back else .ended w

/-- A look that starts again from the top of the file if need be. -/
def seek (min : T) (file : List (DataSet T)) (w : Window T) (t : T) : Look T :=
  match w.look min t, top file with
  | .back, some w0 => if t < w0.s0.epoch then .refused w else w0.look min t
  | r, _ => r

end Window

/-- A stream: the data sets of the open file, the window, and the data sets of the files that follow. -/
structure Desk (T : Type) where
  file : List (DataSet T)
  w : Window T
  later : List (List (DataSet T))

namespace Desk

/-- The answer to a query, two data sets or a refusal. At the end of the file the next one is opened, and its first data set is read. -/
def answer (min : T) (k : Desk T) (t : T) : Option (DataSet T × DataSet T) × Desk T :=
  match k.w.seek min k.file t with
  | .found a b w => (some (a, b), { k with w := w })
  | .refused w => (none, { k with w := w })
  | .back => (none, k)
  | .ended w =>
    match k.later with
    | (x :: rest) :: later =>
      match Window.seek min (x :: rest) ⟨w.s1, w.s2, x, rest⟩ t with
      | .found a b w => (some (a, b), ⟨x :: rest, w, later⟩)
      | .refused w | .ended w => (none, ⟨x :: rest, w, later⟩)
      | .back => (none, k)
    | _ => (none, { k with w := w })

/-- The answers to queries one after the other. -/
def answers (min : T) : Desk T → List T → List (Option (DataSet T × DataSet T))
  | _, [] => []
  | k, t :: ts => (k.answer min t).1 :: answers min (k.answer min t).2 ts

end Desk

/-- A status and a set of coefficients are the answer: on the line through two data sets in order, the first not after the query, or refused with the set as it was. -/
def Answered (day : T → ℝ) (n : Int) (q : T × Coeffs ℝ) (r : Int × Coeffs ℝ) : Option (DataSet T × DataSet T) → Prop
  | some (s1, s2) => r.1 = 0 ∧ s1.epoch ≤ q.1 ∧ s1.epoch < s2.epoch ∧ OnLine day n q.1 s1 s2 q.2 r.2
  | none => r.1 = 1 ∧ r.2 = q.2

/-- A data set of the files, or the records of one marked with the epoch `min`. -/
def Origin (min : T) (sets : List (DataSet T)) (s : DataSet T) : Prop := s ∈ sets ∨ s.epoch = min ∧ ∃ s' ∈ sets, s.rows = s'.rows

/-- The files that follow one another, each with at least four data sets, the first of them at the first epoch in the header; then there is no more. -/
inductive Series (date : List Char → Option (T × List Char)) (ty : Ty) (feed : Aod T → Res (Option (Aod T))) : Aod T → List (List (DataSet T)) → Prop where
  | last {a} : feed a = .ok none → Series date ty feed a []
  | next {a a' sets later} : feed a = .ok (some a') → FileOf date ty a' sets → 4 ≤ sets.length → (∀ s ∈ sets.head?, a'.first = s.epoch) →
      a'.maxDegree = a.maxDegree → Series date ty feed a' later → Series date ty feed a (sets :: later)

end Verif.Aod1b
