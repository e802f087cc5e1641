import Verif.Model.Matrix
import Verif.Spec.Storage
/-
Specification vocabulary for matrix objects: legal programs, ownership, element values.
-/
namespace Verif.Matrix
open Verif Storage

variable {α : Type}

/-- Variable `x` holds a matrix. -/
def State.Live (s : State α) (x : Nat) : Prop := ∃ o, s.var x = some o

/-- What a C++ program must respect to apply `op`: it declares new variables, uses live ones,
assigns between matrices of the same type and addresses only elements the matrix has. -/
def Pre (s : State α) : Op α → Prop
  | .construct x _ _ _ _ => s.var x = none
  | .copyCtor x y _ => s.var x = none ∧ s.Live y
  | .moveCtor x y => s.var x = none ∧ s.Live y
  | .destroy x => s.Live x
  | .copyAssign x y _ | .moveAssign x y | .swap x y =>
      ∃ ox oy, s.var x = some ox ∧ s.var y = some oy ∧ ox.st.layout = oy.st.layout
  | .resize x _ _ _ | .cresize x _ _ _ | .fill x _ | .multiply x _ => s.Live x
  | .write x i j _ => ∃ o, s.var x = some o ∧ o.st.HasElement i j

/-- The shape requested by `op` is square if the layout is triangular (otherwise the constructor's
`assert` fires). -/
def SquareOk (s : State α) : Op α → Prop
  | .construct _ l r c _ => St.square l = true → r = c
  | .resize x r c _ | .cresize x r c _ =>
      ∀ o, s.var x = some o → St.square o.st.layout = true → r = c
  | _ => True

variable [Mul α]

/-- States reached by legal programs. -/
inductive Reach : State α → Prop where
  | init : Reach State.init
  | step (s s' : State α) (op : Op α) :
      Reach s → Pre s op → Matrix.step s op = .ok s' → Reach s'

/-- A legal run of `ops` from `s` to `s'`. -/
inductive Exec : State α → List (Op α) → State α → Prop where
  | nil (s) : Exec s [] s
  | cons (s s1 s' : State α) (op ops) :
      Pre s op → Matrix.step s op = .ok s1 → Exec s1 ops s' → Exec s (op :: ops) s'

omit [Mul α]

/-- Variables an operation is meant to change. -/
def Op.targets : Op α → List Nat
  | .construct x _ _ _ _ | .copyCtor x _ _ | .destroy x | .copyAssign x _ _ | .resize x _ _ _
  | .cresize x _ _ _ | .fill x _ | .multiply x _ | .write x _ _ _ => [x]
  | .moveCtor x y | .moveAssign x y | .swap x y => [x, y]

/-- The move assignments that do not lose memory: the target is another variable without a buffer. -/
def MoveOntoEmpty (s : State α) : Op α → Prop
  | .moveAssign x y => x ≠ y ∧ ∀ o, s.var x = some o → o.ptr = none
  | _ => True

variable [Mul α]

/-- States reached by legal programs that move-assign only onto matrices without a buffer. -/
inductive ReachNM : State α → Prop where
  | init : ReachNM State.init
  | step (s s' : State α) (op : Op α) :
      ReachNM s → Pre s op → MoveOntoEmpty s op → Matrix.step s op = .ok s' → ReachNM s'

omit [Mul α]

/-- The object's recorded capacity is the size of the buffer it points to, large enough for its
elements; a null pointer goes with capacity zero. -/
def ObjOk (heap : Nat → Option (List α)) (o : Obj) : Prop :=
  o.st.WF ∧ o.st.numElements ≤ o.cap ∧
  match o.ptr with
  | none => o.cap = 0
  | some b => ∃ buf, heap b = some buf ∧ buf.length = o.cap

/-- Variable `x` owns buffer `b`. -/
def Owns (s : State α) (x b : Nat) : Prop := ∃ o, s.var x = some o ∧ o.ptr = some b

/-- Memory invariant: capacities are true, no buffer has two owners. -/
def MemOk (s : State α) : Prop :=
  (∀ x o, s.var x = some o → ObjOk s.heap o) ∧
  (∀ x y b, Owns s x b → Owns s y b → x = y)

/-- No leak: every live buffer has an owner. -/
def NoLeak (s : State α) : Prop := ∀ b buf, s.heap b = some buf → ∃ x, Owns s x b

/-- Shape of the matrix in `x`. -/
def HasShape (s : State α) (x : Nat) (l : Layout) (r c : Nat) : Prop :=
  ∃ o, s.var x = some o ∧ o.st.layout = l ∧ o.st.nrows = r ∧ o.st.ncols = c

/-- `x` and `y` are (in `s` resp. `s'`) matrices of the same type, shape and element values. -/
def SameMatrix (s : State α) (x : Nat) (s' : State α) (y : Nat) : Prop :=
  ∃ o o', s.var x = some o ∧ s'.var y = some o' ∧ o.st.layout = o'.st.layout ∧
    o.st.nrows = o'.st.nrows ∧ o.st.ncols = o'.st.ncols ∧
    ∀ i j, o.st.HasElement i j → ∃ v, read s x i j = .ok v ∧ read s' y i j = .ok v

/-- Last value written to `(i, j)` in a list of writes, if any. -/
def lastWrite (ws : List (Int × Int × α)) (i j : Int) : Option α :=
  (ws.filter (fun w => w.1 = i ∧ w.2.1 = j)).getLast?.map (·.2.2)

end Verif.Matrix
