import Verif.Model.Clock
/-
What a history of start/stop events measures.
-/
namespace Verif.Clock

/-- The measured intervals: each stop measures the time since the most recent start (`s` is the start
in force at the beginning). -/
def intervals (s : Int) : List Ev → List Int
  | [] => []
  | .start t :: evs => intervals t evs
  | .stop t :: evs => (t - s) :: intervals s evs

end Verif.Clock
