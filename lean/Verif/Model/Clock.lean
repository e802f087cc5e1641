import Verif.Model.Base
import Mathlib.Algebra.Field.Rat
/-
Stop watch (include/clock.hpp). Time points and durations are integer ticks (nanoseconds) of
`std::chrono::high_resolution_clock`.
-/
namespace Verif.Clock
open Verif

/-- `Clock` (clock.hpp:6-13); the name is the list of its characters. -/
structure C where
  start : Int
  total : Int
  samples : Int
  name : List Nat
deriving DecidableEq

/-- `Clock(const char *)` (clock.hpp:29): `strcpy` into 24 bytes. -/
def C.new (name : List Nat) : Res C :=
  if name.length + 1 ≤ 24 then .ok ⟨0, 0, 0, name⟩ else .ub

/-- `start()` at time `now` (clock.hpp:16). -/
def C.doStart (c : C) (now : Int) : C := { c with start := now }

/-- `stop()` at time `now` (clock.hpp:15, 17-20). -/
def C.doStop (c : C) (now : Int) : C :=
  { c with total := c.total + (now - c.start), samples := c.samples + 1 }

/-- `get_total_duration<microseconds>().count()` (clock.hpp:21-23): `duration_cast` truncates. -/
def C.totalMicro (c : C) : Int := c.total.tdiv 1000

/-- `average_running_time<microseconds>()` (clock.hpp:24-27): a division of integers, converted to
`double` afterwards; division by zero is undefined. -/
def C.average (c : C) : Res Int :=
  if c.samples = 0 then .ub else .ok (c.totalMicro.tdiv c.samples)

/-- `is_faster` (clock.hpp:57-59). -/
def C.isFaster (a b : C) : Res Bool := do
  let x ← a.average
  let y ← b.average
  .ok (decide (x < y))

/-- Copy, move and assignment (clock.hpp:31-53): all fields; `strcpy` of a name that fits. -/
def C.copy (other : C) : C := ⟨other.start, other.total, other.samples, other.name⟩

/-- The percentage printed by `compare` (clock.hpp:61-66) before rounding; `none` is a division by zero, which prints
`inf` or `nan`. -/
def C.compare (a other : C) : Res (Option ℚ) := do
  let ref ← other.average
  let y ← a.average
  .ok (if ref = 0 then none else some (100 * ((y : ℚ) - ref) / ref))

/-- Events in the life of a clock. -/
inductive Ev where
  | start (now : Int)
  | stop (now : Int)

/-- One event. -/
def step (c : C) : Ev → C
  | .start t => c.doStart t
  | .stop t => c.doStop t

end Verif.Clock
