import Verif.Model.Eop
/-
`EopSeries::interpolate` and `approx_dut1` as sequences of accesses to the mutable members `last_it` and `work` (eop.hpp:195, 200), for threads that
use one series at the same time. Every occurrence of a mutable member in the source is one access, in the order of the source, and accesses of
different threads take place one after the other; the records do not change. What C++ says of such accesses is in Spec/EopThreads.
-/
namespace Verif.EopThreads
open Verif Eop

variable {K β γ σ κ : Type}

/-- The mutable members (eop.hpp:195, 200): `last_it` as an index into the vector of the series, and the 20 numbers of `work`. -/
structure Mem (K : Type) where
  last : Nat
  work : Nat → K

/-- A computation: its result, or an access to a mutable member and what follows. -/
inductive Act (K β : Type) where
  | done (r : Res β)
  | rdLast (k : Nat → Act K β)
  | wrLast (v : Nat) (k : Act K β)
  | rdWork (j : Nat) (k : K → Act K β)
  | wrWork (j : Nat) (v : K) (k : Act K β)

/-- One after the other. -/
def Act.bind : Act K β → (β → Act K γ) → Act K γ
  | .done (.ok b), f => f b
  | .done .ub, _ => .done .ub
  | .done .abort, _ => .done .abort
  | .done .throw, _ => .done .throw
  | .rdLast k, f => .rdLast fun v => (k v).bind f
  | .wrLast v k, f => .wrLast v (k.bind f)
  | .rdWork j k, f => .rdWork j fun v => (k v).bind f
  | .wrWork j v k, f => .wrWork j v (k.bind f)

/-- A loop. -/
def Act.each : List κ → (κ → σ → Act K σ) → σ → Act K σ
  | [], _, s => .done (.ok s)
  | x :: xs, f, s => (f x s).bind (Act.each xs f)

variable [Field K] [LinearOrder K]

/-- `last_it = it` (lagrange_interpolation.cpp:21, approx_dut1.cpp:17). -/
def found (it : Nat) : Act K Nat := .wrLast it (.done (.ok it))

/-- The search with the cached iterator (lagrange_interpolation.cpp:11-21, approx_dut1.cpp:7-17): `last_it` is read up to five times. Reading a record
before the first or at the end is undefined. -/
def hunt (vec : List (Rec K)) (t : K) : Act K Nat :=
  .rdLast fun it =>
  .rdLast fun a =>
  if a ≠ 0 then
    .rdLast fun b =>
    if b ≠ vec.length then
      .rdLast fun c =>
      match if c = 0 then none else vec[c - 1]? with
      | none => .done .ub
      | some x =>
        if x.t ≥ t then
          .rdLast fun d =>
          match vec[d]? with
          | none => .done .ub
          | some y => if y.t < t then found it else found (upperBound t vec)
        else found (upperBound t vec)
    else found (upperBound t vec)
  else found (upperBound t vec)

/-- `nom[j] *= n; dom[j] *= d;` (lagrange_interpolation.cpp:96-105). -/
def times (w : List (Rec K)) (t : K) (j k : Nat) : Act K Unit :=
  if j ≠ k then
    .rdWork j fun a => .wrWork j (a * (t - (w[k]?.map Rec.t).getD 0))
    (.rdWork (10 + j) fun b => .wrWork (10 + j) (b * ((w[j]?.map Rec.t).getD 0 - (w[k]?.map Rec.t).getD 0)) (.done (.ok ())))
  else .done (.ok ())

/-- The products (lagrange_interpolation.cpp:84-107): `nom` is the first half of `work`, `dom` the second. -/
def products (w : List (Rec K)) (t : K) : Act K Unit :=
  Act.each (List.range w.length) (fun j _ =>
    .wrWork j 1 (.wrWork (10 + j) 1 (Act.each (List.range w.length) (fun k _ => times w t j k) ()))) ()

/-- The values interpolated: `xp`, `yp`, UT1-TAI, `lod`, `dX`, `dY`. -/
structure Six (K : Type) where
  xp : K
  yp : K
  ut1 : K
  lod : K
  dX : K
  dY : K

/-- The sums (lagrange_interpolation.cpp:110-122). -/
def sums (w : List (Rec K)) : Act K (Six K) :=
  Act.each (List.range w.length) (fun j s =>
    .rdWork j fun n => .rdWork (10 + j) fun d =>
    let fac := n / d
    .done (.ok ⟨s.xp + (w[j]?.map Rec.xp).getD 0 * fac, s.yp + (w[j]?.map Rec.yp).getD 0 * fac,
      s.ut1 + (w[j]?.map fun r => r.dut - r.dat).getD 0 * fac, s.lod + (w[j]?.map Rec.lod).getD 0 * fac,
      s.dX + (w[j]?.map Rec.dX).getD 0 * fac, s.dY + (w[j]?.map Rec.dY).getD 0 * fac⟩)) ⟨0, 0, 0, 0, 0, 0⟩

/-- What follows the search (lagrange_interpolation.cpp:23-128). -/
def rest (dat : K → K) (vec : List (Rec K)) (t : K) (old : Rec K) (degree : Int) (it : Nat) : Act K (Status × Rec K) :=
  if it = 0 then
    match vec[0]? with
    | some r => .done (.ok (.prior, { r with t := t }))
    | none => .done .ub
  else if it = vec.length then
    match vec[it - 1]? with
    | some r => .done (.ok (.later, { r with t := t }))
    | none => .done .ub
  else if degree < 0 then .done .ub
  else
    let ndp := dataPoints it vec.length degree.toNat
    if ndp = 1 then
      match vec[it - 1]?, vec[it]? with
      | some x0, some x1 =>
        .done (.ok (.linear,
          { t := t, xp := lin x0 x1 t Rec.xp, yp := lin x0 x1 t Rec.yp,
            dut := lin x0 x1 t (fun r => r.dut - r.dat) + dat t,
            lod := lin x0 x1 t Rec.lod, dX := lin x0 x1 t Rec.dX, dY := lin x0 x1 t Rec.dY,
            dat := old.dat, xrt := 0, yrt := 0 }))
      | _, _ => .done .ub
    else if it < ndp ∨ it + ndp > vec.length then .done .ub
    else
      let w := (vec.drop (it - ndp)).take (2 * ndp)
      (products w t).bind fun _ => (sums w).bind fun s =>
      .done (.ok (if ((ndp : Int) * 2 = degree + 1) then .requested else .decreased,
        { t := t, xp := s.xp, yp := s.yp, dut := s.ut1 + dat t, lod := s.lod, dX := s.dX, dY := s.dY, dat := old.dat, xrt := 0, yrt := 0 }))

/-- `interpolate` (lagrange_interpolation.cpp:5-128); `old` is the record of the caller. -/
def interpolate (dat : K → K) (vec : List (Rec K)) (t : K) (old : Rec K) (degree : Int) : Act K (Status × Rec K) :=
  if degree > 9 then .done .abort else (hunt vec t).bind (rest dat vec t old degree)

/-- What follows the search (approx_dut1.cpp:19-49). -/
def approxRest (dat : K → K) (vec : List (Rec K)) (t : K) (it : Nat) : Act K (Status × K) :=
  if it = 0 then
    match vec[0]? with
    | some r => .done (.ok (.prior, r.dut))
    | none => .done .ub
  else if it = vec.length then
    match vec[it - 1]? with
    | some r => .done (.ok (.later, r.dut))
    | none => .done .ub
  else
    match vec[it - 1]?, vec[it]? with
    | some x0, some x1 => .done (.ok (.linear, lin x0 x1 t (fun r => r.dut - r.dat) + dat t))
    | _, _ => .done .ub

/-- `approx_dut1` (approx_dut1.cpp:3-49). -/
def approxDut1 (dat : K → K) (vec : List (Rec K)) (t : K) : Act K (Status × K) := (hunt vec t).bind (approxRest dat vec t)

/-- What a call returns: status and record, or status and UT1-UTC. -/
abbrev Answer (K : Type) := (Status × Rec K) ⊕ (Status × K)

/-- The two calls that search the series (eop.hpp:363-364, 377-378). -/
inductive Call (K : Type) where
  | interpolate (t : K) (old : Rec K) (degree : Int)
  | approx (t : K)

/-- The accesses of a call (lagrange_interpolation.cpp:5-128, approx_dut1.cpp:3-49). -/
def Call.act (dat : K → K) (vec : List (Rec K)) : Call K → Act K (Answer K)
  | .interpolate t old degree => (EopThreads.interpolate dat vec t old degree).bind fun r => .done (.ok (.inl r))
  | .approx t => (approxDut1 dat vec t).bind fun r => .done (.ok (.inr r))

omit [Field K] [LinearOrder K]

/-- One access. -/
def Act.step : Act K β → Mem K → Act K β × Mem K
  | .done r, m => (.done r, m)
  | .rdLast k, m => (k m.last, m)
  | .wrLast v k, m => (k, { m with last := v })
  | .rdWork j k, m => (k (m.work j), m)
  | .wrWork j v k, m => (k, { m with work := fun i => if i = j then v else m.work i })

/-- A call that no other thread disturbs: result and members. -/
def Act.alone : Act K β → Mem K → Res β × Mem K
  | .done r, m => (r, m)
  | .rdLast k, m => (k m.last).alone m
  | .wrLast v k, m => k.alone { m with last := v }
  | .rdWork j k, m => (k (m.work j)).alone m
  | .wrWork j v k, m => k.alone { m with work := fun i => if i = j then v else m.work i }

/-- Calls on one series, each begun when the one before has ended (as behind a lock). -/
def serially : List (Act K β) → Mem K → List (Res β)
  | [], _ => []
  | a :: as, m => (a.alone m).1 :: serially as (a.alone m).2

/-- Threads that use one series: its members, and what each thread still has to do. -/
structure Shared (K β : Type) where
  mem : Mem K
  thread : Nat → Act K β

/-- One access of thread `i`. -/
def Shared.turn (c : Shared K β) (i : Nat) : Shared K β :=
  let p := (c.thread i).step c.mem
  ⟨p.2, fun j => if j = i then p.1 else c.thread j⟩

/-- The accesses in the order of a schedule. -/
def Shared.run (c : Shared K β) (sched : List Nat) : Shared K β := sched.foldl Shared.turn c

/-- Threads each of which uses a series of its own. -/
structure Own (K β : Type) where
  mem : Nat → Mem K
  thread : Nat → Act K β

/-- One access of thread `i`. -/
def Own.turn (c : Own K β) (i : Nat) : Own K β :=
  let p := (c.thread i).step (c.mem i)
  ⟨fun j => if j = i then p.2 else c.mem j, fun j => if j = i then p.1 else c.thread j⟩

/-- The accesses in the order of a schedule. -/
def Own.run (c : Own K β) (sched : List Nat) : Own K β := sched.foldl Own.turn c

end Verif.EopThreads
