import Verif.Model.Aod1b
import Mathlib.Order.Defs.LinearOrder
/-
The dealiasing data stream (include/aod1b_data_stream.hpp): three buffered blocks and an iterator.

Parameters: the date library as in `Verif.Model.Aod1b`; `day`, the epoch as a number of days (differences of epochs are
differences of such numbers); `min`, the epoch that marks the end of a file (`Datetime::min()`); `feed`, the next file of the
directory given to the constructor, or `none` if it cannot be read (how it is found: `Verif.Model.Aod1bFiles`); `junk`, what new memory holds.
-/
namespace Verif.Aod1b

variable {T : Type}

/-- `Aod1bDataStream` (aod1b_data_stream.hpp:40-67): the open file, the iterator, three headers and three sets; whether a
directory was given. -/
structure Ds (T : Type) where
  a : Aod T
  it : It T
  h0 : Hdr T
  h1 : Hdr T
  h2 : Hdr T
  c0 : Coeffs ℝ
  c1 : Coeffs ℝ
  c2 : Coeffs ℝ
  dir : Bool

/-- What the functions of the stream depend on. -/
structure Env (T : Type) where
  date : List Char → Option (T × List Char)
  day : T → ℝ
  min : T
  ty : Ty
  feed : Aod T → Res (Option (Aod T))
  junk : Nat → Nat → ℝ

namespace Ds
variable (E : Env T)

/-- `mit.collect(cs)`, with the default arguments (aod1b.hpp:464). -/
noncomputable def coll (a : Aod T) (it : It T) (c : Coeffs ℝ) : Res (Int × It T × Coeffs ℝ) := it.collect a c (-1) (-1) false E.junk

/-- `mit.advance()`. -/
def adv (a : Aod T) (it : It T) : Res (Int × It T) := it.advance E.date a E.ty E.min

/-- `set_begin` in a `noexcept` function: an exception ends the program. -/
def begin (a : Aod T) (it : It T) : Res (It T) :=
  match it.setBegin E.date a E.ty with
  | .throw => .abort
  | r => r

/-- `initialize` (aod1b_data_stream.hpp:251-277): status and stream. -/
noncomputable def init (d : Ds T) : Res (Int × Ds T) :=
  (begin E d.a d.it).bind fun it =>
  (coll E d.a it d.c0).bind fun (j, it, c0) =>
  if j ≠ 0 then .ok (1, { d with it := it, c0 := c0 })
  else
    let d : Ds T := { d with c0 := c0, h0 := it.hdr }
    (adv E d.a it).bind fun (j1, it) =>
    (coll E d.a it d.c1).bind fun (k1, it, c1) =>
    let d : Ds T := { d with c1 := c1, h1 := it.hdr }
    if j1 + k1 ≠ 0 then (adv E d.a it).bind fun (j3, it) => .ok (if j1 + k1 + j3 ≠ 0 then 1 else 0, { d with it := it })
    else
      (adv E d.a it).bind fun (j2, it) =>
      (coll E d.a it d.c2).bind fun (k2, it, c2) =>
      let d : Ds T := { d with c2 := c2, h2 := it.hdr }
      (adv E d.a it).bind fun (j3, it) => .ok (if j2 + k2 + j3 ≠ 0 then 1 else 0, { d with it := it })

variable [LinearOrder T]

/-- `is_eof` (aod1b.hpp:418-420). -/
def eof (it : It T) : Bool := decide (it.hdr.epoch = E.min) && it.s.eof

/-- The loop of `hunt_range` (aod1b_data_stream.hpp:136-142), at most `k` times; running out of `k` is not a real outcome,
every turn that goes on takes text from the stream. -/
noncomputable def skipTo (t : T) : Nat → Int → Ds T → Res (Int × Ds T)
  | 0, _, _ => .ub
  | k + 1, e, d =>
    if t ≤ d.it.hdr.epoch ∧ e = 0 then
      (coll E d.a d.it d.c0).bind fun (e, it, c0) =>
      let h0 := it.hdr
      (adv E d.a it).bind fun (j, it) => skipTo t k (e + j) { d with it := it, c0 := c0, h0 := h0 }
    else .ok (e, d)

/-- `hunt_range` with the iterator not at the end and `t` at or after the third buffered epoch
(aod1b_data_stream.hpp:124-191). -/
noncomputable def huntOn (t : T) (d : Ds T) : Res (Int × Ds T) :=
  if t < d.it.hdr.epoch then
    let d : Ds T := { d with h0 := d.h1, h1 := d.h2, h2 := d.it.hdr, c0 := d.c1, c1 := d.c2, c2 := d.c0 }
    (coll E d.a d.it d.c2).bind fun (j, it, c2) =>
    (adv E d.a it).bind fun (_, it) => .ok (if j > 0 then -1 else 1, { d with it := it, c2 := c2 })
  else
    (skipTo E t (d.it.s.rest.length + 2) 0 d).bind fun (e, d) =>
    if e ≠ 0 then .ok (-2, d)
    else
      (coll E d.a d.it d.c1).bind fun (j, it, c1) =>
      let d : Ds T := { d with it := it, c1 := c1 }
      if j ≠ 0 then .ok (-3, d)
      else
        let d : Ds T := { d with h1 := d.it.hdr }
        (adv E d.a d.it).bind fun (j, it) =>
        let d : Ds T := { d with it := it }
        if j < 0 then
          let it : It T := { it with hdr := { it.hdr with epoch := E.min } }
          .ok (0, { d with it := it, h2 := it.hdr })
        else if j > 0 then .ok (-3, d)
        else
          (coll E d.a d.it d.c2).bind fun (j, it, c2) =>
          let d : Ds T := { d with it := it, c2 := c2 }
          if j ≠ 0 then .ok (-3, d)
          else
            let d : Ds T := { d with h2 := d.it.hdr }
            (adv E d.a d.it).bind fun (_, it) => .ok (0, { d with it := it })

/-- `hunt_range` except its step back to the start of the file (aod1b_data_stream.hpp:105-233); `none` asks for that. -/
noncomputable def hunt1 (t : T) (d : Ds T) : Res (Option (Int × Ds T)) :=
  if d.h0.epoch ≤ t ∧ t < d.h1.epoch then .ok (some (0, d))
  else if d.h1.epoch ≤ t ∧ t < d.h2.epoch then .ok (some (1, d))
  else if d.h2.epoch ≤ t ∧ eof E d.it = false then (huntOn E t d).bind fun r => .ok (some r)
  else if t < d.h0.epoch then
    if t < d.a.first then .ok (some (-4, d)) else .ok none
  else if d.h2.epoch ≤ t ∧ eof E d.it = true then .ok (some (-100, d))
  else .abort

/-- `hunt_range` (aod1b_data_stream.hpp:105-233). After going back to the start of the file the function calls itself; if
that call asks to go back again it finds the same state each time and never returns: `ub`. -/
noncomputable def hunt (t : T) (d : Ds T) : Res (Int × Ds T) :=
  (hunt1 E t d).bind fun
  | some r => .ok r
  | none =>
    (init E d).bind fun (j, d) =>
    if j ≠ 0 then .ok (-5, d)
    else (hunt1 E t d).bind fun
      | some r => .ok r
      | none => .ub

/-- `feed_next_file` (aod1b_data_stream.hpp:281-320). The header of the new iterator starts as the old one: it is not read
before it is set. -/
noncomputable def feedNext (d : Ds T) : Res (Int × Ds T) :=
  (E.feed d.a).bind fun
  | none => .ok (2, d)
  | some a =>
    let d : Ds T := { d with a := a, h0 := d.h1, h1 := d.h2, h2 := d.h0, c0 := d.c1, c1 := d.c2, c2 := d.c0 }
    (begin E a ⟨In.start a.text, d.it.hdr⟩).bind fun it =>
    (coll E a it d.c2).bind fun (j, it, c2) =>
    let d : Ds T := { d with it := it, c2 := c2 }
    if j ≠ 0 then .ok (1, d)
    else
      let d : Ds T := { d with h2 := it.hdr }
      (adv E a it).bind fun (j, it) => .ok (if j ≠ 0 then 1 else 0, { d with it := it })

/-- The interpolation of `coefficients_at` (aod1b_data_stream.hpp:381-403). The sets are taken to have their degree below
their number of rows; otherwise elements outside the matrices would be used. -/
noncomputable def interp (t : T) (e1 e2 : T) (b1 b2 cs : Coeffs ℝ) : Res (Coeffs ℝ) :=
  if cs.deg < cs.rows ∧ cs.deg < b1.rows ∧ cs.deg < b2.rows then
    let fac1 := (E.day e2 - E.day t) / (E.day e2 - E.day e1)
    let fac2 := (E.day t - E.day e1) / (E.day e2 - E.day e1)
    .ok { cs with
      C := fun l m => if (m : Int) ≤ cs.ord ∧ m ≤ l ∧ (l : Int) ≤ cs.deg then fac1 * b1.C l m + fac2 * b2.C l m else cs.C l m,
      S := fun l m => if (m : Int) ≤ cs.ord ∧ m ≤ l ∧ (l : Int) ≤ cs.deg then fac1 * b1.S l m + fac2 * b2.S l m else cs.S l m }
  else .ub

/-- The end of `coefficients_at` for an index of `hunt_range`: 0 or 1 (any other index would be outside the buffer). -/
noncomputable def atIndex (t : T) (i : Int) (d : Ds T) (cs : Coeffs ℝ) : Res (Int × Ds T × Coeffs ℝ) :=
  if i = 0 then (interp E t d.h0.epoch d.h1.epoch d.c0 d.c1 cs).bind fun cs => .ok (0, d, cs)
  else if i = 1 then (interp E t d.h1.epoch d.h2.epoch d.c1 d.c2 cs).bind fun cs => .ok (0, d, cs)
  else .ub

/-- `coefficients_at` (aod1b_data_stream.hpp:332-404). -/
noncomputable def coeffsAt (t : T) (d : Ds T) (cs : Coeffs ℝ) : Res (Int × Ds T × Coeffs ℝ) :=
  if d.h0.epoch ≤ t ∧ t < d.h1.epoch then atIndex E t 0 d cs
  else if d.h1.epoch ≤ t ∧ t < d.h2.epoch then atIndex E t 1 d cs
  else
    (hunt E t d).bind fun (i, d) =>
    if 0 ≤ i then atIndex E t i d cs
    else if i = -100 ∧ d.dir = true then
      (feedNext E d).bind fun (j, d) =>
      if j ≠ 0 then .ok (1, d, cs)
      else (hunt E t d).bind fun (i, d) => if i < 0 then .ok (1, d, cs) else atIndex E t i d cs
    else .ok (1, d, cs)

/-- Queries one after the other, each into its own set: the statuses and sets, and the stream. -/
noncomputable def run : List (T × Coeffs ℝ) → Ds T → Res (List (Int × Coeffs ℝ) × Ds T)
  | [], d => .ok ([], d)
  | (t, cs) :: qs, d =>
    (coeffsAt E t d cs).bind fun (j, d, cs) => (run qs d).bind fun (rs, d) => .ok ((j, cs) :: rs, d)

end Ds
end Verif.Aod1b
