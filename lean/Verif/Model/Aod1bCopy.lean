import Verif.Model.Base
import Mathlib.Data.Rat.Defs
/-
Model of the copy and move members of `Aod1bIn`, `/repo/src/lib/aod1b/aod1b.cpp`:19-110.
-/
namespace Verif.Aod1b.Copy

/-- The members, `/repo/include/aod1b.hpp`:114-151. `T` is the type of epochs, `W` that of waves (`TidalWave`, a value). The
arena has `MaxArenaChars` = 80 characters (aod1b.hpp:96). -/
structure Aod1bIn (T W : Type) where
  fn : List Char
  arena : Fin 80 → Char
  fileType : Int
  fileFormat : Int
  numHeaderRecords : Int
  numDataRecords : Int
  maxDegree : Int
  coeffErrors : Int
  coeffNormalized : Int
  gm : ℚ
  re : ℚ
  flat : ℚ
  omega : ℚ
  numDataSets : Int
  timeEpoch : T
  firstEpoch : T
  lastEpoch : T
  wave : W

variable {T W : Type}

/-- `memcpy(charArena, other.charArena, n)`. -/
def memcpy (n : Nat) (dst src : Fin 80 → Char) : Res (Fin 80 → Char) :=
  if n ≤ 80 then .ok (fun i => if i.val < n then src i else dst i) else .ub

/-- Copy constructor, aod1b.cpp:19-39: `raw` is the memory before. -/
def copyNew (raw other : Aod1bIn T W) : Res (Aod1bIn T W) :=
  let a : Aod1bIn T W := { raw with
    fn := other.fn, fileType := other.fileType, fileFormat := other.fileFormat, numHeaderRecords := other.numHeaderRecords,
    numDataRecords := other.numDataRecords, maxDegree := other.maxDegree, coeffErrors := other.coeffErrors,
    coeffNormalized := other.coeffNormalized, gm := other.gm, re := other.re, flat := other.flat, omega := other.omega,
    numDataSets := other.numDataSets, timeEpoch := other.timeEpoch, firstEpoch := other.firstEpoch, lastEpoch := other.lastEpoch,
    wave := other.wave }
  (memcpy 80 a.arena other.arena).bind fun m => .ok { a with arena := m }

/-- Move constructor, aod1b.cpp:41-61: the new object and what is left of the other one; `left` is the unspecified content of a
moved-from `std::string`. -/
def moveNew (left : List Char) (raw other : Aod1bIn T W) : Res (Aod1bIn T W × Aod1bIn T W) :=
  let a : Aod1bIn T W := { raw with
    fn := other.fn, fileType := other.fileType, fileFormat := other.fileFormat, numHeaderRecords := other.numHeaderRecords,
    numDataRecords := other.numDataRecords, maxDegree := other.maxDegree, coeffErrors := other.coeffErrors,
    coeffNormalized := other.coeffNormalized, gm := other.gm, re := other.re, flat := other.flat, omega := other.omega,
    numDataSets := other.numDataSets, timeEpoch := other.timeEpoch, firstEpoch := other.firstEpoch, lastEpoch := other.lastEpoch,
    wave := other.wave }
  (memcpy 80 a.arena other.arena).bind fun m => .ok ({ a with arena := m }, { other with fn := left })

/-- Objects by address. -/
abbrev Mem (T W : Type) := Nat → Aod1bIn T W

/-- Copy assignment of the object at `j` to the one at `i`, aod1b.cpp:63-86. -/
def copyAssign (m : Mem T W) (i j : Nat) : Res (Mem T W) :=
  if i ≠ j then
    let this := m i
    let other := m j
    let a : Aod1bIn T W := { this with
      fn := other.fn, fileType := other.fileType, fileFormat := other.fileFormat, numHeaderRecords := other.numHeaderRecords,
      numDataRecords := other.numDataRecords, maxDegree := other.maxDegree, coeffErrors := other.coeffErrors,
      coeffNormalized := other.coeffNormalized, gm := other.gm, re := other.re, flat := other.flat, omega := other.omega,
      numDataSets := other.numDataSets, timeEpoch := other.timeEpoch, firstEpoch := other.firstEpoch, lastEpoch := other.lastEpoch,
      wave := other.wave }
    (memcpy 80 a.arena other.arena).bind fun c => .ok fun k => if k = i then { a with arena := c } else m k
  else .ok m

/-- Move assignment, aod1b.cpp:88-111. -/
def moveAssign (left : List Char) (m : Mem T W) (i j : Nat) : Res (Mem T W) :=
  if i ≠ j then
    let this := m i
    let other := m j
    let a : Aod1bIn T W := { this with
      fn := other.fn, fileType := other.fileType, fileFormat := other.fileFormat, numHeaderRecords := other.numHeaderRecords,
      numDataRecords := other.numDataRecords, maxDegree := other.maxDegree, coeffErrors := other.coeffErrors,
      coeffNormalized := other.coeffNormalized, gm := other.gm, re := other.re, flat := other.flat, omega := other.omega,
      numDataSets := other.numDataSets, timeEpoch := other.timeEpoch, firstEpoch := other.firstEpoch, lastEpoch := other.lastEpoch,
      wave := other.wave }
    (memcpy 80 a.arena other.arena).bind fun c =>
      .ok fun k => if k = i then { a with arena := c } else if k = j then { other with fn := left } else m k
  else .ok m

end Verif.Aod1b.Copy
