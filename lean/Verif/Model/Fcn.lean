import Verif.Model.Base
import Verif.Model.Chars
import Mathlib.Analysis.SpecialFunctions.Trigonometric.Basic
/-
Free core nutation (src/lib/free_core_nutation, include/fcn.hpp). Epochs are exact numbers of days (MJD).
-/
namespace Verif.Fcn
open Verif.Chars

/-- `LambertCoefficients` (fcn.hpp:16-33): `xc() = re`, `xs() = im`, `yc() = im`, `ys() = -re`,
`sx() = sy() = sg`. -/
structure Coef (α : Type) where
  t : α
  re : α
  im : α
  sg : α
deriving DecidableEq

/-- `FcnResult` (fcn.hpp:36-43). -/
@[ext] structure Result where
  x : ℝ
  y : ℝ
  sx : ℝ
  sy : ℝ

/-- The search of lambert.cpp:20-24 on the reversed vector: the first entry, from the end, with
`t0 <= t < t1`; the result is the pair (entry, next entry). -/
noncomputable def search (t : ℝ) : List (Coef ℝ) → Option (Coef ℝ × Coef ℝ)
  | next :: prev :: rest => if t ≥ prev.t ∧ t < next.t then some (prev, next) else search t (prev :: rest)
  | _ => none

/-- `lambert_fcn` (lambert.cpp:5-96). `rbegin() + 1` of an empty vector is undefined. -/
noncomputable def lambertFcn (t : ℝ) (lvec : List (Coef ℝ)) : Res Result :=
  let mpe : ℝ := 0.3
  let per : ℝ := -430.21
  let phi := (2 * Real.pi / per) * (t - 51544.5)
  match lvec.head?, lvec.reverse.head? with
  | some first, some last =>
    -- (axc, axs, ayc, ays), (sigma of x, sigma of y)
    let a : (ℝ × ℝ × ℝ × ℝ) × ℝ × ℝ :=
      match search t lvec.reverse with
      | some (prev, next) =>
        let dt := t - prev.t
        let dT := next.t - prev.t
        ((prev.re + (next.re - prev.re) / dT * dt, prev.im + (next.im - prev.im) / dT * dt,
          prev.im + (next.im - prev.im) / dT * dt, -prev.re + (-next.re - -prev.re) / dT * dt),
         |prev.sg + (next.sg - prev.sg) / dT * dt|, |prev.sg + (next.sg - prev.sg) / dT * dt|)
      | none =>
        if t ≥ last.t then
          let dt := t - last.t
          ((last.re, last.im, last.im, -last.re), last.sg + mpe * dt, last.sg + mpe * dt)
        else
          let dt := t - first.t
          ((first.re, first.im, first.im, -first.re), first.sg + mpe * dt, first.sg + mpe * dt)
    let cosp := Real.cos phi
    let sinp := Real.sin phi
    .ok ⟨a.1.1 * cosp - a.1.2.1 * sinp, a.1.2.2.1 * cosp - a.1.2.2.2 * sinp, a.2.1 + a.2.1, a.2.2 + a.2.2⟩
  | _, _ => .ub

/-- `Table52c` (load_iers10_table52c.cpp:5-38), with the numbers as exact decimals. -/
def table52c : List (Coef ℚ) :=
  [⟨45700, 4.55, -36.58, 19.72⟩, ⟨46066, -141.82, -105.35, 11.12⟩, ⟨46431, -246.56, -170.21, 9.47⟩,
   ⟨46796, -281.89, -159.24, 8.65⟩, ⟨47161, -255.05, -43.58, 8.11⟩, ⟨47527, -210.46, -88.56, 7.31⟩,
   ⟨47892, -187.79, -57.35, 6.41⟩, ⟨48257, -163.01, 26.26, 5.52⟩, ⟨48622, -145.53, 44.65, 4.80⟩,
   ⟨48988, -145.12, 51.49, 5.95⟩, ⟨49353, -109.93, 16.87, 9.45⟩, ⟨49718, -87.30, 5.36, 8.25⟩,
   ⟨50083, -90.61, 1.52, 7.67⟩, ⟨50449, -94.73, 35.35, 4.40⟩, ⟨50814, -67.52, 27.57, 3.40⟩,
   ⟨51179, -44.11, -14.31, 3.45⟩, ⟨51544, 5.21, -74.87, 3.26⟩, ⟨51910, 70.37, -129.66, 2.86⟩,
   ⟨52275, 86.47, -127.84, 2.75⟩, ⟨52640, 110.44, -42.73, 2.59⟩, ⟨53005, 114.78, -0.13, 2.53⟩,
   ⟨53371, 132.96, -4.78, 2.72⟩, ⟨53736, 157.36, 28.63, 2.19⟩, ⟨54101, 160.40, 58.87, 1.87⟩,
   ⟨54466, 156.76, 101.24, 1.74⟩, ⟨54832, 142.99, 143.01, 1.89⟩, ⟨55197, 33.70, 184.46, 1.95⟩,
   ⟨55562, 0.76, 253.70, 1.14⟩, ⟨55927, 25.47, 271.66, 1.07⟩, ⟨56293, 113.42, 256.50, 1.86⟩]

/-- `load_iers10_table52c` (load_iers10_table52c.cpp:41-52). -/
noncomputable def loadTable52c : List (Coef ℝ) :=
  table52c.map (fun c => ⟨(c.t : ℝ), (c.re : ℝ), (c.im : ℝ), (c.sg : ℝ)⟩)

/-! ### The file reader -/

/-- `LINE_LEN` (parse_lambert_coeffs.cpp:25): a line of 128 characters or more makes `getline` fail. -/
def LINE_LEN : Nat := 128

/-- State of the reading loop. -/
structure RState where
  vec : List (Coef ℚ)
  d : List ℚ
  error : Nat
  lineNr : Nat

/-- Body of the loop (parse_lambert_coeffs.cpp:98-119). The epoch built from the integer and fractional
parts of `d[1]` is `d[1]` itself. -/
def readLine (from_ to_ : ℚ) (line : List Char) (st : RState) : RState :=
  let (d, e) := readFields st.d line
  let vec := if d[1]! ≥ from_ ∧ d[1]! < to_ then st.vec ++ [⟨d[1]!, d[2]!, d[3]!, d[4]!⟩] else st.vec
  { st with vec := vec, d := d, error := st.error + e }

/-- The loop (parse_lambert_coeffs.cpp:96-97). The second result tells that `getline` failed on a long
line. -/
def readLoop (from_ to_ : ℚ) : List (List Char) → RState → RState × Bool
  | [], st => (st, false)
  | line :: lines, st =>
    if line.length ≥ LINE_LEN then (st, true) else
    if st.error ≠ 0 then (st, false) else
    let st := { st with lineNr := st.lineNr + 1 }
    if st.lineNr < 1000 then readLoop from_ to_ lines (readLine from_ to_ line st) else (st, false)

/-- `parse_lambert_coefficients` (parse_lambert_coeffs.cpp:33-139). `file` is the list of the lines of the
file, or `none` if it cannot be opened; `junk` is the uninitialised `d`; `old` the caller's vector. The
result is the status and the vector. -/
def parseLambert (junk : List ℚ) (file : Option (List (List Char))) (from_ to_ : ℚ) (old : List (Coef ℚ)) :
    Nat × List (Coef ℚ) :=
  if to_ < from_ then (5, old) else
  match file with
  | none => (1, [])
  | some [] => (1, [])
  | some (header :: lines) =>
    if header.length ≥ LINE_LEN then (1, []) else
    if (skipWs header).head? ≠ some '%' then (2, []) else
    let (st, long) := readLoop from_ to_ lines ⟨[], junk, 0, 0⟩
    if st.error ≠ 0 ∨ st.lineNr ≥ 1000 then (3, st.vec) else
    if long then (4, st.vec) else (0, st.vec)

end Verif.Fcn
