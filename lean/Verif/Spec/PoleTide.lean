import Verif.Model.PoleTide
import Verif.Spec.Chars
/-
The pole tide as the IERS Conventions state it: section 6.4 (solid Earth, (2,1)), 6.5 (ocean), 7.1.4 and 7.1.5 (displacements); the
secular pole of the 2018 update.
-/
namespace Verif.PoleTide
open Verif Verif.Chars

/-- The secular pole in arcseconds, `dt` years after 2000.0: x 55.0 mas and 1.677 mas per year, y 320.5 mas and 3.460 mas per year. -/
noncomputable def poleX (dt : ℝ) : ℝ := 0.055 + 0.001677 * dt
noncomputable def poleY (dt : ℝ) : ℝ := 0.3205 + 0.00346 * dt

/-- Directions at a site: radial, along the colatitude (south), along the longitude (east). -/
noncomputable def up (lon lat : ℝ) : V3 := ⟨Real.cos lat * Real.cos lon, Real.cos lat * Real.sin lon, Real.sin lat⟩
noncomputable def south (lon lat : ℝ) : V3 := ⟨Real.sin lat * Real.cos lon, Real.sin lat * Real.sin lon, -Real.cos lat⟩
noncomputable def east (lon _lat : ℝ) : V3 := ⟨-Real.sin lon, Real.cos lon, 0⟩

/-- Eq. 6.24: `a` and `b` are the real and imaginary coefficients; angles m1 and m2 in radians. -/
noncomputable def oceanFormula (Om a GM G ge m1 m2 : ℝ) (l : Nat) (x y : ℝ) : ℝ :=
  (Om ^ 2 * a ^ 4 / GM) * (4 * Real.pi * G * 1025 / ge) * ((1 + kn l) / (2 * l + 1)) *
    (x * (m1 * 0.6870 + m2 * 0.0036) + y * (m2 * 0.6870 - m1 * 0.0036))

/-- Arcseconds to radians. -/
noncomputable def rad (s : ℝ) : ℝ := s * (Real.pi / 648000)

/-- What the line of a file says: degree, order, the four numbers. -/
structure Entry where
  l : Int
  m : Int
  ar : ℚ
  br : ℚ
  ai : ℚ
  bi : ℚ

/-- The line is the entry: two integers and four numbers, separated by blanks. -/
def Entry.Line (e : Entry) (line : List Char) : Prop :=
  ∃ r1 r2, BeginsInt line e.l r1 ∧ BeginsInt r1 e.m r2 ∧ LineIs r2 [e.ar, e.br, e.ai, e.bi]

/-- As `Entry.Line`, but the numbers may touch. -/
def Entry.LineHas (e : Entry) (line : List Char) : Prop :=
  ∃ r1 r2, BeginsInt line e.l r1 ∧ BeginsInt r1 e.m r2 ∧ Chars.LineHas r2 [e.ar, e.br, e.ai, e.bi]

/-- The entry of degree `l` and order `m`: the last one of the list, all zero if there is none. -/
def entryAt (es : List Entry) (l m : Nat) : Entry :=
  (es.reverse.find? fun e => decide (e.l = (l : Int) ∧ e.m = (m : Int))).getD ⟨l, m, 0, 0, 0, 0⟩

/-- The matrices hold the entries up to degree `n` and order `m`, and zero elsewhere. -/
def Desai.Holds (d : Desai) (es : List Entry) (n m : Int) : Prop :=
  d.rows = (n + 1).toNat ∧ ∀ l k : Nat, (l : Int) ≤ n → k ≤ l →
    let e := if (k : Int) ≤ m then entryAt es l k else ⟨l, k, 0, 0, 0, 0⟩
    d.ar l k = e.ar ∧ d.ai l k = e.ai ∧ d.br l k = e.br ∧ d.bi l k = e.bi

/-- An object a constructor with a file makes, after any calls: all matrices are of its degree. -/
structure Ocean.WF (o : Ocean) : Prop where
  deg : 0 ≤ o.deg ∧ o.deg ≤ 360
  ord : 0 ≤ o.ord ∧ o.ord ≤ o.deg
  rows : o.cs.rows = (o.deg + 1).toNat
  csdeg : o.cs.deg = o.deg
  desai : o.desai.rows = (o.deg + 1).toNat

end Verif.PoleTide
