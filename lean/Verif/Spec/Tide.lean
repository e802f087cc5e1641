import Verif.Model.Tide
/-
What a tide model is supposed to give.
-/
namespace Verif.Tide
open Verif Verif.Doodson

/-- The astronomical angle of a constituent (IERS Conventions 2010, section 6.1): the multipliers times the mean longitudes,
written with the Delaunay arguments. -/
noncomputable def angle (d : DC) (gmst l l' F D Om : ℝ) : ℝ :=
  d.i0 * (gmst + Real.pi - (F + Om)) + d.i1 * (F + Om) + d.i2 * (F + Om - D) + d.i3 * (F + Om - l) + d.i4 * (-Om) +
    d.i5 * (F + Om - D - l')

/-- The set holds `c` and `s` (at the places that exist) and has the dimensions of `m`. -/
def IsSet (m m' : Coeffs ℝ) (c s : Nat → Nat → ℝ) : Prop :=
  m'.deg = m.deg ∧ m'.ord = m.ord ∧ m'.rows = m.rows ∧ ∀ i j, j ≤ i → i < m.rows → m'.C i j = c i j ∧ m'.S i j = s i j

/-- The sum over the constituents of in-phase coefficients times cosine plus quadrature coefficients times sine. -/
noncomputable def potential (a : Atlas) (θ : DC → ℝ) (v : Coeffs ℝ → Nat → Nat → ℝ) (i j : Nat) : ℝ :=
  (a.map fun w => v w.cos i j * Real.cos (θ w.d) + v w.sin i j * Real.sin (θ w.d)).sum

/-- All coefficient sets have `k` rows. -/
def SameSize (a : Atlas) (k : Nat) : Prop := ∀ w ∈ a, w.cos.rows = k ∧ w.sin.rows = k

/-- A sequence of appends; one that throws is caught and the program goes on. -/
def appends (a : Atlas) (ws : List Constituent) : Atlas := ws.foldl (fun a w => (append a w).2) a

/-- Degree and order of one set are not larger than those of the other. -/
def Le (c c' : Coeffs ℝ) : Prop := c.deg ≤ c'.deg ∧ c.ord ≤ c'.ord

/-- A sequence of appends to an atmospheric model, whatever their status. -/
noncomputable def atmAppends {T : Type} (junk : Nat → Nat → ℝ) : List (Option (Aod1b.Aod T × DC) × Int × Int) → Atm → Res Atm
  | [], x => .ok x
  | (f, n, m) :: qs, x => (x.append junk f n m).bind fun r => atmAppends junk qs r.2

/-- A sequence of evaluations of an ocean model. -/
noncomputable def oceanCalls : List (Iau.Epoch × Iau.Epoch × (Fin 5 → ℝ)) → Ocean → Res Ocean
  | [], o => .ok o
  | (tt, ut1, args) :: qs, o => (o.coeffs tt ut1 args).bind (oceanCalls qs)

end Verif.Tide
