import Verif.Model.Planets
/-
Decimal numbers.
-/
namespace Verif.Planets

/-- Value of a string of decimal digits. -/
def decimal (cs : List Nat) : Nat := cs.foldl (fun a c => 10 * a + (c - 48)) 0

/-- Non-empty, digits only, no superfluous leading zero. -/
def IsDecimal (cs : List Nat) : Prop :=
  cs ≠ [] ∧ (∀ c ∈ cs, 48 ≤ c ∧ c ≤ 57) ∧ (cs.head? = some 48 → cs = [48])

/-- The NAIF identifiers (https://naif.jpl.nasa.gov/pub/naif/toolkit_docs/C/req/naif_ids.html): planet
number times 100 plus 99; the Moon is body 1 of planet 3; the Sun is 10. -/
def naif : Planet → Int
  | .sun => 10
  | .mercury => 199
  | .venus => 299
  | .moon => 301
  | .earth => 399
  | .mars => 499
  | .jupiter => 599
  | .saturn => 699

end Verif.Planets
