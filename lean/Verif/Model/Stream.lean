import Verif.Model.Base
/-
Input file streams (`std::ifstream`) as the readers use them: unread characters and the two state bits.

Simplification: files hold no zero bytes, and reading does not fail for reasons outside the text.
-/
namespace Verif

/-- An open `std::ifstream`: unread text, `eofbit`, `failbit`. -/
structure In where
  rest : List Char
  eof : Bool
  fail : Bool

namespace In

/-- A stream just opened. -/
def start (text : List Char) : In := ⟨text, false, false⟩

/-- `good()`. -/
def good (s : In) : Bool := !s.eof && !s.fail

/-- `getline(line, max)`: what the buffer holds afterwards, whether the stream is true afterwards, the stream. At most
`max - 1` characters are stored; a longer line leaves the stream in the middle of the line and sets `failbit`. -/
def getline (max : Nat) (s : In) : List Char × Bool × In :=
  if s.eof || s.fail then ([], false, { s with fail := true })
  else
    let l := s.rest.takeWhile (· ≠ '\n')
    if l.length < max then
      match s.rest.dropWhile (· ≠ '\n') with
      | _ :: r => (l, true, ⟨r, false, false⟩)
      | [] => if l = [] then ([], false, ⟨[], true, true⟩) else (l, true, ⟨[], true, false⟩)
    else (l.take (max - 1), false, ⟨s.rest.drop (max - 1), false, true⟩)

/-- `getline` `n` times. -/
def skip (max : Nat) : Nat → In → In
  | 0, s => s
  | n + 1, s => skip max n (s.getline max).2.2

/-- `clear()`. -/
def clear (s : In) : In := { s with eof := false, fail := false }

/-- `seekg(0)` on a stream of `text`: it clears `eofbit` and does nothing if `failbit` is set. -/
def seek0 (s : In) (text : List Char) : In := if s.fail then { s with eof := false } else ⟨text, false, false⟩

end In
end Verif
