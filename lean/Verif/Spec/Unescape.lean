/-
Specification of reading an escaped text.
-/
import Verif.Spec.Escape
import Verif.Spec.Words

namespace Tmi.Spec

/-- The characters that are escaped with a backslash. -/
def special : List Char := [';', ' ', '\\', '\r', '\n']

/-- Text that a getter can give back: it has no comma, which Twitch would replace by `⸝`, before the first character
that needs a backslash, and no `⸝` after it. -/
def Recoverable (t : List Char) : Prop :=
  ∃ p r, t = p ++ r ∧ (∀ c ∈ p, c ∉ special) ∧ (r = [] ∨ ∃ c r', r = c :: r' ∧ c ∈ special) ∧ ',' ∉ p ∧ '⸝' ∉ r

/-- `get` gives back every recoverable text that was put, escaped, in the place `o`. -/
def GivesBack (o : Option Bytes) (get : Except Fault Bytes) : Prop :=
  ∀ t, Recoverable t → o = some (enc (escape t)) → get = .ok (enc t)

end Tmi.Spec
