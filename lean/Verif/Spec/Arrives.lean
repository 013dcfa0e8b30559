/-
What the receiver of a line reads in a tag.
-/
import Verif.Spec.Documented
import Verif.Spec.Escape

namespace Tmi.Spec

/-- Whoever gets the line `s`, and unescapes tag values as the protocol says, reads `t` in the tag `key`. -/
def ReadsTag (s key : Bytes) (t : List Char) : Prop :=
  ∃ l cs, line s = some l ∧ l.tag key = some (enc cs) ∧ unesc cs = t

/-- Characters that mean themselves in a tag value. -/
def Literally (c : Char) : Prop := c ≠ ';' ∧ c ≠ ' ' ∧ c ≠ '\\' ∧ c ≠ '⸝'

end Tmi.Spec
