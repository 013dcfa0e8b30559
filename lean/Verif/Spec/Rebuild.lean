/-
Specification of C16: writing a line from the pieces that a parsed message exposes, and the lines that
come back unchanged.
-/
import Verif.Spec.Line

namespace Tmi.Spec

/-- The line with these tags, prefix, command, channel and params. -/
def rebuild (tags : List (Bytes × Bytes)) (pfx : Option Bytes) (cmd : Bytes)
    (chan params : Option Bytes) : Bytes :=
  (if tags = [] then [] else [AT] ++ renderTags tags ++ [SP])
    ++ (match pfx with | some p => [COLON] ++ p ++ [SP] | none => [])
    ++ cmd
    ++ (match chan with | some c => [SP] ++ c | none => [])
    ++ (match params with | some p => [SP] ++ p | none => [])

/-- The text between `@` and the first space is a list of `key=value` separated by `;`. -/
def TagsCanonical (s : Bytes) : Prop :=
  ∀ t rest, s = AT :: (t ++ SP :: rest) → SP ∉ t →
    ∃ ps : List (Bytes × Bytes), ps ≠ [] ∧ (∀ p ∈ ps, EQS ∉ p.1 ∧ SEMI ∉ p.2) ∧ t = renderTags ps

/-- The prefix has no `!` after its last `@`. -/
def PrefixCanonical (s : Bytes) : Prop :=
  ∀ l p, line s = some l → l.prefix? = some p → BANG ∉ hostOf p

/-- The line does not end with a space behind which the params are missing. -/
def EndCanonical (s : Bytes) : Prop :=
  ∀ l, line s = some l → l.params = none → s.getLast? ≠ some SP

end Tmi.Spec
