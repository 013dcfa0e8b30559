/-
Specification of tag escaping, on characters.
-/
import Verif.Base

namespace Tmi.Spec

/-- Escaping one character (https://ircv3.net/specs/extensions/message-tags.html, and the `⸝` that
Twitch uses for a comma). -/
def escapeChar (c : Char) : List Char :=
  if c = ';' then ['\\', ':']
  else if c = ' ' then ['\\', 's']
  else if c = '\\' then ['\\', '\\']
  else if c = '\r' then ['\\', 'r']
  else if c = '\n' then ['\\', 'n']
  else if c = ',' then ['⸝']
  else [c]

/-- Escaping a string. -/
def escape (cs : List Char) : List Char := cs.flatMap escapeChar

/-- What a backslash followed by `c` stands for. -/
def escaped (c : Char) : Char :=
  if c = ':' then ';'
  else if c = 's' then ' '
  else if c = 'r' then '\r'
  else if c = 'n' then '\n'
  else c

/-- Characters with a meaning after a backslash. -/
def known (c : Char) : Prop := c = ':' ∨ c = 's' ∨ c = '\\' ∨ c = 'r' ∨ c = 'n'

/-- Unescaping where a backslash only affects the next character (and a lone backslash at the end is
dropped). -/
def unesc : List Char → List Char
  | [] => []
  | c :: r =>
    if c = '\\' then
      match r with
      | d :: r' => escaped d :: unesc r'
      | [] => []
    else if c = '⸝' then ',' :: unesc r
    else c :: unesc r

/-- Every backslash that starts an escape is followed by a character with a meaning, or ends the
string. -/
def WellEscaped : List Char → Prop
  | [] => True
  | c :: r =>
    if c = '\\' then
      match r with
      | d :: r' => known d ∧ WellEscaped r'
      | [] => True
    else WellEscaped r

end Tmi.Spec
