/-
Model of tag unescaping: src/irc.rs:339-370 (`unescape`), src/lib.rs:44-94 (`maybe_unescape`).
-/
import Verif.Model.Chars

namespace Tmi.Model
open Tmi.Spec (enc)

/-- The loop of `unescape` (src/irc.rs:342-368): arms in source order.  `escape` is the local flag. -/
def unescapeGo : List Char → (escape : Bool) → List Char
  | [], _ => []
  | c :: cs, escape =>
    if c = ':' && escape then ';' :: unescapeGo cs false
    else if c = 's' && escape then ' ' :: unescapeGo cs false
    else if c = '\\' && escape then '\\' :: unescapeGo cs false
    else if c = 'r' && escape then '\r' :: unescapeGo cs false
    else if c = 'n' && escape then '\n' :: unescapeGo cs false
    else if c = '⸝' then ',' :: unescapeGo cs escape
    else if c = '\\' then unescapeGo cs true
    else c :: unescapeGo cs escape

/-- `unescape` (src/irc.rs:339-370). -/
def unescape (value : Bytes) : Bytes := enc (unescapeGo (decode value) false)

/-- The loop of `actually_unescape` (src/lib.rs:64-91): arms in source order. -/
def actuallyGo : List Char → (escape : Bool) → List Char
  | [], _ => []
  | c :: cs, escape =>
    if c = '\\' && escape then '\\' :: actuallyGo cs false
    else if c = '\\' then actuallyGo cs true
    else if c = ':' && escape then ';' :: actuallyGo cs false
    else if c = 's' && escape then ' ' :: actuallyGo cs false
    else if c = 'r' && escape then '\r' :: actuallyGo cs false
    else if c = 'n' && escape then '\n' :: actuallyGo cs false
    else if c = '⸝' then ',' :: actuallyGo cs escape
    else c :: actuallyGo cs escape

/-- `actually_unescape` (src/lib.rs:59-94). -/
def actuallyUnescape (input : Bytes) (start : Nat) : R Bytes := do
  let head ← strSlice input 0 start
  let tail ← strFrom input start
  return head ++ enc (actuallyGo (decode tail) false)

/-- `maybe_unescape` (src/lib.rs:48-57): the `for` loop stops at the first backslash byte. -/
def maybeUnescape (value : Bytes) : R Bytes :=
  match find BSLASH value with
  | some i => actuallyUnescape value i
  | none => .ok value

end Tmi.Model
