/-
What becomes of keys and values that are too long: the parser keeps the lengths of keys and values modulo
65536.
-/
import Verif.Spec.Line

namespace Tmi.Spec

/-- The key that is reported for a pair whose key has `n` bytes: the first `n % 65536` bytes of the line from
the key on (`text`); `none` when that is inside a character. -/
def shortKey (text : Bytes) (n : Nat) : Option Bytes :=
  if isCharBoundary text (n % 65536) then some (text.take (n % 65536)) else none

/-- The value that is reported for a pair whose key has `n` and whose value has `v` bytes: it starts one byte
after the reported key and has `v % 65536` bytes; `none` when it does not start and end between
characters. -/
def shortValue (text : Bytes) (n v : Nat) : Option Bytes :=
  if isCharBoundary text (n % 65536 + 1) && isCharBoundary text (n % 65536 + 1 + v % 65536) then
    some ((text.drop (n % 65536 + 1)).take (v % 65536))
  else none

/-- The reported keys and values of a tag section followed by `after`. -/
def shortTags (after : Bytes) (s : Bytes) : List (Option Bytes × Option Bytes) :=
  match _h : cut EQS s with
  | none => []
  | some (k, r) =>
    match _h' : cut SEMI r with
    | none => [(shortKey (s ++ after) k.length, shortValue (s ++ after) k.length r.length)]
    | some (v, r') =>
      (shortKey (s ++ after) k.length, shortValue (s ++ after) k.length v.length) :: shortTags after r'
termination_by s.length
decreasing_by
  have := cut_length _h
  have := cut_length _h'
  omega

/-- The reported keys and values of a line. -/
def shortTagsOf (s : Bytes) : List (Option Bytes × Option Bytes) :=
  match (takeTags s).1 with
  | some t => shortTags (SP :: (takeTags s).2) t
  | none => []

/-- All of them, when all are strings. -/
def allStrings : List (Option Bytes × Option Bytes) → Option (List (Bytes × Bytes))
  | [] => some []
  | (some k, some v) :: r => (allStrings r).map ((k, v) :: ·)
  | _ :: _ => none

/-- The first value whose key is `key`; a key before it, or the value itself, that is not a string is an
error (`none`). -/
def lookupShort (key : Bytes) : List (Option Bytes × Option Bytes) → Option (Option Bytes)
  | [] => some none
  | (none, _) :: _ => none
  | (some k, v) :: r => if k = key then v.map some else lookupShort key r

end Tmi.Spec
