/-
Specification of the line grammar, without offsets, spans, vectors or state machines.

    line    = [ "@" tags " " ] [ ":" prefix " " ] command [ " " rest ]
    rest    = [ "#" channel [ " " ] ] params
    tags    = key "=" value *( ";" key "=" value )
-/
import Verif.Base

namespace Tmi.Spec

/-- Split a string around the first occurrence of a byte. -/
def cut (x : UInt8) : Bytes → Option (Bytes × Bytes)
  | [] => none
  | y :: t =>
    if y = x then some ([], t)
    else match cut x t with
      | some (a, b) => some (y :: a, b)
      | none => none

theorem cut_length {x : UInt8} : ∀ {s a b : Bytes}, cut x s = some (a, b) → b.length < s.length
  | [], _, _, h => by simp [cut] at h
  | y :: t, a, b, h => by
    unfold cut at h
    split at h
    · simp at h; simp [← h.2]
    · split at h
      · rename_i a' b' h'
        have := cut_length h'
        simp at h
        simp [← h.2]; omega
      · simp at h

/-- The key/value pairs of a tag section: a key ends at the first `=`, a value at the next `;`. -/
def splitTags (s : Bytes) : List (Bytes × Bytes) :=
  match _h : cut EQS s with
  | none => []
  | some (k, r) =>
    match _h' : cut SEMI r with
    | none => [(k, r)]
    | some (v, r') => (k, v) :: splitTags r'
termination_by s.length
decreasing_by
  have := cut_length _h
  have := cut_length _h'
  omega

/-- The pieces of a line. -/
structure Line where
  /-- key/value pairs, in order -/
  tags : List (Bytes × Bytes)
  /-- text between `:` and the next space -/
  prefix? : Option Bytes
  /-- command token -/
  command : Bytes
  /-- `#`-token right after the command -/
  channel : Option Bytes
  /-- everything else, if not empty -/
  params : Option Bytes
deriving DecidableEq, Repr

/-- Optional tag section: its text and the rest of the line. -/
def takeTags (s : Bytes) : Option Bytes × Bytes :=
  match s with
  | c :: r =>
    if c = AT then
      match cut SP r with
      | some (t, rest) => (some t, rest)
      | none => (none, s)
    else (none, s)
  | [] => (none, s)

/-- Optional prefix: its text and the rest of the line. -/
def takePrefix (s : Bytes) : Option Bytes × Bytes :=
  match s with
  | c :: r =>
    if c = COLON then
      match cut SP r with
      | some (p, rest) => (some p, rest)
      | none => (none, s)
    else (none, s)
  | [] => (none, s)

/-- A token up to the next space (or the end), and what follows that space. -/
def takeToken (s : Bytes) : Bytes × Bytes :=
  match cut SP s with
  | some (c, rest) => (c, rest)
  | none => (s, [])

/-- Optional `#channel` token. -/
def takeChannel (s : Bytes) : Option Bytes × Bytes :=
  match s with
  | c :: _ => if c = HASH then ((some (takeToken s).1), (takeToken s).2) else (none, s)
  | [] => (none, s)

/-- The line grammar.  `none`: there is no command. -/
def line (s : Bytes) : Option Line :=
  let (tags, s) := takeTags s
  let (pfx, s) := takePrefix s
  let (cmd, s) := takeToken s
  let (chan, s) := takeChannel s
  if cmd = [] then none
  else some {
    tags := match tags with | some t => splitTags t | none => []
    prefix? := pfx
    command := cmd
    channel := chan
    params := if s = [] then none else some s }

/-- The tag pairs of a line (empty when there is no tag section). -/
def tagPairs (s : Bytes) : List (Bytes × Bytes) :=
  match (takeTags s).1 with
  | some t => splitTags t
  | none => []

/-- The documented capacity of the parser: lines shorter than 4 GiB, at most 128 tags, keys and
values of at most 65535 bytes. -/
structure Within (s : Bytes) : Prop where
  len : s.length < 4294967296
  count : (tagPairs s).length ≤ 128
  sizes : ∀ kv ∈ tagPairs s, kv.1.length < 65536 ∧ kv.2.length < 65536

end Tmi.Spec

namespace Tmi.Spec

/-- Split a string around the last occurrence of a byte. -/
def cutLast (x : UInt8) : Bytes → Option (Bytes × Bytes)
  | [] => none
  | y :: t =>
    match cutLast x t with
    | some (a, b) => some (y :: a, b)
    | none => if y = x then some ([], t) else none

/-- The host of a prefix: what follows the last `@`. -/
def hostOf (p : Bytes) : Bytes :=
  match cutLast AT p with
  | some (_, h) => h
  | none => p

/-- The nick of a prefix: what precedes the last `!`, or else the last `@`. -/
def nickOf (p : Bytes) : Option Bytes :=
  match cutLast BANG p with
  | some (n, _) => some n
  | none => (cutLast AT p).map (·.1)

/-- The user of a prefix: between the last `@` and the last `!` before it. -/
def userOf (p : Bytes) : Option Bytes :=
  match cutLast AT p with
  | some (q, _) => (cutLast BANG q).map (·.2)
  | none => none

/-- The value of the first pair with the given key. -/
def lookup (key : Bytes) : List (Bytes × Bytes) → Option Bytes
  | [] => none
  | (k, v) :: r => if k = key then some v else lookup key r

/-- The text of a message: what follows the first `:` of its params, or all of them. -/
def textOf (params : Bytes) : Bytes :=
  match cut COLON params with
  | some (_, t) => t
  | none => params

end Tmi.Spec

namespace Tmi.Spec

/-- Render pairs as `k1=v1;k2=v2;...`. -/
def renderTags : List (Bytes × Bytes) → Bytes
  | [] => []
  | [(k, v)] => k ++ EQS :: v
  | (k, v) :: rest => k ++ EQS :: (v ++ SEMI :: renderTags rest)

end Tmi.Spec
