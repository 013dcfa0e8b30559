/-
The replies in which a server lists the members of a channel (353 and 366), and a program that collects them.
https://www.rfc-editor.org/rfc/rfc2812#section-3.2.5
-/
import Verif.Spec.Words
import Verif.Spec.Reads
import Verif.Spec.Track

namespace Tmi.Spec
open Tmi.Model

/-- A word: some characters, none of them white. -/
def IsWord (w : Bytes) : Prop := ∃ cs, w = enc cs ∧ cs ≠ [] ∧ ∀ c ∈ cs, isWhite c = false

/-- What a server sends. -/
inductive Roll where
  /-- some of the members of a channel -/
  | names (channel : Bytes) (members : List Bytes)
  /-- those were all -/
  | ended (channel : Bytes)
  /-- any other line -/
  | other (s : Bytes)

/-- Words with a space between them. -/
def spaced : List Bytes → Bytes
  | [] => []
  | [w] => w
  | w :: ws => w ++ SP :: spaced ws

/-- The line in which it is sent by the server `host` to the user `me`. -/
def Roll.line (host me : Bytes) : Roll → Bytes
  | .names channel members => b!":" ++ host ++ b!" 353 " ++ me ++ b!" = #" ++ channel ++ b!" :" ++ spaced members
  | .ended channel => b!":" ++ host ++ b!" 366 " ++ me ++ b!" #" ++ channel ++ b!" :End of /NAMES list"
  | .other s => s

/-- Channels and members have names. -/
def Roll.Ok : Roll → Prop
  | .names channel members => IsWord channel ∧ COLON ∉ channel ∧ ∀ m ∈ members, IsWord m
  | .ended channel => IsWord channel
  | .other s => ∃ l, Spec.line s = some l ∧ l.command ≠ b!"353" ∧ l.command ≠ b!"366"

/-- The members of a channel that are listed. -/
def namesOf (channel : Bytes) : Roll → List Bytes
  | .names c members => if c = channel then members else []
  | _ => []

/-- The server lists members of this channel. -/
def Roll.About (channel : Bytes) : Roll → Prop
  | .names c _ => c = channel
  | .ended c => c = channel
  | .other _ => False

/-- What a program knows about the members of a channel. -/
structure KnownRoll where
  names : List Bytes
  /-- are those all? -/
  complete : Bool
deriving DecidableEq, Repr

/-- A program that collects the members, with the accessors of `IrcMessage`: the words of `text()` of each 353, under its
`channel()`, until the 366 for that channel; after that it starts again. -/
def noteRoll (known : Bytes → KnownRoll) (m : MsgOwned) : Bytes → KnownRoll :=
  match m.command, m.channel, m.text with
  | .ok .rplNames, .ok (some ch), .ok (some t) =>
    change known ch fun k => ⟨(if k.complete then [] else k.names) ++ splitWhitespace t, false⟩
  | .ok .rplEndOfNames, .ok (some ch), _ => change known ch fun k => ⟨if k.complete then [] else k.names, true⟩
  | _, _, _ => known

/-- What it knows at first: nothing. -/
def noRoll : Bytes → KnownRoll := fun _ => ⟨[], false⟩

end Tmi.Spec
