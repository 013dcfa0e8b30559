/-
Specification of some of what the documentation of the message types promises (properties C82 to C86), in terms of the
tags of a line.
-/
import Verif.Spec.Msg
import Verif.Spec.Unescape

namespace Tmi.Spec
open Tmi.Model (Badge Message)

/-- Whoever caused a USERNOTICE did so anonymously: the event is an anonymous gift, or the user is the one Twitch uses
for them. -/
def Anonymous (l : Line) : Prop :=
  l.tag (b!"msg-id") = some (b!"anonsubgift") ∨ l.tag (b!"msg-id") = some (b!"anonsubmysterygift") ∨
    l.tag (b!"user-id") = some anonymousGifterId

/-- A character that Twitch sends as it is. -/
def Plain (c : Char) : Prop := c ≠ ';' ∧ c ≠ ' ' ∧ c ≠ '\\' ∧ c ≠ '\r' ∧ c ≠ '\n' ∧ c ≠ ','

/-- What a getter returned, `got`, is the text that Twitch put, escaped, in the place `tag` if and only if that text
needs no escaping. -/
def GivesPlain (tag : Option Bytes) (got : Bytes) : Prop :=
  ∀ t, tag = some (enc (escape t)) → (got = enc t ↔ ∀ c ∈ t, Plain c)

/-- The list of emote sets in a message. -/
def emoteSetList : Message → Option (List Bytes)
  | .globalUserState v => some v.emoteSets
  | .userState v => some v.emoteSets
  | _ => none

/-- The list of badges in a message. -/
def badgeList : Message → Option (List Badge)
  | .globalUserState v => some v.badges
  | .userState v => some v.badges
  | .privmsg v => some v.badges
  | .userNotice v => some v.badges
  | .whisper v => some v.badges
  | _ => none

end Tmi.Spec
