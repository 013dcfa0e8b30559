/-
What a message may consist of without anything being copied: pieces of the line.
-/
import Verif.Spec.Room

namespace Tmi.Spec
open Tmi.Model

/-- Every text of the message is a piece of the line, except the colour of an announcement that has none, and the months
of a subscriber whose months are not given: these are fixed texts. -/
structure Pieces (s : Bytes) (M : Message) : Prop where
  texts : ∀ t ∈ messageTexts M, t <:+: s ∨ (t = b!"PRIMARY" ∧ ∃ v, M = .userNotice v ∧ v.event = .announcement t)
  badges : ∀ x ∈ messageBadges M, ∀ t ∈ badgeTexts x, t <:+: s ∨ (t = b!"1" ∧ ∃ v, x = .subscriber v ∧ v.months = t)

/-- Every text that can be asked of a raw message is a piece of the line. -/
structure RawPieces (s : Bytes) (m : MsgRef) : Prop where
  tags : ∀ l, m.tags = .ok l → ∀ k v, (k, v) ∈ l → k <:+: s ∧ v <:+: s
  tag : ∀ t v, m.tag t = .ok (some v) → v <:+: s
  nick : ∀ p v, m.prefix? = .ok (some p) → p.nick = some v → v <:+: s
  user : ∀ p v, m.prefix? = .ok (some p) → p.user = some v → v <:+: s
  host : ∀ p, m.prefix? = .ok (some p) → p.host <:+: s
  command : ∀ w, m.command = .ok (.other w) → w <:+: s
  channel : ∀ v, m.channel = .ok (some v) → v <:+: s
  params : ∀ v, m.params = .ok (some v) → v <:+: s
  text : ∀ v, m.text = .ok (some v) → v <:+: s

end Tmi.Spec
