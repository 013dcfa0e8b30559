/-
Programs that repeat what they were told.
-/
import Verif.Spec.PassOn
import Verif.Spec.Pieces
import Verif.Spec.Relay

namespace Tmi.Spec
open Tmi.Model

/-- What the API tells a program about the messages that it receives, and what can be cut from it. -/
inductive FromTold (b : Build) : Bytes → Prop
  | raw {m : MsgOwned} : Received b m → FromTold b m.raw
  | tag {m : MsgOwned} {t : Tag} {v : Bytes} : Received b m → m.tag t = .ok (some v) → FromTold b v
  | nick {m : MsgOwned} {p : Prefix} {v : Bytes} :
    Received b m → m.prefix? = .ok (some p) → p.nick = some v → FromTold b v
  | params {m : MsgOwned} {v : Bytes} : Received b m → m.params = .ok (some v) → FromTold b v
  | text {m : MsgOwned} {v : Bytes} : Received b m → m.text = .ok (some v) → FromTold b v
  /-- a text of the typed message, as it came -/
  | typed {m : MsgOwned} {M : Message} {v : Bytes} :
    Received b m → m.asTyped = .ok (some M) → v ∈ messageTexts M → FromTold b v
  /-- a text that `maybe_unescape` (in `User::name`, `Reply::text`, `UserNotice::system_message`) makes of a tag by
  which the server means a text without a line feed -/
  | unescaped {v u : Bytes} {cs : List Char} :
    FromTold b v → v = enc (escape cs) → '\n' ∉ cs → maybeUnescape v = .ok u → FromTold b u
  /-- a word of it, what follows a prefix, and the like -/
  | piece {u v : Bytes} : FromTold b u → v <:+: u → FromTold b v

/-- A text that a program puts together from what it was told and from words of its own. -/
inductive Words (b : Build) : Bytes → Prop
  | own {s : Bytes} : LF ∉ s → Words b s
  | told {s : Bytes} : FromTold b s → Words b s
  | both {s t : Bytes} : Words b s → Words b t → Words b (s ++ t)

/-- A chat message that was received. -/
def ReceivedChat (b : Build) (p : Privmsg) : Prop :=
  ∃ m, Received b m ∧ Readable b m.raw ∧ m.asTyped = .ok (some (.privmsg p))

/-- A channel in which a chat message was received, the channel of another message that was received (except for the
lists of names, where `channel()` is cut out of the params), or one that the program names. -/
def ChatPlace (b : Build) (ch : Bytes) : Prop :=
  (∃ p, ReceivedChat b p ∧ ch = Getter.Privmsg.channel p) ∨
  (∃ m c, Received b m ∧ Readable b m.raw ∧ m.command = .ok c ∧ c ≠ .rplNames ∧ c ≠ .rplEndOfNames ∧
    m.channel = .ok (some ch)) ∨
  (ch.head? = some HASH ∧ SP ∉ ch ∧ LF ∉ ch)

/-- The id of a chat message that was received, or a tag of another message that was received. -/
def KnownId (b : Build) (v : Bytes) : Prop :=
  (∃ p, ReceivedChat b p ∧ v = Getter.Privmsg.id p) ∨
  (∃ m t, Received b m ∧ Readable b m.raw ∧ m.tag t = .ok (some v))

/-- The calls of a program that repeats what it was told: it writes such texts into such channels, perhaps in reply to
messages that it received, pings with such texts, and joins such channels. -/
def Repeats (b : Build) : Cmd → Prop
  | .privmsg ch t r n => ChatPlace b ch ∧ Words b t ∧
    (∀ v, r = some v → KnownId b v) ∧ n = none
  | .ping n => Words b n
  | .pong n => ∀ v, n = some v → Words b v
  | .join c => ChatPlace b c ∧ COMMA ∉ c
  | .joinAll cs => ∀ c ∈ cs, ChatPlace b c ∧ COMMA ∉ c
  | .raw _ => False

end Tmi.Spec
