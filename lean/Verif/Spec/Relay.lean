/-
The server between two clients: what it understands from the lines of one, and what it then tells the other.
https://dev.twitch.tv/docs/chat/irc (PRIVMSG, JOIN, replies)
-/
import Verif.Spec.Server

namespace Tmi.Spec
open Tmi.Model

/-- What a client can ask the server for, as far as others are to know of it. -/
inductive Request where
  /-- a message in a channel, perhaps as a reply to the message with that id -/
  | say (channel text : Bytes) (replyTo : Option Bytes)
  /-- to become a member of a channel -/
  | enter (channel : Bytes)
deriving DecidableEq, Repr

/-- What the server understands from a line, by the line grammar. -/
def requests (s : Bytes) : List Request :=
  match line s with
  | none => []
  | some l =>
    if l.command = b!"PRIVMSG" then
      match l.channel, l.text with
      | some ch, some t => [.say ch t (l.tag (b!"reply-parent-msg-id"))]
      | _, _ => []
    else if l.command = b!"JOIN" then
      match l.channel with
      | some chs => (fields COMMA chs).map .enter
      | none => []
    else []

/-- What a program asks for with a call of the API. -/
def asked : Cmd → List Request
  | .privmsg ch t r _ => [.say ch t r]
  | .join c => [.enter (channelName c)]
  | .joinAll cs => cs.map fun c => .enter (channelName c)
  | _ => []

/-- Arguments without the bytes that end what they are written into (and not `send_raw`). -/
def PlainCmd : Cmd → Prop
  | .privmsg ch t r n => ch.head? = some HASH ∧ SP ∉ ch ∧ LF ∉ ch ∧ LF ∉ t ∧
    ∀ v, r = some v ∨ n = some v → SEMI ∉ v ∧ SP ∉ v ∧ LF ∉ v
  | .ping n => LF ∉ n
  | .pong n => ∀ v, n = some v → LF ∉ v
  | .join c => SP ∉ c ∧ COMMA ∉ c ∧ LF ∉ c
  | .joinAll cs => ∀ c ∈ cs, SP ∉ c ∧ COMMA ∉ c ∧ LF ∉ c
  | .raw _ => False

/-- The server tells the members of the channel what the user `login` asked for. -/
def Relays (login : Bytes) : Request → Said → Prop
  | .say ch t r, .chat c =>
    c.login = login ∧ HASH :: c.channel = ch ∧ actionText c.action c.text = t ∧ c.reply.map (·.id) = r
  | .enter ch, .joined l c => l = login ∧ HASH :: c = ch
  | _, _ => False

/-- What a program that listens learns of it. -/
def Learnt (login : Bytes) : Request → Message → Prop
  | .say ch t r, m => ∃ p, m = .privmsg p ∧ Getter.User.login (Getter.Privmsg.sender p) = login ∧
    Getter.Privmsg.channel p = ch ∧ actionText (Getter.Privmsg.isAction p) (Getter.Privmsg.text p) = t ∧
    (Getter.Privmsg.replyTo p).map Getter.Reply.messageId = r
  | .enter ch, m => ∃ v, m = .join v ∧ Getter.Join.user v = login ∧ Getter.Join.channel v = ch

/-- The server relays what it understands from these bytes, in order. -/
def RelaysAll (login : Bytes) (bytes : Bytes) (says : List Said) : Prop :=
  says.length = ((receivedLines bytes).flatMap requests).length ∧
  ∀ (i : Nat) (r : Request) (s : Said),
    ((receivedLines bytes).flatMap requests)[i]? = some r → says[i]? = some s → Relays login r s

/-- What the greeting program asks for when the server sends this. -/
def greeted : Utterance → List Request
  | .spoken (.said (.chat c)) =>
    if b!"!yo" <+: c.text then [.say (HASH :: c.channel) (b!"yo") (some c.id)] else []
  | _ => []

end Tmi.Spec
