/-
What it means that a parsed message exposes the pieces of a line, and which lines the parser handles.
-/
import Verif.Spec.Line
import Verif.Model.Irc

namespace Tmi.Spec
open Tmi.Model

/-- The spelling of every command that has a variant of its own. -/
def commandNames : List (Bytes × Command) := [
  (b!"PING", .ping), (b!"PONG", .pong), (b!"JOIN", .join), (b!"PART", .part),
  (b!"PRIVMSG", .privmsg), (b!"WHISPER", .whisper), (b!"CLEARCHAT", .clearChat),
  (b!"CLEARMSG", .clearMsg), (b!"GLOBALUSERSTATE", .globalUserState), (b!"NOTICE", .notice),
  (b!"RECONNECT", .reconnect), (b!"ROOMSTATE", .roomState), (b!"USERNOTICE", .userNotice),
  (b!"USERSTATE", .userState), (b!"CAP", .capability), (b!"001", .rplWelcome),
  (b!"002", .rplYourHost), (b!"003", .rplCreated), (b!"004", .rplMyInfo), (b!"353", .rplNames),
  (b!"366", .rplEndOfNames), (b!"372", .rplMotd), (b!"375", .rplMotdStart), (b!"376", .rplEndOfMotd)]

/-- The commands with a variant of their own. -/
def knownCommands : List Command :=
  [.ping, .pong, .join, .part, .privmsg, .whisper, .clearChat, .clearMsg, .globalUserState, .notice,
   .reconnect, .roomState, .userNotice, .userState, .capability, .rplWelcome, .rplYourHost,
   .rplCreated, .rplMyInfo, .rplNames, .rplEndOfNames, .rplMotd, .rplMotdStart, .rplEndOfMotd]

/-- The command spelled `tok`: the known command with that name, or `Other`. -/
def commandOf (tok : Bytes) : Command :=
  (knownCommands.find? fun c => c.asStr == tok).getD (.other tok)

/-- What a parsed message exposes, in terms of the pieces of the line. -/
structure Represents (m : MsgRef) (l : Line) : Prop where
  tags : m.tags = .ok l.tags
  tag : ∀ t : Tag, m.tag t = .ok (lookup t.asStr l.tags)
  prefix? : m.prefix? = .ok (l.prefix?.map fun p => ⟨nickOf p, userOf p, hostOf p⟩)
  command : m.command = .ok (commandOf l.command)
  rawChannel : optSlice m.src m.parts.channel = .ok l.channel
  params : m.params = .ok l.params
  text : m.text = .ok (l.params.map textOf)

/-- When the tag parser of a build accepts a line: the scalar parser needs a space after `@`. -/
def TagsTerminated (b : Build) (s : Bytes) : Prop :=
  b.tagParser = .scalar → ∀ r, s = AT :: r → SP ∈ r

/-- A line that parsing handles: valid UTF-8, within the limits of the tag representation, with a
tag section that the tag parser of the build accepts. -/
def Readable (b : Build) (s : Bytes) : Prop := Utf8 s ∧ Within s ∧ TagsTerminated b s

/-- A line on which parsing returns, with a message or without.  A `String` is UTF-8. -/
def Parses (b : Build) (s : Bytes) : Prop := Utf8 s ∧ s.length < 4294967296 ∧ ∃ r, MsgRef.parse b s = .ok r

/-- The message of a line on which parsing returns one. -/
def parsed (b : Build) (s : Bytes) : MsgOwned :=
  match MsgOwned.parse b s with
  | .ok (some m) => m
  | _ => ⟨false, [], ⟨[], none, .ping, none, none⟩⟩

/-- `IrcMessageRef::parse(s).and_then(|m| T::from_irc(m).ok())` -/
def parseAs {α : Type} (fromIrc : MsgRef → R (Option α)) (b : Build) (s : Bytes) : R (Option α) := do
  match ← MsgRef.parse b s with
  | none => return none
  | some m => fromIrc m

end Tmi.Spec
