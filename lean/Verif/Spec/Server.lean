/-
Everything that a server sends, as records, and what the programs of README.md and examples/basic.rs are to do about it.
https://dev.twitch.tv/docs/chat/irc
-/
import Verif.Spec.Happen
import Verif.Spec.Bot

namespace Tmi.Spec
open Tmi.Model

/-- Everything that a server sends. -/
inductive Utterance where
  /-- a chat message, an event, ... (C96, C98) -/
  | spoken (s : Spoken)
  /-- are you still there? -/
  | ping (token : Bytes)
  /-- the server is about to close the connection -/
  | reconnect
  /-- the replies to the greeting, and others that are of no kind of their own -/
  | reply (command rest : Bytes)

/-- The line in which the server sends it. -/
def Utterance.line : Utterance → Bytes
  | .spoken s => s.line
  | .ping token => b!"PING :" ++ token
  | .reconnect => b!":tmi.twitch.tv RECONNECT"
  | .reply command rest => b!":tmi.twitch.tv " ++ command ++ [SP] ++ rest

/-- What there can be. -/
def Utterance.Ok : Utterance → Prop
  | .spoken s => s.Ok
  | .ping _ => True
  | .reconnect => True
  | .reply command _ => command ≠ [] ∧ SP ∉ command ∧ command ∉ typedCommands

/-- All lines that arrive are from a server that keeps to the protocol. -/
def FromServer (b : Build) (script : List Answer) : Prop :=
  ∀ s, .line s ∈ script → Readable b s ∧ ∃ u : Utterance, u.Ok ∧ u.line = s

/-- What the programs send when they get it: PONG with the same token, and (if they greet) `yo` in the same channel, as a
reply to each chat message that starts with `!yo`. -/
def answerTo (greets : Bool) : Utterance → Option Cmd
  | .ping token => some (.pong (some token))
  | .spoken (.said (.chat c)) =>
    if greets = true ∧ b!"!yo" <+: c.text then some (.privmsg (HASH :: c.channel) (b!"yo") (some c.id) none) else none
  | _ => none

/-- The bytes of the answer. -/
def answerBytes (greets : Bool) (u : Utterance) : Bytes :=
  match answerTo greets u with
  | some c => commandBytes c
  | none => []

/-- The server sends these and the network accepts the answers, in pieces of any sizes; after RECONNECT, `reconnect`
succeeds, perhaps not at once, and the network accepts the JOIN.  `rest` happens after that. -/
inductive Attends (b : Build) (cfg : Config) (channels : List Bytes) (greets : Bool) :
    (us : List Utterance) → (script rest : List Answer) → Prop
  | done (rest : List Answer) : Attends b cfg channels greets [] rest rest
  | next {u us script mid rest} (hu : u ≠ .reconnect) (ha : Accepts (answerBytes greets u) script mid)
      (hr : Attends b cfg channels greets us mid rest) : Attends b cfg channels greets (u :: us) (.line u.line :: script) rest
  | again {us script mid mid' rest n}
      (hd : Reconnects (parsed b) cfg.backoff (hello cfg.credentials) 0 cfg.backoff.maxTries .timeout [] script none mid n)
      (ha : Accepts (commandBytes (.joinAll channels)) mid mid') (hr : Attends b cfg channels greets us mid' rest) :
      Attends b cfg channels greets (.reconnect :: us) (.line Utterance.reconnect.line :: script) rest

/-- What the programs have done about what was sent: taken each line and written the answer to it before the next; after
RECONNECT connected again and joined the channels again. -/
inductive Did (b : Build) (cfg : Config) (channels : List Bytes) (greets : Bool) : (us : List Utterance) → (ev : List Effect) → Prop
  | done : Did b cfg channels greets [] []
  | next {u us ws ev} (hu : u ≠ .reconnect) (hw : Writes (answerBytes greets u) ws) (h : Did b cfg channels greets us ev) :
      Did b cfg channels greets (u :: us) (.took u.line :: (ws ++ ev))
  | again {us es ws ev} (hd : Redials b cfg es (.ok (.ok ()))) (hw : Writes (commandBytes (.joinAll channels)) ws)
      (h : Did b cfg channels greets us ev) :
      Did b cfg channels greets (.reconnect :: us) (.took Utterance.reconnect.line :: (es ++ (ws ++ ev)))

/-- The program was stopped, the connection failed or ended, or `reconnect` gave up, or its delay overflowed. -/
def ConnectionLost : Except Stop BotError → Prop
  | .error .dropped => True
  | .error (.elapsed _) => True
  | .error (.panic f) => f = .overflow
  | .ok (.recv (.io _)) => True
  | .ok (.recv .streamClosed) => True
  | .ok (.send (.io _)) => True
  | .ok (.reconnect _) => True
  | _ => False

end Tmi.Spec
