/-
Model of the records that the client hands to the `tracing` subscriber, as far as they show what is sent.
The records of received messages (src/client.rs:348, 366), which show what the server sent, the record of the
TLS configuration (src/client/conn.rs:15) and those with a fixed text are left out.
-/
import Verif.Model.Client

namespace Tmi.Model

/-- `trace!(data, "sending message")` in `send_raw` (src/client/write.rs:85-86): the field `data` of the
record.  There is none when the conversion in the line before fails. -/
def sendRawTrace (s : Bytes) : List Bytes :=
  match rawMessage s with
  | none => []
  | some data => [data]

/-- The records of a call of a sending method: each gives `send_raw` the buffer with its own text behind it
(src/client/write.rs:51-70, 120-175). -/
def Cmd.trace (c : Cmd) (client : Client) : List Bytes :=
  match c with
  | .privmsg channel text replyTo nonce => sendRawTrace (client.scratch ++ privmsgText channel text replyTo nonce)
  | .ping nonce => sendRawTrace (client.scratch ++ (b!"PING :" ++ nonce ++ [CR, LF]))
  | .pong (some nonce) => sendRawTrace (client.scratch ++ (b!"PONG :" ++ nonce ++ [CR, LF]))
  | .pong none => sendRawTrace (client.scratch ++ (b!"PONG" ++ [CR, LF]))
  | .join channel => sendRawTrace (client.scratch ++ (b!"JOIN " ++ displayChannel channel ++ [CR, LF]))
  | .joinAll channels => sendRawTrace (client.scratch ++ joinAllText channels)
  | .raw s => sendRawTrace s

/-- The record of `handshake` (src/client.rs:325-326), with `debugStr` the `Debug` of `str`. -/
def helloTrace (debugStr : Bytes → Bytes) (credentials : Credentials) : Bytes :=
  b!"CAP REQ " ++ debugStr (b!"twitch.tv/commands twitch.tv/tags twitch.tv/membership") ++ b!"; NICK " ++
    debugStr credentials.login ++ b!"; PASS ***"

end Tmi.Model
