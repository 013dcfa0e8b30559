/-
What the errors of the library print with `Display`, and `Debug` of the configuration.

`ioText` is `Display` of `io::Error` and `tlsText` that of the error of the TLS library in a
`TlsConfigError`; both are outside of the library and left open.
-/
import Verif.Model.Debug
import Verif.Model.Config

namespace Tmi.Model

/-- `Display for MessageParseError` (src/msg.rs:72-76). -/
def messageParseErrorText : Bytes := b!"failed to parse message"

/-- `Display for InvalidChannelName` (src/common/channel.rs:147-151). -/
def invalidChannelNameText : Bytes := b!"channel name is missing \"#\" prefix"

/-- `Display for InvalidMessage` (src/client/write.rs:272-276). -/
def invalidMessageText : Bytes := b!"not terminated by \"\\r\\n\""

/-- `Display for RecvError` (src/client/read.rs:61-69). -/
def RecvError.display (ioText : IoError → Bytes) : RecvError → Bytes
  | .io e => b!"failed to read message: " ++ ioText e
  | .parse s => b!"failed to read message: invalid message `" ++ s ++ b!"`"
  | .streamClosed => b!"failed to read message: stream closed"

/-- `Display for SendError` (src/client/write.rs:221-232). -/
def SendError.display (ioText : IoError → Bytes) : SendError → Bytes
  | .io e => b!"failed to write message: " ++ ioText e
  | .streamClosed => b!"failed to write message: stream closed"
  | .invalidMessage => b!"failed to write message: message was incorrectly formatted, " ++ invalidMessageText

/-- `Display for OpenStreamError` (src/client/conn.rs:39-45). -/
def openStreamErrorText (ioText : IoError → Bytes) (e : IoError) : Bytes :=
  b!"failed to open tls stream: " ++ ioText e

/-- `Display for TlsConfigError` (src/client/conn.rs:103-110). -/
def tlsConfigErrorText (tlsText : Bytes) : Bytes := b!"tls config error: " ++ tlsText

/-- `Display for ConnectError` (src/client.rs:524-544).  `{msg:?}` runs `Debug for IrcMessage`. -/
def ConnectError.display (esc : Nat → Bool) (ioText : IoError → Bytes) (tlsText : Bytes) : ConnectError → R Bytes
  | .read e => return b!"failed to connect: " ++ e.display ioText
  | .io e => return b!"failed to connect: " ++ ioText e
  | .tls => return b!"failed to connect: " ++ tlsConfigErrorText tlsText
  | .open_ e => return b!"failed to connect: " ++ openStreamErrorText ioText e
  | .timeout => return b!"failed to connect: connection timed out"
  | .welcome m => do
    return b!"failed to connect: expected `NOTICE` or `001` as first message, instead received: " ++ (← m.print esc false)
  | .auth => return b!"failed to connect: invalid credentials"
  | .notice m => do return b!"failed to connect: received unrecognized notice: " ++ (← m.print esc false)

/-- `Display for ReconnectError` (src/client.rs:423-431), given the cause. -/
def reconnectErrorText (esc : Nat → Bool) (ioText : IoError → Bytes) (tlsText : Bytes) (cause : ConnectError) : R Bytes := do
  return b!"all reconnect attempts failed. last error was: " ++ (← cause.display esc ioText tlsText)

/-! ### The configuration -/

/-- `Debug for Credentials` (src/client.rs:137-143): `finish_non_exhaustive` after the login. -/
def Credentials.dbg (c : Credentials) : Dbg :=
  .node (.struct (b!"Credentials") true) (.ofFields [(b!"nick", .str c.login)])

/-- The derived `Debug` of `Backoff` (src/client.rs:146-159). -/
def Backoff.dbg (v : Backoff) : Dbg :=
  .struct (b!"Backoff") [(b!"max_tries", dbgOpt dbgNat v.maxTries), (b!"initial_delay", dbgDuration v.initialDelay),
    (b!"delay_multiplier", dbgNat v.delayMultiplier), (b!"max_delay", dbgDuration v.maxDelay)]

/-- The derived `Debug` of `Config` (src/client.rs:173-183). -/
def Config.dbg (v : Config) : Dbg :=
  .struct (b!"Config") [(b!"credentials", v.credentials.dbg), (b!"timeout", dbgDuration v.timeout),
    (b!"backoff", v.backoff.dbg)]

end Tmi.Model
