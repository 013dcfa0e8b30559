/-
Specification of the causes of an error: which errors are behind it, and which of them a program that follows `source`
is shown.
-/
import Verif.Model.Source

namespace Tmi.Spec
open Tmi.Model (AnyError IoError ConnectError RecvError SendError TlsConfigError)

/-- `e` was made from `c`: `c` is what went wrong, `e` says what could not be done because of it.  `tls` is what a
`ConnectError::Tls` was made from. -/
inductive MadeFrom (tls : TlsConfigError) : (e c : AnyError) → Prop
  | reconnect (c : ConnectError) : MadeFrom tls (.reconnect c) (.connect c)
  | read (e : RecvError) : MadeFrom tls (.connect (.read e)) (.recv e)
  | connectIo (e : IoError) : MadeFrom tls (.connect (.io e)) (.io e)
  | connectTls : MadeFrom tls (.connect .tls) (.tlsConfig tls)
  | connectOpen (e : IoError) : MadeFrom tls (.connect (.open_ e)) (.openStream e)
  | recvIo (e : IoError) : MadeFrom tls (.recv (.io e)) (.io e)
  | sendIo (e : IoError) : MadeFrom tls (.send (.io e)) (.io e)
  | sendInvalid : MadeFrom tls (.send .invalidMessage) .invalidMessage
  | openIo (e : IoError) : MadeFrom tls (.openStream e) (.io e)
  | tlsIo (e : IoError) : MadeFrom tls (.tlsConfig (.io e)) (.io e)
  | tlsTls (e : Nat) : MadeFrom tls (.tlsConfig (.tls e)) (.rustls e)

/-- `c` is behind `e`, through any number of errors. -/
inductive Behind (tls : TlsConfigError) : (e c : AnyError) → Prop
  | here {e c : AnyError} : MadeFrom tls e c → Behind tls e c
  | there {e d c : AnyError} : MadeFrom tls e d → Behind tls d c → Behind tls e c

/-- What a program finds that asks for the source of an error, for that of the source, and so on until there is none. -/
inductive Chain : AnyError → List AnyError → Prop
  | last {e : AnyError} : e.source = none → Chain e [e]
  | next {e c : AnyError} {l : List AnyError} : e.source = some c → Chain c l → Chain e (e :: l)

/-- The types of errors of the library, and how the text of each begins: what was to be done, or what is wrong. -/
def openings : List (Bytes × Bytes) :=
  [(b!"ReconnectError", b!"all reconnect attempts failed. last error was: "),
   (b!"ConnectError", b!"failed to connect: "),
   (b!"RecvError", b!"failed to read message: "),
   (b!"SendError", b!"failed to write message: "),
   (b!"OpenStreamError", b!"failed to open tls stream: "),
   (b!"TlsConfigError", b!"tls config error: "),
   (b!"InvalidMessage", b!"not terminated by"),
   (b!"MessageParseError", b!"failed to parse message"),
   (b!"InvalidChannelName", b!"channel name is missing \"#\"")]

/-- The type of an error; an error of someone else has none of those of the library. -/
def errorType : AnyError → Option Bytes
  | .reconnect _ => some (b!"ReconnectError")
  | .connect _ => some (b!"ConnectError")
  | .recv _ => some (b!"RecvError")
  | .send _ => some (b!"SendError")
  | .openStream _ => some (b!"OpenStreamError")
  | .tlsConfig _ => some (b!"TlsConfigError")
  | .invalidMessage => some (b!"InvalidMessage")
  | .messageParse => some (b!"MessageParseError")
  | .invalidChannelName => some (b!"InvalidChannelName")
  | .io _ => none
  | .rustls _ => none

end Tmi.Spec
