/-
Model of `std::error::Error` for the errors of the library: `source`, and `Display` for each of them.
-/
import Verif.Model.ErrorText
import Verif.Model.Tls

namespace Tmi.Model

/-- The errors of the library as `dyn Error`, and those of others that they contain: an error of the operating system
(`io::Error`) and of the TLS library (`rustls::Error`).  src/client.rs:418-480, src/client/read.rs:25-35,
src/client/write.rs:191-201, 270, src/client/conn.rs:26-31, 83-89, src/msg.rs:70, src/common/channel.rs:145.
`ConnectError::Dns` is left out: nothing in the library makes one. -/
inductive AnyError where
  | reconnect (cause : ConnectError)
  | connect (e : ConnectError)
  | recv (e : RecvError)
  | send (e : SendError)
  /-- `OpenStreamError::Io` -/
  | openStream (e : IoError)
  | tlsConfig (e : TlsConfigError)
  | invalidMessage
  | messageParse
  | invalidChannelName
  | io (e : IoError)
  | rustls (e : Nat)
deriving DecidableEq, Repr

/-- `Error::source` (src/client.rs:433-441 for `ReconnectError`).  The other impls are empty and have the default,
`None`: src/client.rs:546, src/client/read.rs:71, src/client/write.rs:234, 277, src/client/conn.rs:47, 112,
src/msg.rs:77, src/common/channel.rs:152.  That an error of someone else has no source is a simplification; no error of
the library has such a source, so it does not matter. -/
def AnyError.source : AnyError → Option AnyError
  | .reconnect cause => some (.connect cause)
  | .connect _ => none
  | .recv _ => none
  | .send _ => none
  | .openStream _ => none
  | .tlsConfig _ => none
  | .invalidMessage => none
  | .messageParse => none
  | .invalidChannelName => none
  | .io _ => none
  | .rustls _ => none

/-- `Error::cause` (src/client.rs:438-440); the default of the others is `source` as well. -/
def AnyError.cause (e : AnyError) : Option AnyError := e.source

/-- `Display` for `TlsConfigError` (src/client/conn.rs:103-110), with the texts of what it can contain. -/
def TlsConfigError.display (ioText : IoError → Bytes) (rustlsText : Nat → Bytes) : TlsConfigError → Bytes
  | .io e => tlsConfigErrorText (ioText e)
  | .tls e => tlsConfigErrorText (rustlsText e)

/-- `Display` for each of them: see Verif/Model/ErrorText.lean.  `tls` is what a `ConnectError::Tls` contains: in
Verif/Model/Client.lean that is left out (src/client.rs:464). -/
def AnyError.display (esc : Nat → Bool) (ioText : IoError → Bytes) (rustlsText : Nat → Bytes) (tls : TlsConfigError) :
    AnyError → R Bytes
  | .reconnect cause => reconnectErrorText esc ioText (match tls with | .io e => ioText e | .tls e => rustlsText e) cause
  | .connect e => e.display esc ioText (match tls with | .io e => ioText e | .tls e => rustlsText e)
  | .recv e => return e.display ioText
  | .send e => return e.display ioText
  | .openStream e => return openStreamErrorText ioText e
  | .tlsConfig e => return e.display ioText rustlsText
  | .invalidMessage => return invalidMessageText
  | .messageParse => return messageParseErrorText
  | .invalidChannelName => return invalidChannelNameText
  | .io e => return ioText e
  | .rustls e => return rustlsText e

end Tmi.Model
