/-
Specification of what the errors of `connect` and `reconnect` tell.
-/
import Verif.Spec.Logged
import Verif.Spec.Debug

namespace Tmi.Spec
open Tmi.Model (Build ConnectError RecvError SendError IoError MsgOwned)

/-- What an error quotes is from the lines `L` that the server sent: a message is that of a line, and a line that could
not be parsed is one of them. -/
def Told (b : Build) (L : List Bytes) : ConnectError → Prop
  | .welcome m => ∃ s ∈ L, MsgOwned.parse b s = .ok (some m)
  | .notice m => ∃ s ∈ L, MsgOwned.parse b s = .ok (some m)
  | .read (.parse s) => s ∈ L ∧ MsgOwned.parse b s = .ok none
  | _ => True

/-- The message that an error quotes. -/
def quoted : ConnectError → Option MsgOwned
  | .welcome m => some m
  | .notice m => some m
  | _ => none

/-- The errors whose texts are those of the library alone. -/
def Own : ConnectError → Prop
  | .io _ | .open_ _ | .tls | .read (.io _) => False
  | _ => True

/-- Errors that tell the same. -/
def SameError : ConnectError → ConnectError → Prop
  | .welcome m, .welcome m' => SameView m.asRef m'.asRef
  | .notice m, .notice m' => SameView m.asRef m'.asRef
  | e, e' => e = e'

/-- The text of an error of `recv` ends with its cause. -/
def RecvCause (io : IoError → Bytes) : RecvError → Bytes → Prop
  | .io e, t => io e <:+ t
  | .parse s, t => (b!"`" ++ s ++ b!"`") <:+ t
  | .streamClosed, t => b!"closed" <:+ t

/-- The text of an error of `send` ends with its cause. -/
def SendCause (io : IoError → Bytes) : SendError → Bytes → Prop
  | .io e, t => io e <:+ t
  | .streamClosed, t => b!"closed" <:+ t
  | .invalidMessage, t => b!"not terminated by \"\\r\\n\"" <:+ t

/-- The text of an error of `connect` ends with its cause. -/
def ConnectCause (esc : Nat → Bool) (io : IoError → Bytes) (tls : Bytes) : ConnectError → Bytes → Prop
  | .io e, t => io e <:+ t
  | .open_ e, t => io e <:+ t
  | .tls, t => tls <:+ t
  | .read e, t => RecvCause io e t ∧ ∃ u, u <:+ t ∧ b!"failed to read message: " <+: u
  | .welcome m, t => ∃ u, m.print esc false = .ok u ∧ u <:+ t
  | .notice m, t => ∃ u, m.print esc false = .ok u ∧ u <:+ t
  | .timeout, t => b!"timed out" <:+ t
  | .auth, t => b!"credentials" <:+ t

end Tmi.Spec
