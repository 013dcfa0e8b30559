/-
Programs that pass on what they receive.
-/
import Verif.Spec.Lines

namespace Tmi.Spec
open Tmi.Model

/-- `recv` has returned this message on some connection: whatever arrived there, in whatever pieces, however that
connection ended and however often `recv` was called. -/
def Received (b : Build) (m : MsgOwned) : Prop :=
  ∃ (net : List Net) (n : Nat), .ok (.ok m) ∈ recvPolls b n .new net

/-- `send_raw(format!("{}\r\n", m.raw()))` -/
def passOn (m : MsgOwned) : Cmd := .raw (m.raw ++ [CR, LF])

end Tmi.Spec
