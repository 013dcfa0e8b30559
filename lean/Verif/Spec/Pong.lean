/-
Pings and pongs: what the server answers, and what a program learns from the answers.
https://dev.twitch.tv/docs/chat/irc/#keepalive-messages; src/msg/pong.rs:1-7 ("If the Ping contained a nonce, the same
nonce will be set to `Pong::nonce`").
-/
import Verif.Spec.Relay

namespace Tmi.Spec
open Tmi.Model

/-- What a server called `host` answers to a line: to a PING a PONG with the same text, to others nothing. -/
def answersTo (host s : Bytes) : List Bytes :=
  match line s with
  | none => []
  | some l =>
    if l.command = b!"PING" then
      match l.text with
      | some t => [b!":" ++ host ++ b!" PONG " ++ host ++ b!" :" ++ t]
      | none => [b!":" ++ host ++ b!" PONG " ++ host]
    else []

/-- A name of a server. -/
def HostName (host : Bytes) : Prop := SP ∉ host ∧ COLON ∉ host ∧ LF ∉ host ∧ host.head? ≠ some HASH

/-- The line is a PONG. -/
def isPong (s : Bytes) : Bool :=
  match line s with
  | some l => l.command == b!"PONG"
  | none => false

/-- The nonce with which a program calls `ping`. -/
def pinged : Cmd → List Bytes
  | .ping n => [n]
  | _ => []

/-- What a program learns from a call of `recv`: if the message is a PONG, the nonce in it. -/
def learntNonce : Except Stop (Except RecvError MsgOwned) → Option (Option Bytes)
  | .ok (.ok m) =>
    match m.asTyped with
    | .ok (some (.pong p)) => some (Getter.Pong.nonce p)
    | _ => none
  | _ => none

end Tmi.Spec
