/-
Several greeting programs (examples/basic.rs) in the same channels.
-/
import Verif.Spec.Relay

namespace Tmi.Spec
open Tmi.Model

/-- Why the server tells a program something. -/
inductive Cause where
  /-- it is the `n`-th thing that the `i`-th program asked for -/
  | program (i n : Nat)
  /-- something else: somebody wrote it, or the server has something to say -/
  | other
deriving DecidableEq, Repr

/-- A greeting program: its account, what it was told and why, and what it did. -/
structure Greeter where
  build : Build
  config : Config
  channels : List Bytes
  login : Bytes
  told : List (Utterance × Cause)
  did : List Effect

/-- What the server understands from what the program wrote. -/
def Greeter.says (g : Greeter) : List Request := (receivedLines (written g.did)).flatMap requests

/-- What others wrote to it. -/
def Greeter.fromOthers (g : Greeter) : List Utterance := (g.told.filter fun x => x.2 = .other).map (·.1)

/-- Programs in the same channels.  What one of them asks for may be told to any of them, also to itself, at once, later,
more than once or never. -/
structure Company (gs : List Greeter) : Prop where
  programs : ∀ g ∈ gs, Did g.build g.config g.channels true (g.told.map (·.1)) g.did
  lines : ∀ g ∈ gs, ∀ x ∈ g.told, x.1.Ok ∧ LF ∉ x.1.line ∧ x.1 ≠ .reconnect
  relayed : ∀ g ∈ gs, ∀ u i n, (u, Cause.program i n) ∈ g.told →
    ∃ g' r s, gs[i]? = some g' ∧ g'.says[n]? = some r ∧ u = .spoken (.said s) ∧ Relays g'.login r s

/-- Somebody asks to be greeted. -/
def Utterance.asks : Utterance → Bool
  | .spoken (.said (.chat c)) => decide (b!"!yo" <+: c.text)
  | _ => false

end Tmi.Spec
