/-
Programs that write to the channels they have joined, under the names they have joined them with.
-/
import Verif.Spec.Relay

namespace Tmi.Spec
open Tmi.Model

/-- The program has joined a channel under this name. -/
def JoinedAs (name : Bytes) (cmds : List Cmd) : Prop :=
  Cmd.join name ∈ cmds ∨ ∃ names, Cmd.joinAll names ∈ cmds ∧ name ∈ names

/-- Every chat message goes to a channel that has been joined before, under the same name. -/
def SpeaksWhereJoined (cmds : List Cmd) : Prop :=
  ∀ before name text reply nonce after, cmds = before ++ .privmsg name text reply nonce :: after → JoinedAs name before

/-- No argument has a byte in it that ends what it is written into; names of channels need not start with `#`. -/
def NamedCmd : Cmd → Prop
  | .privmsg ch t r n => SP ∉ ch ∧ LF ∉ ch ∧ LF ∉ t ∧ ∀ v, r = some v ∨ n = some v → SEMI ∉ v ∧ SP ∉ v ∧ LF ∉ v
  | c => PlainCmd c

/-- What the server is to understand from a program: it enters the channels it joins, and it says what it writes in the
channel of that name. -/
def meant : Cmd → List Request
  | .privmsg name t r _ => [.say (channelName name) t r]
  | c => asked c

/-- What the server understands. -/
def reached : Cmd → List Request
  | .privmsg name t r _ => if name.head? = some HASH then [.say name t r] else []
  | c => asked c

/-- Everything that is said is said in a channel that was entered before. -/
def SaidInside (rs : List Request) : Prop :=
  ∀ (i : Nat) (ch t : Bytes) (r : Option Bytes), rs[i]? = some (.say ch t r) → ∃ j, j < i ∧ rs[j]? = some (.enter ch)

end Tmi.Spec
