/-
Programs that use a `SameMessageBypass` for what they say, and messages that are said twice.
-/
import Verif.Spec.Relay

namespace Tmi.Spec
open Tmi.Model

/-- The calls of a program that says `ms` (in which channel, which text) and appends the result of `get` of one
`SameMessageBypass` to every text (documentation of `SameMessageBypass::get`, src/client/write.rs:243-245). -/
def bypassed (s : SameMessageBypass) : List (Bytes × Bytes) → List Cmd
  | [] => []
  | (ch, t) :: ms => .privmsg ch (t ++ s.get.1) none none :: bypassed s.get.2 ms

/-- The calls of a program that has a `SameMessageBypass` for every channel. -/
def bypassedEach (s : Bytes → SameMessageBypass) : List (Bytes × Bytes) → List Cmd
  | [] => []
  | (ch, t) :: ms =>
    .privmsg ch (t ++ (s ch).get.1) none none :: bypassedEach (fun c => if c = ch then (s ch).get.2 else s c) ms

/-- What is appended: a space and U+2800. -/
def invisible : Bytes := b!" ⠀"

/-- A message is the same as the last message before it in that channel. -/
def Repeated (rs : List Request) : Prop :=
  ∃ (i j : Nat) (ch t : Bytes) (r r' : Option Bytes), i < j ∧
    rs[i]? = some (.say ch t r) ∧ rs[j]? = some (.say ch t r') ∧
    ∀ k t' r'', i < k → k < j → rs[k]? ≠ some (.say ch t' r'')

/-- Nothing in a channel's name or a text ends the line too early. -/
def PlainSaying (m : Bytes × Bytes) : Prop := m.1.head? = some HASH ∧ SP ∉ m.1 ∧ LF ∉ m.1 ∧ LF ∉ m.2

end Tmi.Spec
