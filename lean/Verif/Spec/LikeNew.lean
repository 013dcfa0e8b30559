/-
What a program that uses a client can tell about it: the answers to its calls, whatever it decides to call next,
and what the server sees.
-/
import Verif.Spec.Client

namespace Tmi.Spec
open Tmi.Model (Act Build Cmd Answer Effect World Stop SendError RecvError ConnectError MsgOwned)

/-- A call of a method of a client. -/
inductive Call where
  | send (c : Cmd)
  | recv
  | reconnect

/-- What a call gave: what it returned, or how it stopped. -/
inductive Gave where
  | sent (r : Except Stop (Except SendError Unit))
  | received (r : Except Stop (Except RecvError MsgOwned))
  | reconnected (r : Except Stop (Except ConnectError Unit))

/-- Make a call. -/
def Call.make (b : Build) : Call → World → Gave × World
  | .send c, w => (.sent (c.send w).1, (c.send w).2)
  | .recv, w => (.received (Model.recv b w).1, (Model.recv b w).2)
  | .reconnect, w => (.reconnected (Model.reconnect b w).1, (Model.reconnect b w).2)

/-- A program that uses a client: from what its calls gave so far (oldest first) it decides which call to make next,
or to stop. -/
abbrev Program := List Gave → Option Call

/-- Run a program for at most `n` calls, when calls gave `before` so far: what all calls gave, and the world then. -/
def Program.run (b : Build) (p : Program) : (n : Nat) → (before : List Gave) → World → List Gave × World
  | 0, before, w => (before, w)
  | n + 1, before, w =>
    match p before with
    | none => (before, w)
    | some c => p.run b n (before ++ [(c.make b w).1]) (c.make b w).2

/-- From now on the two clients cannot be told apart: whatever program uses them, and whatever happens while it does, as
long as the same happens to both, its calls give the same with both, the server sees the same of both, as many answers of
the world are used up, and they are still alike then. -/
def SameFromNow (b : Build) (w₁ w₂ : World) : Prop :=
  ∀ (p : Program) (n : Nat) (before : List Gave) (answers : List Answer),
    let r₁ := p.run b n before { w₁ with script := answers }
    let r₂ := p.run b n before { w₂ with script := answers }
    r₁.1 = r₂.1 ∧ (∃ seen, r₁.2.log = w₁.log ++ seen ∧ r₂.2.log = w₂.log ++ seen) ∧ r₁.2.script = r₂.2.script

end Tmi.Spec
