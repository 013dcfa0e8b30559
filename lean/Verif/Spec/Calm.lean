/-
What a program that uses a client can do with what its calls give, and what it means that nothing of it panics.
-/
import Verif.Spec.LikeNew
import Verif.Spec.Crash
import Verif.Model.ErrorText

namespace Tmi.Spec
open Tmi.Model (Act Build Cmd Tag Answer Effect World Backoff Config Stop IoError SendError RecvError ConnectError MsgOwned
  reconnectErrorText)

/-- The call panicked. -/
def Gave.panicked : Gave → Prop
  | .sent r => ∃ f, r = .error (.panic f)
  | .received r => ∃ f, r = .error (.panic f)
  | .reconnected r => ∃ f, r = .error (.panic f)

/-- What can be tried of a received message: everything, of it, of its borrowed form and of the typed message it is
turned into. -/
def asksReceived (t : Tag) (name : Bytes) (esc : Nat → Bool) (alternate : Bool) (m : MsgOwned) : List (R Unit) :=
  asksOwned t name esc alternate m ++ asksRef t name esc alternate m.asRef ++
  match m.asTyped with
  | .ok (some M) => asksTyped esc alternate M
  | _ => []

/-- What can be tried of what a call gave: ask the received message, or display the error of `reconnect` (the other errors
are displayed by total functions). -/
def Gave.asks (t : Tag) (name : Bytes) (esc : Nat → Bool) (alternate : Bool) (ioText : IoError → Bytes) (tlsText : Bytes) :
    Gave → List (R Unit)
  | .received (.ok (.ok m)) => asksReceived t name esc alternate m
  | .reconnected (.ok (.error e)) => [tried (reconnectErrorText esc ioText tlsText e)]
  | _ => []

/-- The call did not panic, and nothing that can be tried of what it gave does. -/
def Gave.Fine (g : Gave) : Prop :=
  ¬ g.panicked ∧ ∀ t name esc alternate ioText tlsText, ∀ x ∈ g.asks t name esc alternate ioText tlsText, x = .ok ()

/-- Whatever the world sends is a string below 4 GiB that cannot crash a program. -/
def Harmless (b : Build) (script : List Answer) : Prop :=
  ∀ s, .line s ∈ script → Utf8 s ∧ s.length < 4294967296 ∧ ¬ Crashing b s

/-- The waits of `reconnect` can be computed. -/
def Computable (v : Backoff) : Prop :=
  v.initialDelay * v.delayMultiplier ≤ durationMax ∧ v.maxDelay * v.delayMultiplier ≤ durationMax

end Tmi.Spec
