/-
Receiving from a connection, poll by poll.
-/
import Verif.Spec.Lines

namespace Tmi.Spec
open Tmi.Model (Net Reader Build RecvError MsgOwned Stop)

/-- The future of `recv` is polled again and again, dropped and made anew at any time, on a new connection that does `net`:
`results` is what the calls have returned so far, `r` the reader, and `rest` what the connection will do next. -/
inductive Receiving (b : Build) (net : List Net) :
    List (Except Stop (Except RecvError MsgOwned)) → Reader → List Net → Prop
  | start : Receiving b net [] .new net
  | waits {results : List (Except Stop (Except RecvError MsgOwned))} {r r' : Reader} {rest rest' : List Net}
      (h : Receiving b net results r rest) (hp : Model.recvPoll b r rest = ⟨.pending, r', rest'⟩) :
      Receiving b net results r' rest'
  | returns {results : List (Except Stop (Except RecvError MsgOwned))} {r r' : Reader} {rest rest' : List Net}
      {x : Except Stop (Except RecvError MsgOwned)}
      (h : Receiving b net results r rest) (hp : Model.recvPoll b r rest = ⟨.ready x, r', rest'⟩) :
      Receiving b net (results ++ [x]) r' rest'

/-- No read has failed, and the other side has not closed the connection. -/
def Unbroken (seen : List Net) : Prop := ∀ x ∈ seen, x ≠ .eof ∧ ∀ e, x ≠ .fail e

end Tmi.Spec
