/-
A process that is killed while one of its calls is waiting.
-/
import Verif.Spec.LikeNew

namespace Tmi.Spec

/-- The call did not come back: while it was waiting, its future was dropped, or the process was killed. -/
def Gave.dropped : Gave → Bool
  | .sent (.error .dropped) => true
  | .received (.error .dropped) => true
  | .reconnected (.error .dropped) => true
  | _ => false

/-- The program, in a process that ends when a call does not come back. -/
def mortal (p : Program) : Program := fun gs => if gs.any Gave.dropped then none else p gs

end Tmi.Spec
