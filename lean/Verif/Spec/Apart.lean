/-
The calls on a client, one after the other, and what each gave and what was seen of it.
-/
import Verif.Spec.LikeNew

namespace Tmi.Spec
open Tmi.Model (Build Answer Effect World)

/-- It is a call of `recv`. -/
def Call.receives : Call → Bool
  | .recv => true
  | _ => false

/-- It is a call that sends. -/
def Call.sends : Call → Bool
  | .send _ => true
  | _ => false

/-- Make the calls, one after the other, with what happens while each is waiting: for each, what it gave, and what
was seen of it. -/
def accounts (b : Build) : List (Call × List Answer) → World → List (Call × Gave × List Effect)
  | [], _ => []
  | (k, answers) :: calls, w =>
    let r := k.make b { w with script := answers }
    (k, r.1, r.2.log.drop w.log.length) :: accounts b calls r.2

end Tmi.Spec
