/-
Specification of the time that connecting may take.  Shared with the model: the record types of the
configuration.
-/
import Verif.Spec.Client
import Verif.Model.Timed

namespace Tmi.Spec
open Tmi.Model (Backoff Answer TStop Stop WaitEnd)

/-- The most time that `n` attempts to connect take, beginning with attempt number `k`: each waits for its delay,
opens a connection and shakes hands, and the latter two are each given `timeout`. -/
def attemptsTime (c : Backoff) (timeout : Nat) (k : Nat) : (n : Nat) → Nat
  | 0 => 0
  | n + 1 => delay c k + timeout + timeout + attemptsTime c timeout (k + 1) n

/-- Why a future stopped, when there is no clock: waiting for ever is the same as being dropped. -/
def withoutClock : TStop → Stop
  | .dropped | .pending => .dropped
  | .elapsed k => .elapsed k
  | .panic f => .panic f

/-- The lines that the network delivers. -/
def lineWaits (waits : List (Nat × WaitEnd)) : List Bytes :=
  waits.filterMap fun w => match w.2 with | .answer (.line s) => some s | _ => none

end Tmi.Spec
