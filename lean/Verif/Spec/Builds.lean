/-
What is meant by two builds of the same program behaving alike.
-/
import Verif.Spec.LikeNew
import Verif.Model.Msg

namespace Tmi.Spec
open Tmi.Model (Answer MsgRef Message)

/-- The lines of the script are strings below 4 GiB, and if one starts with tags, something follows them: a space. -/
def Ordinary (script : List Answer) : Prop :=
  ∀ s, .line s ∈ script → Utf8 s ∧ s.length < 4294967296 ∧ (s.head? = some AT → SP ∈ s)

/-- The same message in a program that was built without overflow checks: the model notes in a message whether the program
that holds it was built with them. -/
def unchecked (m : MsgRef) : MsgRef := { m with checks := false }

/-- The same typed message in a program that was built without overflow checks. -/
def uncheckedTyped : Message → Message
  | .other m => .other (unchecked m)
  | M => M

end Tmi.Spec

namespace Tmi.Spec
open Tmi.Model (MsgOwned ConnectError)

/-- The same owned message in a program that was built without overflow checks. -/
def uncheckedOwned (m : MsgOwned) : MsgOwned := { m with checks := false }

/-- The same error, with the message it holds. -/
def uncheckedError : ConnectError → ConnectError
  | .welcome m => .welcome (uncheckedOwned m)
  | .notice m => .notice (uncheckedOwned m)
  | e => e

/-- The same answer to a call, with the messages it holds. -/
def uncheckedGave : Gave → Gave
  | .received (.ok (.ok m)) => .received (.ok (.ok (uncheckedOwned m)))
  | .reconnected (.ok (.error e)) => .reconnected (.ok (.error (uncheckedError e)))
  | g => g

end Tmi.Spec
