/-
When a message was sent, and in which years times are written with as many digits.
-/
import Verif.Model.Getters
import Verif.Spec.Msg

namespace Tmi.Spec
open Tmi.Model

/-- The `timestamp` of a message, if it has that getter. -/
def sentAt : Message → Option Timestamp
  | .clearChat v => some (Getter.ClearChat.timestamp v)
  | .clearMsg v => some (Getter.ClearMsg.timestamp v)
  | .privmsg v => some (Getter.Privmsg.timestamp v)
  | .userNotice v => some (Getter.UserNotice.timestamp v)
  | _ => none

/-- According to its line the message was sent so many milliseconds after the start of 1970. -/
def SentMillis (l : Line) (ms : Int) : Prop := ∃ v, l.tag (b!"tmi-sent-ts") = some v ∧ IsInt v ms

/-- The milliseconds of the years 0 to 9999. -/
def FourDigits (ms : Int) : Prop := daysTo 0 * 86400000 ≤ ms ∧ ms < daysTo 10000 * 86400000

end Tmi.Spec
