/-
Specification of what a message must satisfy to survive serialisation.
-/
import Verif.Spec.Msg
import Verif.Model.Serde

namespace Tmi.Spec
open Model

/-- The months of a subscriber badge are written as a number that fits 64 bits. -/
def NumericMonths (badges : List Badge) : Prop :=
  ∀ v, Badge.subscriber v ∈ badges → ∃ n, IsNat v.months n ∧ n < 2 ^ 64

/-- The badges of a message. -/
def badgesIn : Message → List Badge
  | .globalUserState v => v.badges
  | .privmsg v => v.badges
  | .userNotice v => v.badges
  | .userState v => v.badges
  | .whisper v => v.badges
  | _ => []

/-- chrono reads back the text it writes, for every time of whole milliseconds it can represent. -/
def TimeCodec.Faithful (tc : TimeCodec) : Prop :=
  ∀ t ms, InChrono ms → AtMilli t ms → tc.read (tc.show_ t) = some t

/-- Serialise a typed message and deserialise the result at the same type.  `Reconnect` and `Other` are not
types that can be serialised, hence the outer `none`. -/
def reserialised (tc : TimeCodec) : Message → Option (Option Message)
  | .clearChat v => some ((ClearChat.de tc (v.ser tc)).map .clearChat)
  | .clearMsg v => some ((ClearMsg.de tc (v.ser tc)).map .clearMsg)
  | .globalUserState v => some ((GlobalUserState.de v.ser).map .globalUserState)
  | .join v => some ((Join.de v.ser).map .join)
  | .notice v => some ((Notice.de v.ser).map .notice)
  | .part v => some ((Part.de v.ser).map .part)
  | .ping v => some ((Ping.de v.ser).map .ping)
  | .pong v => some ((Pong.de v.ser).map .pong)
  | .privmsg v => some ((Privmsg.de tc (v.ser tc)).map .privmsg)
  | .reconnect => none
  | .roomState v => some ((RoomState.de v.ser).map .roomState)
  | .userNotice v => some ((UserNotice.de tc (v.ser tc)).map .userNotice)
  | .userState v => some ((UserState.de v.ser).map .userState)
  | .whisper v => some ((Whisper.de v.ser).map .whisper)
  | .other _ => none

end Tmi.Spec
