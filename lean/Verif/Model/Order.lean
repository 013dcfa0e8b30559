/-
The order of points in time.
-/
import Verif.Model.Num

namespace Tmi.Model

/-- `Ord for DateTime<Utc>` (external: chrono), for the timestamps of typed messages (src/msg/privmsg.rs:55,
src/msg/clear_chat.rs:22, src/msg/clear_msg.rs:29, src/msg/user_notice.rs:50): the seconds, and then the nanoseconds. -/
def Timestamp.cmp (a b : Timestamp) : Ordering :=
  if a.secs < b.secs then .lt
  else if b.secs < a.secs then .gt
  else if a.nanos < b.nanos then .lt
  else if b.nanos < a.nanos then .gt
  else .eq

end Tmi.Model
