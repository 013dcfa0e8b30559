/-
Channel names from JSON texts: `serde_json::from_str` and `from_reader` for `Channel` and `&ChannelRef`.  External:
serde_json 1.0 (Cargo.toml:71) and serde's `Deserialize` for `String` and `&str`.
-/
import Verif.Model.Json
import Verif.Model.Cow
import Verif.Spec.Json

namespace Tmi.Model.Json

/-- A byte that stands for itself in a string (external: serde_json, `is_escape` negated).
Reached from src/common/channel.rs:189. -/
def plain (x : UInt8) : Bool := x != 0x22 && x != 0x5C && decide (0x20 ≤ x)

/-- The rest of a string after its quotation mark (external: serde_json, `SliceRead::parse_str_bytes`): it is lent from the
text if it has no escapes, and copied otherwise.  Simplified: what escapes stand for is read as in the specification of JSON.
Reached from src/common/channel.rs:189. -/
def parseStr (t : Bytes) : Option (Cow × Bytes) :=
  match t.dropWhile plain with
  | [] => none
  | c :: r =>
    if c = 0x22 then some (.borrowed (t.takeWhile plain), r)
    else if c = 0x5C then
      (Spec.Json.readString (c :: r)).map fun (s, r) => (.owned (t.takeWhile plain ++ s), r)
    else none

/-- A text that is a string, as `serde_json::from_str` hands it to serde (external: `deserialize_str`, and `end` for what
follows).  Reached from src/common/channel.rs:189, 208. -/
def strFrom (t : Bytes) : Option Cow :=
  match Spec.Json.blank t with
  | [] => none
  | c :: r =>
    if c = 0x22 then
      match parseStr r with
      | none => none
      | some (s, r) => if Spec.Json.blank r = [] then some s else none
    else none

/-- The same for `serde_json::from_reader` (external: `IoRead`), which copies all strings: the text is not kept.
Reached from src/common/channel.rs:189, 208. -/
def strFromReader (t : Bytes) : Option Cow := (strFrom t).map fun s => .owned s.text

/-- `<&str as Deserialize>` (external: serde, `StrVisitor`): only a string that is lent.  Called at
src/common/channel.rs:189. -/
def lent : Cow → Option Bytes
  | .borrowed s => some s
  | .owned _ => none

/-- `Deserialize for &ChannelRef` (src/common/channel.rs:184-192) from what the format hands over. -/
def channelRef (s : Cow) : Option Bytes := (lent s).bind ChannelRef.parse

/-- `Deserialize for Channel` (src/common/channel.rs:203-211) from what the format hands over. -/
def channel (s : Cow) : Option Bytes := Channel.parse s.text

/-- `serde_json::from_str::<&ChannelRef>` (src/common/channel.rs:184-192). -/
def channelRefFromStr (t : Bytes) : Option Bytes := (strFrom t).bind channelRef

/-- `serde_json::from_str::<Channel>` (src/common/channel.rs:203-211). -/
def channelFromStr (t : Bytes) : Option Bytes := (strFrom t).bind channel

/-- `serde_json::from_reader` for something that reads a `&ChannelRef` (src/common/channel.rs:184-192). -/
def channelRefFromReader (t : Bytes) : Option Bytes := (strFromReader t).bind channelRef

/-- `serde_json::from_reader::<Channel>` (src/common/channel.rs:203-211). -/
def channelFromReader (t : Bytes) : Option Bytes := (strFromReader t).bind channel

end Tmi.Model.Json
