/-
Model of the `serde` feature: the derived and hand-written `Serialize`/`Deserialize` of the typed messages
and of the channel names.

A serialised value is a tree of the kind `serde_json` and the other self-describing formats carry
(`Value`).  The text of JSON is in Model/Json.lean.
`DateTime<Utc>` is serialised by chrono as a string, and the two functions that do so are a parameter
(`TimeCodec`); those of chrono are in Model/Chrono.lean.
-/
import Verif.Model.Msg

namespace Tmi.Model

/-- A serialised value.
The data model into which the derives of src/msg.rs:112-116 and the other message types write. -/
inductive Value where
  | null
  | bool (b : Bool)
  | num (n : Int)
  | str (s : Bytes)
  | seq (l : List Value)
  | map (kvs : List (Bytes × Value))

/-! ### What serde does for the standard types -/

/-- `Serialize for u64` (external: serde).  Used by the derives, e.g. src/msg/privmsg.rs:50. -/
def serNat (n : Nat) : Value := .num n

/-- `Serialize for Option` (external: serde): `None` is the null of the format.
Used by the derives, e.g. src/msg/privmsg.rs:14-55. -/
def serOption {α : Type} (f : α → Value) : Option α → Value
  | none => .null
  | some a => f a

/-- `Serialize for Vec` (external: serde).  Used by the derives, e.g. src/msg/privmsg.rs:14-55. -/
def serSeq {α : Type} (f : α → Value) (l : List α) : Value := .seq (l.map f)

/-- `Serialize for Duration` (external: serde).
Used by the derives of src/msg/room_state.rs and src/msg/clear_chat.rs (e.g. src/msg/room_state.rs:89). -/
def serDuration (nanos : Nat) : Value := .map [
  (b!"secs", serNat (nanos / 1000000000)), (b!"nanos", serNat (nanos % 1000000000))]

/-- `Deserialize for Cow<str>` and `String` (external: serde).  Used e.g. at src/msg.rs:452-457. -/
def deStr : Value → Option Bytes
  | .str s => some s
  | _ => none

/-- `Deserialize for bool` (external: serde).  Used by the derives, e.g. src/msg/privmsg.rs:14-55. -/
def deBool : Value → Option Bool
  | .bool b => some b
  | _ => none

/-- `Deserialize for u64` (external: serde): a number in range.
Used by the derives, e.g. src/msg/privmsg.rs:14-55. -/
def deU64 : Value → Option Nat
  | .num n => if 0 ≤ n ∧ n ≤ u64Max then some n.toNat else none
  | _ => none

/-- `Deserialize for i64` (external: serde): a number in range.  Used by the derives, e.g. src/msg/privmsg.rs:14. -/
def deI64 : Value → Option Int
  | .num n => if i64Min ≤ n ∧ n ≤ i64Max then some n else none
  | _ => none

/-- `Deserialize for Option` (external: serde).  Used by the derives, e.g. src/msg/privmsg.rs:14-55. -/
def deOption {α : Type} (f : Value → Option α) : Value → Option (Option α)
  | .null => some none
  | v => (f v).map some

/-- `Deserialize for Vec` (external: serde).  Used by the derives, e.g. src/msg/privmsg.rs:14-55. -/
def deSeq {α : Type} (f : Value → Option α) : Value → Option (List α)
  | .seq l => l.mapM f
  | _ => none

/-- The entries of a struct (external: serde_derive): given as a map, or as a sequence of its fields in the order of
their declaration.  Used by the derives, e.g. src/msg.rs:452-459. -/
def deFields (names : List Bytes) : Value → Option (List (Bytes × Value))
  | .map kvs => some kvs
  | .seq l => if l.length = names.length then some (names.zip l) else none
  | _ => none

/-- A field in a derived `Deserialize` (external: serde_derive): missing or duplicate is an error;
unknown keys are ignored.  Used by the derives, e.g. src/msg.rs:452-459. -/
def field {α : Type} (kvs : List (Bytes × Value)) (name : Bytes) (f : Value → Option α) : Option α :=
  match kvs.filter (fun kv => kv.1 == name) with
  | [kv] => f kv.2
  | _ => none

/-- An `Option` field in a derived `Deserialize` (external: serde_derive): missing is `None`.
Used by the derives, e.g. src/msg/privmsg.rs:14-55. -/
def optField {α : Type} (kvs : List (Bytes × Value)) (name : Bytes) (f : Value → Option α) :
    Option (Option α) :=
  match kvs.filter (fun kv => kv.1 == name) with
  | [] => some none
  | [kv] => deOption f kv.2
  | _ => none

/-- A derived `Deserialize` of an externally tagged enum (external: serde_derive): a unit variant is its
name, or a one-entry map from the name to null; a newtype variant is a one-entry map from its name to the
payload.  Used by the derive of src/msg.rs:112-137. -/
def deEnum {α : Type} (units : List (Bytes × α)) (newtypes : List (Bytes × (Value → Option α))) :
    Value → Option α
  | .str s => units.lookup s
  | .map [(k, v)] =>
    match newtypes.lookup k with
    | some f => f v
    | none =>
      match v with
      | .null => units.lookup k
      | _ => none
  | _ => none

/-- `Deserialize for u32` (external: serde): a number in range.  Used by `Deserialize for Duration`, e.g. for
src/msg/room_state.rs:89. -/
def deU32 : Value → Option Nat
  | .num n => if 0 ≤ n ∧ n ≤ 4294967295 then some n.toNat else none
  | _ => none

/-- `Deserialize for Duration` (external: serde): no other fields than these, and `Duration::new(secs, nanos)` must not
overflow.
Used by the derives of src/msg/room_state.rs and src/msg/clear_chat.rs (e.g. src/msg/room_state.rs:89). -/
def deDuration (v : Value) : Option Nat := do
  let kvs ← deFields [b!"secs", b!"nanos"] v
  let secs ← field kvs (b!"secs") deU64
  let nanos ← field kvs (b!"nanos") deU32
  if kvs.all (fun kv => kv.1 == b!"secs" || kv.1 == b!"nanos") && secs + nanos / 1000000000 ≤ u64Max then
    some (secs * 1000000000 + nanos)
  else none

/-- `Serialize` and `Deserialize` for `DateTime<Utc>` (external: chrono): to and from a string.
Used by the derives, e.g. for src/msg/privmsg.rs:55. -/
structure TimeCodec where
  show_ : Timestamp → Bytes
  read : Bytes → Option Timestamp

/-- `Serialize for DateTime<Utc>` (external: chrono), for fields such as src/msg/privmsg.rs:55. -/
def TimeCodec.ser (tc : TimeCodec) (t : Timestamp) : Value := .str (tc.show_ t)

/-- `Deserialize for DateTime<Utc>` (external: chrono), for fields such as src/msg/privmsg.rs:55. -/
def TimeCodec.de (tc : TimeCodec) : Value → Option Timestamp
  | .str s => tc.read s
  | _ => none

/-! ### Channel names (src/common/channel.rs) -/

/-- `ChannelRef::parse` (src/common/channel.rs:18-23); `from_unchecked` keeps the string.  `none` is
`InvalidChannelName`. -/
def ChannelRef.parse (s : Bytes) : Option Bytes :=
  match s.head? == some 0x23 with
  | true => some s
  | false => none

/-- `Channel::parse` (src/common/channel.rs:94-99). -/
def Channel.parse (s : Bytes) : Option Bytes :=
  match s.head? == some 0x23 with
  | true => some s
  | false => none

/-- `ToOwned for ChannelRef` (src/common/channel.rs:72-78), `AsRef<ChannelRef>` and
`Borrow<ChannelRef> for Channel` (src/common/channel.rs:120-136), and the `as_str` of both (12-14,
87-89). -/
def ChannelRef.toOwned (s : Bytes) : Bytes := s
/-- `AsRef<ChannelRef> for Channel` (src/common/channel.rs:120-124). -/
def Channel.asRef (s : Bytes) : Bytes := s
/-- `ChannelRef::as_str` (src/common/channel.rs:11-13). -/
def ChannelRef.asStr (s : Bytes) : Bytes := s
/-- `Channel::as_str` (src/common/channel.rs:87-89). -/
def Channel.asStr (s : Bytes) : Bytes := s

/-- `Display for ChannelRef` (src/common/channel.rs:66-70) and `Display for Channel` (138-142). -/
def ChannelRef.display (s : Bytes) : Bytes := s
/-- `Display for Channel` (src/common/channel.rs:138-142). -/
def Channel.display (s : Bytes) : Bytes := s

/-- `Serialize for Channel` (src/common/channel.rs:213-220) and `&ChannelRef` (194-201). -/
def Channel.ser (s : Bytes) : Value := .str s
/-- `Serialize for &ChannelRef` (src/common/channel.rs:194-201). -/
def ChannelRef.ser (s : Bytes) : Value := .str (ChannelRef.asStr s)

/-- `Deserialize for Channel` (src/common/channel.rs:203-211). -/
def Channel.de (v : Value) : Option Bytes := (deStr v).bind Channel.parse

/-- `Deserialize for &ChannelRef` (src/common/channel.rs:184-192).  Only from a format that can lend the
string: which texts of JSON do is in Model/JsonStr.lean. -/
def ChannelRef.de (v : Value) : Option Bytes := (deStr v).bind ChannelRef.parse

/-! ### Badges (src/msg.rs) -/

/-- `#[derive(Serialize)]` of `BadgeData` (src/msg.rs:252-257). -/
def BadgeData.ser (v : BadgeData) : Value := .map [
  (b!"name", Value.str v.name),
  (b!"version", Value.str v.version),
  (b!"extra", serOption Value.str v.extra)]

/-- `#[derive(Deserialize)]` of `BadgeData` (src/msg.rs:252-257). -/
def BadgeData.de (v : Value) : Option BadgeData := do
  let kvs ← deFields [b!"name", b!"version", b!"extra"] v
  let name ← field kvs (b!"name") deStr
  let version ← field kvs (b!"version") deStr
  let extra ← optField kvs (b!"extra") deStr
  return { name, version, extra }

/-- `#[derive(Serialize)]` of `Subscriber` (src/msg.rs:214-223): `months_n` is skipped. -/
def Subscriber.ser (v : Subscriber) : Value := .map [
  (b!"version", Value.str v.version),
  (b!"months", Value.str v.months)]

/-- `Deserialize for Subscriber` (src/msg.rs:446-466): a derived helper struct with two fields, then
`months.parse()`. -/
def Subscriber.de (v : Value) : Option Subscriber := do
  let kvs ← deFields [b!"version", b!"months"] v
  let version ← field kvs (b!"version") deStr
  let months ← field kvs (b!"months") deStr
  let monthsN ← parseU64 months
  return { version, months, monthsN }

/-- `#[derive(Serialize)]` of `Badge` (src/msg.rs:111-137): externally tagged, variant names in lower
case. -/
def Badge.ser : Badge → Value
  | .staff => .str (b!"staff")
  | .turbo => .str (b!"turbo")
  | .broadcaster => .str (b!"broadcaster")
  | .moderator => .str (b!"moderator")
  | .subscriber v => .map [(b!"subscriber", v.ser)]
  | .other v => .map [(b!"other", v.ser)]

/-- `#[derive(Deserialize)]` of `Badge` (src/msg.rs:111-137). -/
def Badge.de : Value → Option Badge := deEnum
  [(b!"staff", .staff), (b!"turbo", .turbo), (b!"broadcaster", .broadcaster),
   (b!"moderator", .moderator)]
  [(b!"subscriber", fun v => (Subscriber.de v).map .subscriber),
   (b!"other", fun v => (BadgeData.de v).map .other)]


/-- `#[derive(Serialize)]` of `User` (src/msg.rs:292-297). -/
def User.ser (v : User) : Value := .map [
  (b!"id", Value.str v.id),
  (b!"login", Value.str v.login),
  (b!"name", Value.str v.name)]

/-- `#[derive(Deserialize)]` of `User` (src/msg.rs:292-297). -/
def User.de (v : Value) : Option User := do
  let kvs ← deFields [b!"id", b!"login", b!"name"] v
  let id ← field kvs (b!"id") deStr
  let login ← field kvs (b!"login") deStr
  let name ← field kvs (b!"name") deStr
  return { id, login, name }

/-- `#[derive(Serialize)]` of `Action` (src/msg/clear_chat.rs:57-73): externally tagged, variant names in lower case; the payload
structs are serialised as maps. -/
def Action.ser : Action → Value
  | .clear => .str (b!"clear")
  | .ban user id => .map [(b!"ban", .map [
      (b!"user", Value.str user),
      (b!"id", Value.str id)])]
  | .timeOut user id duration => .map [(b!"timeout", .map [
      (b!"user", Value.str user),
      (b!"id", Value.str id),
      (b!"duration", serDuration duration)])]

/-- `#[derive(Deserialize)]` of `Ban` (src/msg/clear_chat.rs:103-110). -/
def Action.deBan (v : Value) : Option Action := do
  let kvs ← deFields [b!"user", b!"id"] v
  let user ← field kvs (b!"user") deStr
  let id ← field kvs (b!"id") deStr
  return .ban user id

/-- `#[derive(Deserialize)]` of `TimeOut` (src/msg/clear_chat.rs:124-133). -/
def Action.deTimeOut (v : Value) : Option Action := do
  let kvs ← deFields [b!"user", b!"id", b!"duration"] v
  let user ← field kvs (b!"user") deStr
  let id ← field kvs (b!"id") deStr
  let duration ← field kvs (b!"duration") deDuration
  return .timeOut user id duration

/-- `#[derive(Deserialize)]` of `Action` (src/msg/clear_chat.rs:57-73). -/
def Action.de : Value → Option Action := deEnum
  [(b!"clear", .clear)]
  [(b!"ban", Action.deBan),
   (b!"timeout", Action.deTimeOut)]

/-- `#[derive(Serialize)]` of `ClearChat` (src/msg/clear_chat.rs:10-23). -/
def ClearChat.ser (tc : TimeCodec) (v : ClearChat) : Value := .map [
  (b!"channel", Value.str v.channel),
  (b!"channel_id", Value.str v.channelId),
  (b!"action", Action.ser v.action),
  (b!"timestamp", tc.ser v.timestamp)]

/-- `#[derive(Deserialize)]` of `ClearChat` (src/msg/clear_chat.rs:10-23). -/
def ClearChat.de (tc : TimeCodec) (v : Value) : Option ClearChat := do
  let kvs ← deFields [b!"channel", b!"channel_id", b!"action", b!"timestamp"] v
  let channel ← field kvs (b!"channel") deStr
  let channelId ← field kvs (b!"channel_id") deStr
  let action ← field kvs (b!"action") Action.de
  let timestamp ← field kvs (b!"timestamp") tc.de
  return { channel, channelId, action, timestamp }

/-- `#[derive(Serialize)]` of `ClearMsg` (src/msg/clear_msg.rs:9-30). -/
def ClearMsg.ser (tc : TimeCodec) (v : ClearMsg) : Value := .map [
  (b!"channel", Value.str v.channel),
  (b!"channel_id", Value.str v.channelId),
  (b!"sender", Value.str v.sender),
  (b!"target_message_id", Value.str v.targetMessageId),
  (b!"text", Value.str v.text),
  (b!"is_action", Value.bool v.isAction),
  (b!"timestamp", tc.ser v.timestamp)]

/-- `#[derive(Deserialize)]` of `ClearMsg` (src/msg/clear_msg.rs:9-30). -/
def ClearMsg.de (tc : TimeCodec) (v : Value) : Option ClearMsg := do
  let kvs ← deFields [b!"channel", b!"channel_id", b!"sender", b!"target_message_id", b!"text", b!"is_action",
    b!"timestamp"] v
  let channel ← field kvs (b!"channel") deStr
  let channelId ← field kvs (b!"channel_id") deStr
  let sender ← field kvs (b!"sender") deStr
  let targetMessageId ← field kvs (b!"target_message_id") deStr
  let text ← field kvs (b!"text") deStr
  let isAction ← field kvs (b!"is_action") deBool
  let timestamp ← field kvs (b!"timestamp") tc.de
  return { channel, channelId, sender, targetMessageId, text, isAction, timestamp }

/-- `#[derive(Serialize)]` of `GlobalUserState` (src/msg/global_user_state.rs:10-27). -/
def GlobalUserState.ser (v : GlobalUserState) : Value := .map [
  (b!"id", Value.str v.id),
  (b!"name", Value.str v.name),
  (b!"badges", serSeq Badge.ser v.badges),
  (b!"emote_sets", serSeq Value.str v.emoteSets),
  (b!"color", serOption Value.str v.color)]

/-- `#[derive(Deserialize)]` of `GlobalUserState` (src/msg/global_user_state.rs:10-27). -/
def GlobalUserState.de (v : Value) : Option GlobalUserState := do
  let kvs ← deFields [b!"id", b!"name", b!"badges", b!"emote_sets", b!"color"] v
  let id ← field kvs (b!"id") deStr
  let name ← field kvs (b!"name") deStr
  let badges ← field kvs (b!"badges") (deSeq Badge.de)
  let emoteSets ← field kvs (b!"emote_sets") (deSeq deStr)
  let color ← optField kvs (b!"color") deStr
  return { id, name, badges, emoteSets, color }

/-- `#[derive(Serialize)]` of `Join` (src/msg/join.rs:8-16). -/
def Join.ser (v : Join) : Value := .map [
  (b!"channel", Value.str v.channel),
  (b!"user", Value.str v.user)]

/-- `#[derive(Deserialize)]` of `Join` (src/msg/join.rs:8-16). -/
def Join.de (v : Value) : Option Join := do
  let kvs ← deFields [b!"channel", b!"user"] v
  let channel ← field kvs (b!"channel") deStr
  let user ← field kvs (b!"user") deStr
  return { channel, user }

/-- `#[derive(Serialize)]` of `Part` (src/msg/part.rs:8-16). -/
def Part.ser (v : Part) : Value := .map [
  (b!"channel", Value.str v.channel),
  (b!"user", Value.str v.user)]

/-- `#[derive(Deserialize)]` of `Part` (src/msg/part.rs:8-16). -/
def Part.de (v : Value) : Option Part := do
  let kvs ← deFields [b!"channel", b!"user"] v
  let channel ← field kvs (b!"channel") deStr
  let user ← field kvs (b!"user") deStr
  return { channel, user }

/-- `#[derive(Serialize)]` of `Notice` (src/msg/notice.rs:10-21). -/
def Notice.ser (v : Notice) : Value := .map [
  (b!"channel", serOption Value.str v.channel),
  (b!"text", Value.str v.text),
  (b!"id", serOption Value.str v.id)]

/-- `#[derive(Deserialize)]` of `Notice` (src/msg/notice.rs:10-21). -/
def Notice.de (v : Value) : Option Notice := do
  let kvs ← deFields [b!"channel", b!"text", b!"id"] v
  let channel ← optField kvs (b!"channel") deStr
  let text ← field kvs (b!"text") deStr
  let id ← optField kvs (b!"id") deStr
  return { channel, text, id }

/-- `#[derive(Serialize)]` of `Ping` (src/msg/ping.rs:22-27). -/
def Ping.ser (v : Ping) : Value := .map [
  (b!"nonce", serOption Value.str v.nonce)]

/-- `#[derive(Deserialize)]` of `Ping` (src/msg/ping.rs:22-27). -/
def Ping.de (v : Value) : Option Ping := do
  let kvs ← deFields [b!"nonce"] v
  let nonce ← optField kvs (b!"nonce") deStr
  return { nonce }

/-- `#[derive(Serialize)]` of `Pong` (src/msg/pong.rs:20-25). -/
def Pong.ser (v : Pong) : Value := .map [
  (b!"nonce", serOption Value.str v.nonce)]

/-- `#[derive(Deserialize)]` of `Pong` (src/msg/pong.rs:20-25). -/
def Pong.de (v : Value) : Option Pong := do
  let kvs ← deFields [b!"nonce"] v
  let nonce ← optField kvs (b!"nonce") deStr
  return { nonce }

/-- `#[derive(Serialize)]` of `Reply` (src/msg/privmsg.rs:129-146). -/
def Reply.ser (v : Reply) : Value := .map [
  (b!"thread_parent_message_id", Value.str v.threadParentMessageId),
  (b!"thread_parent_user_login", Value.str v.threadParentUserLogin),
  (b!"message_id", Value.str v.messageId),
  (b!"sender", User.ser v.sender),
  (b!"text", Value.str v.text)]

/-- `#[derive(Deserialize)]` of `Reply` (src/msg/privmsg.rs:129-146). -/
def Reply.de (v : Value) : Option Reply := do
  let kvs ← deFields [b!"thread_parent_message_id", b!"thread_parent_user_login", b!"message_id", b!"sender",
    b!"text"] v
  let threadParentMessageId ← field kvs (b!"thread_parent_message_id") deStr
  let threadParentUserLogin ← field kvs (b!"thread_parent_user_login") deStr
  let messageId ← field kvs (b!"message_id") deStr
  let sender ← field kvs (b!"sender") User.de
  let text ← field kvs (b!"text") deStr
  return { threadParentMessageId, threadParentUserLogin, messageId, sender, text }

/-- `#[derive(Serialize)]` of `PinnedChatLevel` (src/msg/privmsg.rs:203-217): unit variants under their
own names. -/
def PinnedChatLevel.ser : PinnedChatLevel → Value
  | .one => .str (b!"ONE")
  | .two => .str (b!"TWO")
  | .three => .str (b!"THREE")
  | .four => .str (b!"FOUR")
  | .five => .str (b!"FIVE")
  | .six => .str (b!"SIX")
  | .seven => .str (b!"SEVEN")
  | .eight => .str (b!"EIGHT")
  | .nine => .str (b!"NINE")
  | .ten => .str (b!"TEN")

/-- `#[derive(Deserialize)]` of `PinnedChatLevel` (src/msg/privmsg.rs:203-217). -/
def PinnedChatLevel.de : Value → Option PinnedChatLevel := deEnum
  [(b!"ONE", .one),
   (b!"TWO", .two),
   (b!"THREE", .three),
   (b!"FOUR", .four),
   (b!"FIVE", .five),
   (b!"SIX", .six),
   (b!"SEVEN", .seven),
   (b!"EIGHT", .eight),
   (b!"NINE", .nine),
   (b!"TEN", .ten)]
  []

/-- `#[derive(Serialize)]` of `PinnedChat` (src/msg/privmsg.rs:187-200). -/
def PinnedChat.ser (v : PinnedChat) : Value := .map [
  (b!"paid_amount", Value.num v.paidAmount),
  (b!"paid_currency", Value.str v.paidCurrency),
  (b!"paid_exponent", Value.num v.paidExponent),
  (b!"paid_level", PinnedChatLevel.ser v.paidLevel),
  (b!"is_system_message", Value.bool v.isSystemMessage)]

/-- `#[derive(Deserialize)]` of `PinnedChat` (src/msg/privmsg.rs:187-200). -/
def PinnedChat.de (v : Value) : Option PinnedChat := do
  let kvs ← deFields [b!"paid_amount", b!"paid_currency", b!"paid_exponent", b!"paid_level", b!"is_system_message"]
    v
  let paidAmount ← field kvs (b!"paid_amount") deI64
  let paidCurrency ← field kvs (b!"paid_currency") deStr
  let paidExponent ← field kvs (b!"paid_exponent") deI64
  let paidLevel ← field kvs (b!"paid_level") PinnedChatLevel.de
  let isSystemMessage ← field kvs (b!"is_system_message") deBool
  return { paidAmount, paidCurrency, paidExponent, paidLevel, isSystemMessage }

/-- `#[derive(Serialize)]` of `Privmsg` (src/msg/privmsg.rs:13-56). -/
def Privmsg.ser (tc : TimeCodec) (v : Privmsg) : Value := .map [
  (b!"channel", Value.str v.channel),
  (b!"channel_id", Value.str v.channelId),
  (b!"msg_id", serOption Value.str v.msgId),
  (b!"id", Value.str v.id),
  (b!"sender", User.ser v.sender),
  (b!"reply_to", serOption Reply.ser v.replyTo),
  (b!"pinned_chat", serOption PinnedChat.ser v.pinnedChat),
  (b!"text", Value.str v.text),
  (b!"is_action", Value.bool v.isAction),
  (b!"badges", serSeq Badge.ser v.badges),
  (b!"color", serOption Value.str v.color),
  (b!"custom_reward_id", serOption Value.str v.customRewardId),
  (b!"bits", serOption serNat v.bits),
  (b!"emotes", Value.str v.emotes),
  (b!"timestamp", tc.ser v.timestamp)]

/-- `#[derive(Deserialize)]` of `Privmsg` (src/msg/privmsg.rs:13-56). -/
def Privmsg.de (tc : TimeCodec) (v : Value) : Option Privmsg := do
  let kvs ← deFields [b!"channel", b!"channel_id", b!"msg_id", b!"id", b!"sender", b!"reply_to", b!"pinned_chat",
    b!"text", b!"is_action", b!"badges", b!"color", b!"custom_reward_id", b!"bits", b!"emotes", b!"timestamp"] v
  let channel ← field kvs (b!"channel") deStr
  let channelId ← field kvs (b!"channel_id") deStr
  let msgId ← optField kvs (b!"msg_id") deStr
  let id ← field kvs (b!"id") deStr
  let sender ← field kvs (b!"sender") User.de
  let replyTo ← optField kvs (b!"reply_to") Reply.de
  let pinnedChat ← optField kvs (b!"pinned_chat") PinnedChat.de
  let text ← field kvs (b!"text") deStr
  let isAction ← field kvs (b!"is_action") deBool
  let badges ← field kvs (b!"badges") (deSeq Badge.de)
  let color ← optField kvs (b!"color") deStr
  let customRewardId ← optField kvs (b!"custom_reward_id") deStr
  let bits ← optField kvs (b!"bits") deU64
  let emotes ← field kvs (b!"emotes") deStr
  let timestamp ← field kvs (b!"timestamp") tc.de
  return { channel, channelId, msgId, id, sender, replyTo, pinnedChat, text, isAction, badges, color, customRewardId, bits, emotes, timestamp }

/-- `#[derive(Serialize)]` of `FollowersOnly` (src/msg/room_state.rs:71-90). -/
def FollowersOnly.ser : FollowersOnly → Value
  | .disabled => .str (b!"disabled")
  | .enabled duration => .map [(b!"enabled", serOption serDuration duration)]

/-- `#[derive(Deserialize)]` of `FollowersOnly` (src/msg/room_state.rs:71-90). -/
def FollowersOnly.de : Value → Option FollowersOnly := deEnum
  [(b!"disabled", .disabled)]
  [(b!"enabled", fun v => (deOption deDuration v).map .enabled)]

/-- `#[derive(Serialize)]` of `RoomState` (src/msg/room_state.rs:9-27). -/
def RoomState.ser (v : RoomState) : Value := .map [
  (b!"channel", Value.str v.channel),
  (b!"channel_id", Value.str v.channelId),
  (b!"emote_only", serOption Value.bool v.emoteOnly),
  (b!"followers_only", serOption FollowersOnly.ser v.followersOnly),
  (b!"r9k", serOption Value.bool v.r9k),
  (b!"slow", serOption serDuration v.slow),
  (b!"subs_only", serOption Value.bool v.subsOnly)]

/-- `#[derive(Deserialize)]` of `RoomState` (src/msg/room_state.rs:9-27). -/
def RoomState.de (v : Value) : Option RoomState := do
  let kvs ← deFields [b!"channel", b!"channel_id", b!"emote_only", b!"followers_only", b!"r9k", b!"slow",
    b!"subs_only"] v
  let channel ← field kvs (b!"channel") deStr
  let channelId ← field kvs (b!"channel_id") deStr
  let emoteOnly ← optField kvs (b!"emote_only") deBool
  let followersOnly ← optField kvs (b!"followers_only") FollowersOnly.de
  let r9k ← optField kvs (b!"r9k") deBool
  let slow ← optField kvs (b!"slow") deDuration
  let subsOnly ← optField kvs (b!"subs_only") deBool
  return { channel, channelId, emoteOnly, followersOnly, r9k, slow, subsOnly }

/-- `#[derive(Serialize)]` of `UserState` (src/msg/user_state.rs:18-35). -/
def UserState.ser (v : UserState) : Value := .map [
  (b!"channel", Value.str v.channel),
  (b!"user_name", Value.str v.userName),
  (b!"badges", serSeq Badge.ser v.badges),
  (b!"emote_sets", serSeq Value.str v.emoteSets),
  (b!"color", serOption Value.str v.color)]

/-- `#[derive(Deserialize)]` of `UserState` (src/msg/user_state.rs:18-35). -/
def UserState.de (v : Value) : Option UserState := do
  let kvs ← deFields [b!"channel", b!"user_name", b!"badges", b!"emote_sets", b!"color"] v
  let channel ← field kvs (b!"channel") deStr
  let userName ← field kvs (b!"user_name") deStr
  let badges ← field kvs (b!"badges") (deSeq Badge.de)
  let emoteSets ← field kvs (b!"emote_sets") (deSeq deStr)
  let color ← optField kvs (b!"color") deStr
  return { channel, userName, badges, emoteSets, color }

/-- `#[derive(Serialize)]` of `Whisper` (src/msg/whisper.rs:8-28). -/
def Whisper.ser (v : Whisper) : Value := .map [
  (b!"recipient", Value.str v.recipient),
  (b!"sender", User.ser v.sender),
  (b!"text", Value.str v.text),
  (b!"badges", serSeq Badge.ser v.badges),
  (b!"emotes", Value.str v.emotes),
  (b!"color", serOption Value.str v.color)]

/-- `#[derive(Deserialize)]` of `Whisper` (src/msg/whisper.rs:8-28). -/
def Whisper.de (v : Value) : Option Whisper := do
  let kvs ← deFields [b!"recipient", b!"sender", b!"text", b!"badges", b!"emotes", b!"color"] v
  let recipient ← field kvs (b!"recipient") deStr
  let sender ← field kvs (b!"sender") User.de
  let text ← field kvs (b!"text") deStr
  let badges ← field kvs (b!"badges") (deSeq Badge.de)
  let emotes ← field kvs (b!"emotes") deStr
  let color ← optField kvs (b!"color") deStr
  return { recipient, sender, text, badges, emotes, color }

/-- `#[derive(Serialize)]` of `SubGiftPromo` (src/msg/user_notice.rs:427-432). -/
def SubGiftPromo.ser (v : SubGiftPromo) : Value := .map [
  (b!"total_gifts", serNat v.totalGifts),
  (b!"promo_name", Value.str v.promoName)]

/-- `#[derive(Deserialize)]` of `SubGiftPromo` (src/msg/user_notice.rs:427-432). -/
def SubGiftPromo.de (v : Value) : Option SubGiftPromo := do
  let kvs ← deFields [b!"total_gifts", b!"promo_name"] v
  let totalGifts ← field kvs (b!"total_gifts") deU64
  let promoName ← field kvs (b!"promo_name") deStr
  return { totalGifts, promoName }

/-- `#[derive(Serialize)]` of `Event` (src/msg/user_notice.rs:116-173): externally tagged, variant names in lower case; the payload
structs are serialised as maps. -/
def Event.ser : Event → Value
  | .unknown => .str (b!"unknown")
  | .subOrResub isResub cumulativeMonths streakMonths subPlan subPlanName => .map [(b!"suborresub", .map [
      (b!"is_resub", Value.bool isResub),
      (b!"cumulative_months", serNat cumulativeMonths),
      (b!"streak_months", serOption serNat streakMonths),
      (b!"sub_plan", Value.str subPlan),
      (b!"sub_plan_name", Value.str subPlanName)])]
  | .raid viewerCount profileImageUrl => .map [(b!"raid", .map [
      (b!"viewer_count", serNat viewerCount),
      (b!"profile_image_url", Value.str profileImageUrl)])]
  | .subGift cumulativeMonths recipient subPlan subPlanName numGiftedMonths => .map [(b!"subgift", .map [
      (b!"cumulative_months", serNat cumulativeMonths),
      (b!"recipient", User.ser recipient),
      (b!"sub_plan", Value.str subPlan),
      (b!"sub_plan_name", Value.str subPlanName),
      (b!"num_gifted_months", serNat numGiftedMonths)])]
  | .subMysteryGift count senderTotalGifts subPlan => .map [(b!"submysterygift", .map [
      (b!"count", serNat count),
      (b!"sender_total_gifts", serNat senderTotalGifts),
      (b!"sub_plan", Value.str subPlan)])]
  | .anonSubMysteryGift count subPlan => .map [(b!"anonsubmysterygift", .map [
      (b!"count", serNat count),
      (b!"sub_plan", Value.str subPlan)])]
  | .giftPaidUpgrade gifterLogin gifterName promotion => .map [(b!"giftpaidupgrade", .map [
      (b!"gifter_login", Value.str gifterLogin),
      (b!"gifter_name", Value.str gifterName),
      (b!"promotion", serOption SubGiftPromo.ser promotion)])]
  | .anonGiftPaidUpgrade promotion => .map [(b!"anongiftpaidupgrade", .map [
      (b!"promotion", serOption SubGiftPromo.ser promotion)])]
  | .ritual name => .map [(b!"ritual", .map [
      (b!"name", Value.str name)])]
  | .bitsBadgeTier tier => .map [(b!"bitsbadgetier", .map [
      (b!"tier", serNat tier)])]
  | .announcement highlightColor => .map [(b!"announcement", .map [
      (b!"highlight_color", Value.str highlightColor)])]

/-- `#[derive(Deserialize)]` of `SubOrResub` (src/msg/user_notice.rs:178-187). -/
def Event.deSubOrResub (v : Value) : Option Event := do
  let kvs ← deFields [b!"is_resub", b!"cumulative_months", b!"streak_months", b!"sub_plan", b!"sub_plan_name"] v
  let isResub ← field kvs (b!"is_resub") deBool
  let cumulativeMonths ← field kvs (b!"cumulative_months") deU64
  let streakMonths ← optField kvs (b!"streak_months") deU64
  let subPlan ← field kvs (b!"sub_plan") deStr
  let subPlanName ← field kvs (b!"sub_plan_name") deStr
  return .subOrResub isResub cumulativeMonths streakMonths subPlan subPlanName

/-- `#[derive(Deserialize)]` of `Raid` (src/msg/user_notice.rs:217-221). -/
def Event.deRaid (v : Value) : Option Event := do
  let kvs ← deFields [b!"viewer_count", b!"profile_image_url"] v
  let viewerCount ← field kvs (b!"viewer_count") deU64
  let profileImageUrl ← field kvs (b!"profile_image_url") deStr
  return .raid viewerCount profileImageUrl

/-- `#[derive(Deserialize)]` of `SubGift` (src/msg/user_notice.rs:241-248). -/
def Event.deSubGift (v : Value) : Option Event := do
  let kvs ← deFields [b!"cumulative_months", b!"recipient", b!"sub_plan", b!"sub_plan_name", b!"num_gifted_months"]
    v
  let cumulativeMonths ← field kvs (b!"cumulative_months") deU64
  let recipient ← field kvs (b!"recipient") User.de
  let subPlan ← field kvs (b!"sub_plan") deStr
  let subPlanName ← field kvs (b!"sub_plan_name") deStr
  let numGiftedMonths ← field kvs (b!"num_gifted_months") deU64
  return .subGift cumulativeMonths recipient subPlan subPlanName numGiftedMonths

/-- `#[derive(Deserialize)]` of `SubMysteryGift` (src/msg/user_notice.rs:278-283). -/
def Event.deSubMysteryGift (v : Value) : Option Event := do
  let kvs ← deFields [b!"count", b!"sender_total_gifts", b!"sub_plan"] v
  let count ← field kvs (b!"count") deU64
  let senderTotalGifts ← field kvs (b!"sender_total_gifts") deU64
  let subPlan ← field kvs (b!"sub_plan") deStr
  return .subMysteryGift count senderTotalGifts subPlan

/-- `#[derive(Deserialize)]` of `AnonSubMysteryGift` (src/msg/user_notice.rs:305-309). -/
def Event.deAnonSubMysteryGift (v : Value) : Option Event := do
  let kvs ← deFields [b!"count", b!"sub_plan"] v
  let count ← field kvs (b!"count") deU64
  let subPlan ← field kvs (b!"sub_plan") deStr
  return .anonSubMysteryGift count subPlan

/-- `#[derive(Deserialize)]` of `GiftPaidUpgrade` (src/msg/user_notice.rs:328-333). -/
def Event.deGiftPaidUpgrade (v : Value) : Option Event := do
  let kvs ← deFields [b!"gifter_login", b!"gifter_name", b!"promotion"] v
  let gifterLogin ← field kvs (b!"gifter_login") deStr
  let gifterName ← field kvs (b!"gifter_name") deStr
  let promotion ← optField kvs (b!"promotion") SubGiftPromo.de
  return .giftPaidUpgrade gifterLogin gifterName promotion

/-- `#[derive(Deserialize)]` of `AnonGiftPaidUpgrade` (src/msg/user_notice.rs:350-354). -/
def Event.deAnonGiftPaidUpgrade (v : Value) : Option Event := do
  let kvs ← deFields [b!"promotion"] v
  let promotion ← optField kvs (b!"promotion") SubGiftPromo.de
  return .anonGiftPaidUpgrade promotion

/-- `#[derive(Deserialize)]` of `Ritual` (src/msg/user_notice.rs:370-373). -/
def Event.deRitual (v : Value) : Option Event := do
  let kvs ← deFields [b!"name"] v
  let name ← field kvs (b!"name") deStr
  return .ritual name

/-- `#[derive(Deserialize)]` of `BitsBadgeTier` (src/msg/user_notice.rs:386-392). -/
def Event.deBitsBadgeTier (v : Value) : Option Event := do
  let kvs ← deFields [b!"tier"] v
  let tier ← field kvs (b!"tier") deU64
  return .bitsBadgeTier tier

/-- `#[derive(Deserialize)]` of `Announcement` (src/msg/user_notice.rs:405-408). -/
def Event.deAnnouncement (v : Value) : Option Event := do
  let kvs ← deFields [b!"highlight_color"] v
  let highlightColor ← field kvs (b!"highlight_color") deStr
  return .announcement highlightColor

/-- `#[derive(Deserialize)]` of `Event` (src/msg/user_notice.rs:116-173). -/
def Event.de : Value → Option Event := deEnum
  [(b!"unknown", .unknown)]
  [(b!"suborresub", Event.deSubOrResub),
   (b!"raid", Event.deRaid),
   (b!"subgift", Event.deSubGift),
   (b!"submysterygift", Event.deSubMysteryGift),
   (b!"anonsubmysterygift", Event.deAnonSubMysteryGift),
   (b!"giftpaidupgrade", Event.deGiftPaidUpgrade),
   (b!"anongiftpaidupgrade", Event.deAnonGiftPaidUpgrade),
   (b!"ritual", Event.deRitual),
   (b!"bitsbadgetier", Event.deBitsBadgeTier),
   (b!"announcement", Event.deAnnouncement)]

/-- `#[derive(Serialize)]` of `UserNotice` (src/msg/user_notice.rs:14-51). -/
def UserNotice.ser (tc : TimeCodec) (v : UserNotice) : Value := .map [
  (b!"channel", Value.str v.channel),
  (b!"channel_id", Value.str v.channelId),
  (b!"sender", serOption User.ser v.sender),
  (b!"text", serOption Value.str v.text),
  (b!"system_message", serOption Value.str v.systemMessage),
  (b!"event", Event.ser v.event),
  (b!"event_id", Value.str v.eventId),
  (b!"badges", serSeq Badge.ser v.badges),
  (b!"emotes", Value.str v.emotes),
  (b!"color", serOption Value.str v.color),
  (b!"message_id", Value.str v.messageId),
  (b!"timestamp", tc.ser v.timestamp)]

/-- `#[derive(Deserialize)]` of `UserNotice` (src/msg/user_notice.rs:14-51). -/
def UserNotice.de (tc : TimeCodec) (v : Value) : Option UserNotice := do
  let kvs ← deFields [b!"channel", b!"channel_id", b!"sender", b!"text", b!"system_message", b!"event",
    b!"event_id", b!"badges", b!"emotes", b!"color", b!"message_id", b!"timestamp"] v
  let channel ← field kvs (b!"channel") deStr
  let channelId ← field kvs (b!"channel_id") deStr
  let sender ← optField kvs (b!"sender") User.de
  let text ← optField kvs (b!"text") deStr
  let systemMessage ← optField kvs (b!"system_message") deStr
  let event ← field kvs (b!"event") Event.de
  let eventId ← field kvs (b!"event_id") deStr
  let badges ← field kvs (b!"badges") (deSeq Badge.de)
  let emotes ← field kvs (b!"emotes") deStr
  let color ← optField kvs (b!"color") deStr
  let messageId ← field kvs (b!"message_id") deStr
  let timestamp ← field kvs (b!"timestamp") tc.de
  return { channel, channelId, sender, text, systemMessage, event, eventId, badges, emotes, color, messageId, timestamp }

end Tmi.Model
