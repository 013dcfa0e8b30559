/-
`Debug` of the messages: what `{:?}` and `{:#?}` print.

The builders of `core::fmt` (`debug_struct`, `debug_tuple`, `debug_list`, `PadAdapter`), `Debug` of
`str` and of `Duration`, and chrono's `Debug` of `DateTime<Utc>` are the ones of the versions in
Cargo.lock; a value is first turned into a tree (`Dbg`), which is then printed in either form.
-/
import Verif.Model.Msg
import Verif.Model.Chars
import Verif.Spec.Words

namespace Tmi.Model

/-! ### Strings and numbers -/

/-- `Display` of an unsigned number: decimal digits.  E.g. the field `bits` of src/msg/privmsg.rs:50. -/
def decNat (n : Nat) : Bytes := (Nat.toDigits 10 n).map fun c => c.val.toUInt8

/-- `Display` of a signed number.  E.g. the field `paid_amount` of src/msg/privmsg.rs:190. -/
def decInt (n : Int) : Bytes := if n < 0 then 0x2D :: decNat n.natAbs else decNat n.natAbs

/-- A number with leading zeros up to a width, as `{:0w$}` prints it. Used by chrono for the
timestamps of src/msg.rs:332-335. -/
def decPad (w n : Nat) : Bytes := List.replicate (w - (decNat n).length) 0x30 ++ decNat n

/-- A number in lower-case hexadecimal digits, as in `\u{ad}`: `char::escape_unicode`.  Part of
the `Debug` of every `str` field. -/
def hex (n : Nat) : Bytes := (Nat.toDigits 16 n).map fun c => c.val.toUInt8

/-- `char::escape_debug_ext` as `Debug` of `str` uses it.  Which characters outside ASCII are escaped
(those that are not printable, and combining marks) is given by Unicode tables, here the parameter
`esc`.  Part of the `Debug` of every `str` field. -/
def debugChar (esc : Nat → Bool) (c : Char) : Bytes :=
  let n := c.val.toNat
  if n = 0 then b!"\\0"
  else if n = 9 then b!"\\t"
  else if n = 13 then b!"\\r"
  else if n = 10 then b!"\\n"
  else if n = 34 then b!"\\\""
  else if n = 92 then b!"\\\\"
  else if n < 32 ∨ n = 127 ∨ (128 ≤ n ∧ esc n) then b!"\\u{" ++ hex n ++ b!"}"
  else String.utf8EncodeChar c

/-- `Debug` of `str`: the characters, escaped, between quotes.  E.g. the fields of src/irc.rs:169-175. -/
def debugStr (esc : Nat → Bool) (s : Bytes) : Bytes :=
  0x22 :: (decode s).flatMap (debugChar esc) ++ [0x22]

/-! ### Trees -/

/-- What a call of `debug_struct` (with the name and whether `finish_non_exhaustive` ends it),
`debug_tuple` or `debug_list` builds.  src/irc.rs:169, 307, src/common/channel.rs:62, src/client.rs:139
and the derived `Debug`s. -/
inductive Kind where
  | struct (name : Bytes) (more : Bool)
  | tuple (name : Bytes)
  | list
deriving DecidableEq, Repr

mutual
/-- A value as its `Debug` shows it: something printed as it is (`atom`), a string, or a node.
The calls of the builders at src/irc.rs:169-175, 307-311, src/common/channel.rs:62,
src/client.rs:139-141 and in the derived `Debug`s. -/
inductive Dbg where
  | atom (text : Bytes)
  | str (s : Bytes)
  | node (kind : Kind) (items : Items)
/-- The fields or entries of a node.  `label` is the name of a field and empty for an entry.
See `Dbg` (src/irc.rs:169-175, 307-311). -/
inductive Items where
  | nil
  | cons (label : Bytes) (v : Dbg) (rest : Items)
end

/-- The text before the value of a field or an entry: `DebugStruct::field` writes the name and `": "`.
E.g. src/irc.rs:170. -/
def labelText (label : Bytes) : Bytes := if label = [] then [] else label ++ b!": "

mutual
/-- `{:?}`.  `DebugStruct`, `DebugTuple` and `DebugList` of `core::fmt` in the plain form
(src/irc.rs:169-175, 307-311). -/
def Dbg.compact (esc : Nat → Bool) : Dbg → Bytes
  | .atom t => t
  | .str s => debugStr esc s
  | .node (.struct name more) .nil => if more then name ++ b!" { .. }" else name
  | .node (.struct name more) (.cons l v rest) =>
    name ++ b!" { " ++ labelText l ++ v.compact esc ++ rest.compact esc ++ (if more then b!", .. }" else b!" }")
  | .node (.tuple name) .nil => name
  | .node (.tuple name) (.cons l v rest) =>
    name ++ b!"(" ++ labelText l ++ v.compact esc ++ rest.compact esc ++ b!")"
  | .node .list .nil => b!"[]"
  | .node .list (.cons l v rest) =>
    b!"[" ++ labelText l ++ v.compact esc ++ rest.compact esc ++ b!"]"
/-- The fields or entries after the first one: each is preceded by `", "`.  See `Dbg.compact`
(src/irc.rs:169-175, 307-311). -/
def Items.compact (esc : Nat → Bool) : Items → Bytes
  | .nil => []
  | .cons l v rest => b!", " ++ labelText l ++ v.compact esc ++ rest.compact esc
end

/-- `PadAdapter::write_str` of `core::fmt`: four spaces at the start of every line.  `nl` is
`state.on_newline`.  Part of `{:#?}` (src/irc.rs:169-175, 307-311). -/
def pad (nl : Bool) : Bytes → Bytes
  | [] => []
  | c :: t => (if nl then b!"    " else []) ++ c :: pad (c == 0x0A) t

mutual
/-- `{:#?}`.  `DebugStruct`, `DebugTuple` and `DebugList` of `core::fmt` in the pretty form
(src/irc.rs:169-175, 307-311). -/
def Dbg.pretty (esc : Nat → Bool) : Dbg → Bytes
  | .atom t => t
  | .str s => debugStr esc s
  | .node (.struct name more) .nil => if more then name ++ b!" { .. }" else name
  | .node (.struct name more) (.cons l v rest) =>
    name ++ b!" {\n" ++ pad true (labelText l ++ v.pretty esc ++ b!",\n") ++ rest.pretty esc ++
      (if more then b!"    ..\n}" else b!"}")
  | .node (.tuple name) .nil => name
  | .node (.tuple name) (.cons l v rest) =>
    name ++ b!"(\n" ++ pad true (labelText l ++ v.pretty esc ++ b!",\n") ++ rest.pretty esc ++ b!")"
  | .node .list .nil => b!"[]"
  | .node .list (.cons l v rest) =>
    b!"[\n" ++ pad true (labelText l ++ v.pretty esc ++ b!",\n") ++ rest.pretty esc ++ b!"]"
/-- The fields or entries after the first one.  See `Dbg.pretty` (src/irc.rs:169-175, 307-311). -/
def Items.pretty (esc : Nat → Bool) : Items → Bytes
  | .nil => []
  | .cons l v rest => pad true (labelText l ++ v.pretty esc ++ b!",\n") ++ rest.pretty esc
end

/-- The items of a `debug_struct` (or a derived `Debug` of a struct).  E.g. src/irc.rs:169-175. -/
def Items.ofFields : List (Bytes × Dbg) → Items
  | [] => .nil
  | (l, v) :: rest => .cons l v (ofFields rest)

/-- The items of a `debug_tuple` or `debug_list`.  E.g. src/irc.rs:307-311. -/
def Items.ofList : List Dbg → Items
  | [] => .nil
  | v :: rest => .cons [] v (ofList rest)

/-- `debug_struct(name)` with `finish`.  E.g. src/irc.rs:169-175. -/
def Dbg.struct (name : Bytes) (fields : List (Bytes × Dbg)) : Dbg :=
  .node (.struct name false) (.ofFields fields)

/-- `debug_tuple(name)`.  E.g. src/common/channel.rs:62. -/
def Dbg.tuple (name : Bytes) (items : List Dbg) : Dbg := .node (.tuple name) (.ofList items)

/-- `debug_list()`.  E.g. src/irc.rs:307-311. -/
def Dbg.list (items : List Dbg) : Dbg := .node .list (.ofList items)

/-! ### Values of the standard library and of chrono -/

/-- `Debug` of `bool`.  E.g. the field `is_action` of src/msg/privmsg.rs:39. -/
def dbgBool (v : Bool) : Dbg := .atom (if v then b!"true" else b!"false")

/-- `Debug` of an unsigned number.  E.g. the field `bits` of src/msg/privmsg.rs:50. -/
def dbgNat (v : Nat) : Dbg := .atom (decNat v)

/-- `Debug` of a signed number.  E.g. the field `paid_amount` of src/msg/privmsg.rs:190. -/
def dbgInt (v : Int) : Dbg := .atom (decInt v)

/-- `Debug` of `Option`.  E.g. the field `color` of src/msg/privmsg.rs:45. -/
def dbgOpt {α : Type} (f : α → Dbg) : Option α → Dbg
  | none => .atom (b!"None")
  | some v => .tuple (b!"Some") [f v]

/-- `Debug` of a `Vec` or a slice.  E.g. the field `badges` of src/msg/privmsg.rs:42. -/
def dbgList {α : Type} (f : α → Dbg) (l : List α) : Dbg := .list (l.map f)

/-- The digits of a fraction `n / 10^w` after the point, without trailing zeros: the loop over the
buffer in `fmt_decimal` of `core::time`.  Part of the `Debug` of a `Duration` (src/client.rs:178). -/
def fracDigits : (w n : Nat) → Bytes
  | 0, _ => []
  | w + 1, n =>
    if n = 0 then [] else UInt8.ofNat (48 + n / 10 ^ w) :: fracDigits w (n % 10 ^ w)

/-- `fmt_decimal` of `core::time` without a precision: `int.frac`, the fraction left out if it is 0.
Part of the `Debug` of a `Duration` (src/client.rs:178). -/
def fmtDecimal (int frac w : Nat) (unit : Bytes) : Bytes :=
  decNat int ++ (if frac = 0 then [] else 0x2E :: fracDigits w frac) ++ unit

/-- `Debug` of a `Duration` of so many nanoseconds.  The fields of src/client.rs:152-158, 179,
src/msg/clear_chat.rs:132 and src/msg/room_state.rs:24, 89. -/
def durationText (nanos : Nat) : Bytes :=
  let secs := nanos / 1000000000
  let n := nanos % 1000000000
  if secs > 0 then fmtDecimal secs n 9 (b!"s")
  else if n ≥ 1000000 then fmtDecimal (n / 1000000) (n % 1000000) 6 (b!"ms")
  else if n ≥ 1000 then fmtDecimal (n / 1000) (n % 1000) 3 (b!"µs")
  else fmtDecimal n 0 1 (b!"ns")

/-- `Debug` of a `Duration`.  src/client.rs:152-158, 179, src/msg/clear_chat.rs:132, src/msg/room_state.rs:24, 89. -/
def dbgDuration (nanos : Nat) : Dbg := .atom (durationText nanos)

/-- The leap days of the years before year `y` of a cycle of 400 years which starts with a leap
year: chrono's table `YEAR_DELTAS`.  Part of the `Debug` of a timestamp (src/msg.rs:332-335). -/
def yearDelta (y : Nat) : Nat := (y + 3) / 4 - (y + 99) / 100 + (y + 399) / 400

/-- chrono's `cycle_to_yo`: the year and the day of the year (from 0) of a day of a cycle of 400
years.  Part of the `Debug` of a timestamp (src/msg.rs:332-335). -/
def cycleToYo (cycle : Nat) : Nat × Nat :=
  let y := cycle / 365
  let o := cycle % 365
  if o < yearDelta y then (y - 1, o + 365 - yearDelta (y - 1)) else (y, o - yearDelta y)

/-- The lengths of the months of a year.  Part of the `Debug` of a timestamp (src/msg.rs:332-335). -/
def monthLengths (leap : Bool) : List Nat :=
  [31, if leap then 29 else 28, 31, 30, 31, 30, 31, 31, 30, 31, 30, 31]

/-- The month and the day of the month (both from 1) of the day `o` (from 0) of a year, given the
lengths of the months from month `m` on: chrono's `Of::to_mdf`, which is a table.  Part of the
`Debug` of a timestamp (src/msg.rs:332-335). -/
def monthDay (m o : Nat) : List Nat → Nat × Nat
  | [] => (m, o + 1)
  | len :: rest => if o < len then (m, o + 1) else monthDay (m + 1) (o - len) rest

/-- Year, month and day of the day `days` after 1970-01-01: chrono's `from_num_days_from_ce_opt`.
Part of the `Debug` of a timestamp (src/msg.rs:332-335). -/
def civil (days : Int) : Int × Nat × Nat :=
  let d := days + 719528   -- days since 0000-01-01
  let cycle := (d % 146097).toNat
  let (y, o) := cycleToYo cycle
  let leap := y % 4 = 0 ∧ (y % 100 ≠ 0 ∨ y % 400 = 0)
  let (m, dom) := monthDay 1 o (monthLengths leap)
  (d / 146097 * 400 + y, m, dom)

/-- A year as chrono prints it: four digits from 0 to 9999, otherwise with a sign (`{:+05}`).
Part of the `Debug` of a timestamp (src/msg.rs:332-335). -/
def yearText (y : Int) : Bytes :=
  if 0 ≤ y ∧ y ≤ 9999 then decPad 4 y.toNat
  else (if y < 0 then 0x2D else 0x2B) :: decPad 4 y.natAbs

/-- The fraction of a second as chrono prints it: nothing, or 3, 6 or 9 digits.
Part of the `Debug` of a timestamp (src/msg.rs:332-335). -/
def fractionText (nano : Nat) : Bytes :=
  if nano = 0 then []
  else if nano % 1000000 = 0 then b!"." ++ decPad 3 (nano / 1000000)
  else if nano % 1000 = 0 then b!"." ++ decPad 6 (nano / 1000)
  else b!"." ++ decPad 9 nano

/-- `Debug` of a `DateTime<Utc>`.  A leap second is printed as second 60.  The timestamps of src/msg.rs:332-335. -/
def timestampText (t : Timestamp) : Bytes :=
  let (y, m, d) := civil (t.secs / 86400)
  let s := (t.secs % 86400).toNat
  let (sec, nano) := if t.nanos ≥ 1000000000 then (s % 60 + 1, t.nanos - 1000000000) else (s % 60, t.nanos)
  yearText y ++ b!"-" ++ decPad 2 m ++ b!"-" ++ decPad 2 d ++ b!"T" ++
    decPad 2 (s / 3600) ++ b!":" ++ decPad 2 (s / 60 % 60) ++ b!":" ++ decPad 2 sec ++ fractionText nano ++ b!"Z"

/-- `Debug` of a timestamp.  src/msg.rs:332-335. -/
def dbgTime (t : Timestamp) : Dbg := .atom (timestampText t)

/-! ### Raw messages -/

/-- The derived `Debug` of `Prefix` (src/irc/prefix.rs:26). -/
def Prefix.dbg (p : Prefix) : Dbg :=
  .struct (b!"Prefix") [(b!"nick", dbgOpt .str p.nick), (b!"user", dbgOpt .str p.user), (b!"host", .str p.host)]

/-- The derived `Debug` of `Command` (src/irc/command.rs:68). -/
def Command.dbg : Command → Dbg
  | .ping => .atom (b!"Ping")
  | .pong => .atom (b!"Pong")
  | .join => .atom (b!"Join")
  | .part => .atom (b!"Part")
  | .privmsg => .atom (b!"Privmsg")
  | .whisper => .atom (b!"Whisper")
  | .clearChat => .atom (b!"ClearChat")
  | .clearMsg => .atom (b!"ClearMsg")
  | .globalUserState => .atom (b!"GlobalUserState")
  | .notice => .atom (b!"Notice")
  | .reconnect => .atom (b!"Reconnect")
  | .roomState => .atom (b!"RoomState")
  | .userNotice => .atom (b!"UserNotice")
  | .userState => .atom (b!"UserState")
  | .capability => .atom (b!"Capability")
  | .rplWelcome => .atom (b!"RplWelcome")
  | .rplYourHost => .atom (b!"RplYourHost")
  | .rplCreated => .atom (b!"RplCreated")
  | .rplMyInfo => .atom (b!"RplMyInfo")
  | .rplNames => .atom (b!"RplNames")
  | .rplEndOfNames => .atom (b!"RplEndOfNames")
  | .rplMotd => .atom (b!"RplMotd")
  | .rplMotdStart => .atom (b!"RplMotdStart")
  | .rplEndOfMotd => .atom (b!"RplEndOfMotd")
  | .other s => .tuple (b!"Other") [.str s]

/-- `Debug for IrcMessageRef` (src/irc.rs:167-177); `Debug for IrcMessage` (275-285) is the same but
for the name. -/
def MsgRef.dbg (name : Bytes) (m : MsgRef) : R Dbg := do
  let tags ← m.tags
  let pfx ← m.prefix?
  let command ← m.command
  let channel ← m.channel
  let params ← m.params
  return .struct name [
    (b!"tags", dbgList (fun (kv : Bytes × Bytes) => .tuple [] [.str kv.1, .str kv.2]) tags),
    (b!"prefix", dbgOpt Prefix.dbg pfx),
    (b!"command", command.dbg),
    (b!"channel", dbgOpt .str channel),
    (b!"params", dbgOpt .str params)]

/-- `Debug for IrcMessageRef` (src/irc.rs:167-177). -/
def MsgRef.debug (m : MsgRef) : R Dbg := m.dbg (b!"Message")

/-- `Debug for IrcMessage` (src/irc.rs:275-285). -/
def MsgOwned.debug (m : MsgOwned) : R Dbg := m.asRef.dbg (b!"IrcMessage")

/-! ### Typed messages -/

/-- The derived `Debug` of `Subscriber` (src/msg.rs:214). -/
def Subscriber.dbg (v : Subscriber) : Dbg :=
  .struct (b!"Subscriber") [(b!"version", .str v.version), (b!"months", .str v.months), (b!"months_n", dbgNat v.monthsN)]

/-- The derived `Debug` of `BadgeData` (src/msg.rs:251). -/
def BadgeData.dbg (v : BadgeData) : Dbg :=
  .struct (b!"BadgeData") [(b!"name", .str v.name), (b!"version", .str v.version), (b!"extra", dbgOpt .str v.extra)]

/-- The derived `Debug` of `Badge` (src/msg.rs:111). -/
def Badge.dbg : Badge → Dbg
  | .staff => .atom (b!"Staff")
  | .turbo => .atom (b!"Turbo")
  | .broadcaster => .atom (b!"Broadcaster")
  | .moderator => .atom (b!"Moderator")
  | .subscriber v => .tuple (b!"Subscriber") [v.dbg]
  | .other v => .tuple (b!"Other") [v.dbg]

/-- The derived `Debug` of `User` (src/msg.rs:291). -/
def User.dbg (v : User) : Dbg :=
  .struct (b!"User") [(b!"id", .str v.id), (b!"login", .str v.login), (b!"name", .str v.name)]

/-- The derived `Debug` of `Action`, `Ban` and `TimeOut` (src/msg/clear_chat.rs:56, 102, 123). -/
def Action.dbg : Action → Dbg
  | .clear => .atom (b!"Clear")
  | .ban user id => .tuple (b!"Ban") [.struct (b!"Ban") [(b!"user", .str user), (b!"id", .str id)]]
  | .timeOut user id duration => .tuple (b!"TimeOut") [.struct (b!"TimeOut") [
      (b!"user", .str user), (b!"id", .str id), (b!"duration", dbgDuration duration)]]

/-- The derived `Debug` of `ClearChat` (src/msg/clear_chat.rs:10). -/
def ClearChat.dbg (v : ClearChat) : Dbg :=
  .struct (b!"ClearChat") [(b!"channel", .str v.channel), (b!"channel_id", .str v.channelId),
    (b!"action", v.action.dbg), (b!"timestamp", dbgTime v.timestamp)]

/-- The derived `Debug` of `ClearMsg` (src/msg/clear_msg.rs:9). -/
def ClearMsg.dbg (v : ClearMsg) : Dbg :=
  .struct (b!"ClearMsg") [(b!"channel", .str v.channel), (b!"channel_id", .str v.channelId),
    (b!"sender", .str v.sender), (b!"target_message_id", .str v.targetMessageId), (b!"text", .str v.text),
    (b!"is_action", dbgBool v.isAction), (b!"timestamp", dbgTime v.timestamp)]

/-- The derived `Debug` of `GlobalUserState` (src/msg/global_user_state.rs:10). -/
def GlobalUserState.dbg (v : GlobalUserState) : Dbg :=
  .struct (b!"GlobalUserState") [(b!"id", .str v.id), (b!"name", .str v.name),
    (b!"badges", dbgList Badge.dbg v.badges), (b!"emote_sets", dbgList .str v.emoteSets),
    (b!"color", dbgOpt .str v.color)]

/-- The derived `Debug` of `Join` (src/msg/join.rs:8). -/
def Join.dbg (v : Join) : Dbg :=
  .struct (b!"Join") [(b!"channel", .str v.channel), (b!"user", .str v.user)]

/-- The derived `Debug` of `Part` (src/msg/part.rs:8). -/
def Part.dbg (v : Part) : Dbg :=
  .struct (b!"Part") [(b!"channel", .str v.channel), (b!"user", .str v.user)]

/-- The derived `Debug` of `Notice` (src/msg/notice.rs:10). -/
def Notice.dbg (v : Notice) : Dbg :=
  .struct (b!"Notice") [(b!"channel", dbgOpt .str v.channel), (b!"text", .str v.text), (b!"id", dbgOpt .str v.id)]

/-- The derived `Debug` of `Ping` (src/msg/ping.rs:22). -/
def Ping.dbg (v : Ping) : Dbg := .struct (b!"Ping") [(b!"nonce", dbgOpt .str v.nonce)]

/-- The derived `Debug` of `Pong` (src/msg/pong.rs:20). -/
def Pong.dbg (v : Pong) : Dbg := .struct (b!"Pong") [(b!"nonce", dbgOpt .str v.nonce)]

/-- The derived `Debug` of `Reply` (src/msg/privmsg.rs:129). -/
def Reply.dbg (v : Reply) : Dbg :=
  .struct (b!"Reply") [(b!"thread_parent_message_id", .str v.threadParentMessageId),
    (b!"thread_parent_user_login", .str v.threadParentUserLogin), (b!"message_id", .str v.messageId),
    (b!"sender", v.sender.dbg), (b!"text", .str v.text)]

/-- The derived `Debug` of `PinnedChat` and `PinnedChatLevel` (src/msg/privmsg.rs:187, 203). -/
def PinnedChat.dbg (v : PinnedChat) : Dbg :=
  .struct (b!"PinnedChat") [(b!"paid_amount", dbgInt v.paidAmount), (b!"paid_currency", .str v.paidCurrency),
    (b!"paid_exponent", dbgInt v.paidExponent), (b!"paid_level", .atom v.paidLevel.asStr),
    (b!"is_system_message", dbgBool v.isSystemMessage)]

/-- The derived `Debug` of `Privmsg` (src/msg/privmsg.rs:13). -/
def Privmsg.dbg (v : Privmsg) : Dbg :=
  .struct (b!"Privmsg") [(b!"channel", .str v.channel), (b!"channel_id", .str v.channelId),
    (b!"msg_id", dbgOpt .str v.msgId), (b!"id", .str v.id), (b!"sender", v.sender.dbg),
    (b!"reply_to", dbgOpt Reply.dbg v.replyTo), (b!"pinned_chat", dbgOpt PinnedChat.dbg v.pinnedChat),
    (b!"text", .str v.text), (b!"is_action", dbgBool v.isAction), (b!"badges", dbgList Badge.dbg v.badges),
    (b!"color", dbgOpt .str v.color), (b!"custom_reward_id", dbgOpt .str v.customRewardId),
    (b!"bits", dbgOpt dbgNat v.bits), (b!"emotes", .str v.emotes), (b!"timestamp", dbgTime v.timestamp)]

/-- The derived `Debug` of `FollowersOnly` (src/msg/room_state.rs:71). -/
def FollowersOnly.dbg : FollowersOnly → Dbg
  | .disabled => .atom (b!"Disabled")
  | .enabled duration => .tuple (b!"Enabled") [dbgOpt dbgDuration duration]

/-- The derived `Debug` of `RoomState` (src/msg/room_state.rs:9). -/
def RoomState.dbg (v : RoomState) : Dbg :=
  .struct (b!"RoomState") [(b!"channel", .str v.channel), (b!"channel_id", .str v.channelId),
    (b!"emote_only", dbgOpt dbgBool v.emoteOnly), (b!"followers_only", dbgOpt FollowersOnly.dbg v.followersOnly),
    (b!"r9k", dbgOpt dbgBool v.r9k), (b!"slow", dbgOpt dbgDuration v.slow), (b!"subs_only", dbgOpt dbgBool v.subsOnly)]

/-- The derived `Debug` of `UserState` (src/msg/user_state.rs:18). -/
def UserState.dbg (v : UserState) : Dbg :=
  .struct (b!"UserState") [(b!"channel", .str v.channel), (b!"user_name", .str v.userName),
    (b!"badges", dbgList Badge.dbg v.badges), (b!"emote_sets", dbgList .str v.emoteSets),
    (b!"color", dbgOpt .str v.color)]

/-- The derived `Debug` of `Whisper` (src/msg/whisper.rs:8). -/
def Whisper.dbg (v : Whisper) : Dbg :=
  .struct (b!"Whisper") [(b!"recipient", .str v.recipient), (b!"sender", v.sender.dbg), (b!"text", .str v.text),
    (b!"badges", dbgList Badge.dbg v.badges), (b!"emotes", .str v.emotes), (b!"color", dbgOpt .str v.color)]

/-- The derived `Debug` of `SubGiftPromo` (src/msg/user_notice.rs:427). -/
def SubGiftPromo.dbg (v : SubGiftPromo) : Dbg :=
  .struct (b!"SubGiftPromo") [(b!"total_gifts", dbgNat v.totalGifts), (b!"promo_name", .str v.promoName)]

/-- The derived `Debug` of `Event` and its payloads (src/msg/user_notice.rs:117-404). -/
def Event.dbg : Event → Dbg
  | .subOrResub isResub cumulativeMonths streakMonths subPlan subPlanName =>
    .tuple (b!"SubOrResub") [.struct (b!"SubOrResub") [(b!"is_resub", dbgBool isResub),
      (b!"cumulative_months", dbgNat cumulativeMonths), (b!"streak_months", dbgOpt dbgNat streakMonths),
      (b!"sub_plan", .str subPlan), (b!"sub_plan_name", .str subPlanName)]]
  | .raid viewerCount profileImageUrl =>
    .tuple (b!"Raid") [.struct (b!"Raid") [(b!"viewer_count", dbgNat viewerCount),
      (b!"profile_image_url", .str profileImageUrl)]]
  | .subGift cumulativeMonths recipient subPlan subPlanName numGiftedMonths =>
    .tuple (b!"SubGift") [.struct (b!"SubGift") [(b!"cumulative_months", dbgNat cumulativeMonths),
      (b!"recipient", recipient.dbg), (b!"sub_plan", .str subPlan), (b!"sub_plan_name", .str subPlanName),
      (b!"num_gifted_months", dbgNat numGiftedMonths)]]
  | .subMysteryGift count senderTotalGifts subPlan =>
    .tuple (b!"SubMysteryGift") [.struct (b!"SubMysteryGift") [(b!"count", dbgNat count),
      (b!"sender_total_gifts", dbgNat senderTotalGifts), (b!"sub_plan", .str subPlan)]]
  | .anonSubMysteryGift count subPlan =>
    .tuple (b!"AnonSubMysteryGift") [.struct (b!"AnonSubMysteryGift") [(b!"count", dbgNat count),
      (b!"sub_plan", .str subPlan)]]
  | .giftPaidUpgrade gifterLogin gifterName promotion =>
    .tuple (b!"GiftPaidUpgrade") [.struct (b!"GiftPaidUpgrade") [(b!"gifter_login", .str gifterLogin),
      (b!"gifter_name", .str gifterName), (b!"promotion", dbgOpt SubGiftPromo.dbg promotion)]]
  | .anonGiftPaidUpgrade promotion =>
    .tuple (b!"AnonGiftPaidUpgrade") [.struct (b!"AnonGiftPaidUpgrade") [
      (b!"promotion", dbgOpt SubGiftPromo.dbg promotion)]]
  | .ritual name => .tuple (b!"Ritual") [.struct (b!"Ritual") [(b!"name", .str name)]]
  | .bitsBadgeTier tier => .tuple (b!"BitsBadgeTier") [.struct (b!"BitsBadgeTier") [(b!"tier", dbgNat tier)]]
  | .announcement highlightColor =>
    .tuple (b!"Announcement") [.struct (b!"Announcement") [(b!"highlight_color", .str highlightColor)]]
  | .unknown => .atom (b!"Unknown")

/-- The derived `Debug` of `UserNotice` (src/msg/user_notice.rs:14). -/
def UserNotice.dbg (v : UserNotice) : Dbg :=
  .struct (b!"UserNotice") [(b!"channel", .str v.channel), (b!"channel_id", .str v.channelId),
    (b!"sender", dbgOpt User.dbg v.sender), (b!"text", dbgOpt .str v.text),
    (b!"system_message", dbgOpt .str v.systemMessage), (b!"event", v.event.dbg), (b!"event_id", .str v.eventId),
    (b!"badges", dbgList Badge.dbg v.badges), (b!"emotes", .str v.emotes), (b!"color", dbgOpt .str v.color),
    (b!"message_id", .str v.messageId), (b!"timestamp", dbgTime v.timestamp)]

/-- The derived `Debug` of `Message` (src/msg.rs:39). -/
def Message.dbg : Message → R Dbg
  | .clearChat v => .ok (.tuple (b!"ClearChat") [v.dbg])
  | .clearMsg v => .ok (.tuple (b!"ClearMsg") [v.dbg])
  | .globalUserState v => .ok (.tuple (b!"GlobalUserState") [v.dbg])
  | .join v => .ok (.tuple (b!"Join") [v.dbg])
  | .notice v => .ok (.tuple (b!"Notice") [v.dbg])
  | .part v => .ok (.tuple (b!"Part") [v.dbg])
  | .ping v => .ok (.tuple (b!"Ping") [v.dbg])
  | .pong v => .ok (.tuple (b!"Pong") [v.dbg])
  | .privmsg v => .ok (.tuple (b!"Privmsg") [v.dbg])
  | .reconnect => .ok (.atom (b!"Reconnect"))
  | .roomState v => .ok (.tuple (b!"RoomState") [v.dbg])
  | .userNotice v => .ok (.tuple (b!"UserNotice") [v.dbg])
  | .userState v => .ok (.tuple (b!"UserState") [v.dbg])
  | .whisper v => .ok (.tuple (b!"Whisper") [v.dbg])
  | .other m => do return .tuple (b!"Other") [← m.debug]

/-- `Debug for ChannelRef` (src/common/channel.rs:60-64); the derived `Debug` of `Channel` (82) shows the same
name and the same string. -/
def Channel.dbg (name : Bytes) : Dbg := .tuple (b!"Channel") [.str name]

/-! ### Printing -/

/-- The text `{:?}` (`alternate = false`) or `{:#?}` (`alternate = true`) gives: the builders look at
`Formatter::alternate` (src/irc.rs:169-175, 307-311). -/
def Dbg.text (esc : Nat → Bool) (alternate : Bool) (d : Dbg) : Bytes :=
  if alternate then d.pretty esc else d.compact esc

/-- `format!("{:?}", message)` and `format!("{:#?}", message)` for an `IrcMessageRef` (src/irc.rs:167-177). -/
def MsgRef.print (esc : Nat → Bool) (alternate : Bool) (m : MsgRef) : R Bytes := do
  return (← m.debug).text esc alternate

/-- The same for an `IrcMessage` (src/irc.rs:275-285). -/
def MsgOwned.print (esc : Nat → Bool) (alternate : Bool) (m : MsgOwned) : R Bytes := do
  return (← m.debug).text esc alternate

/-- The same for a `Message` (src/msg.rs:39). -/
def Message.print (esc : Nat → Bool) (alternate : Bool) (m : Message) : R Bytes := do
  return (← m.dbg).text esc alternate

end Tmi.Model
