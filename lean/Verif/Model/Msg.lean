/-
Model of the typed messages: src/msg.rs and src/msg/*.rs.

Strings are modelled by their contents (`Cow::Borrowed` and `Cow::Owned` are not distinguished).
`?` on an `Option` is a bind in `OptionT R`; a `None` result is `MessageParseError` (every `from_irc`
is `Self::parse(message).ok_or(MessageParseError)`).
-/
import Verif.Model.Irc
import Verif.Model.Num
import Verif.Model.Escape

namespace Tmi.Model

/-- `expr?` for an `Option` expression.  E.g. src/msg/privmsg.rs:348. -/
def req {α : Type} (x : R (Option α)) : OptionT R α := OptionT.mk x

/-- An expression whose value is used as it is.  E.g. src/msg/privmsg.rs:349. -/
def get' {α : Type} (x : R α) : OptionT R α := OptionT.lift x

/-- `expr?` for a pure `Option` expression.  E.g. src/msg/privmsg.rs:373. -/
def some? {α : Type} (x : Option α) : OptionT R α := OptionT.mk (.ok x)

/-! ### Strings -/

/-- `s.split(c)` for an ASCII character, collected.  Called at src/msg.rs:352, 361, 366. -/
def splitOn (x : UInt8) : Bytes → List Bytes
  | [] => [[]]
  | y :: t =>
    if y = x then [] :: splitOn x t
    else match splitOn x t with
      | [] => [[y]]
      | p :: ps => (y :: p) :: ps

/-- `s.split_once(c)` for an ASCII character.  Called at src/msg.rs:362, 367. -/
def splitOnce (x : UInt8) (s : Bytes) : Option (Bytes × Bytes) :=
  (find x s).map fun i => (s.take i, s.drop (i + 1))

/-- Offset of the first occurrence of a two-byte pattern.  Used for `split_once` at src/msg/whisper.rs:70. -/
def find2 (x y : UInt8) : Bytes → Option Nat
  | [] => none
  | [_] => none
  | a :: b :: t => if a = x ∧ b = y then some 0 else (find2 x y (b :: t)).map (· + 1)

/-- `s.split_once(" :")`.  Called at src/msg/whisper.rs:70. -/
def splitOnce2 (x y : UInt8) (s : Bytes) : Option (Bytes × Bytes) :=
  (find2 x y s).map fun i => (s.take i, s.drop (i + 2))

/-- `s.strip_prefix(p)`.  Called at src/msg.rs:342. -/
def stripPrefix : (p s : Bytes) → Option Bytes
  | [], s => some s
  | _ :: _, [] => none
  | a :: p, b :: s => if a = b then stripPrefix p s else none

/-- `s.strip_suffix(c)` for an ASCII character.  Called at src/msg.rs:345. -/
def stripSuffix (x : UInt8) (s : Bytes) : Option Bytes :=
  if s.getLast? = some x then some s.dropLast else none

/-- `option.filter(is_not_empty)` (src/msg.rs:328-330). -/
def nonEmpty (o : Option Bytes) : Option Bytes := o.filter fun s => !s.isEmpty

/-- `parse_message_text` (src/msg.rs:341-349). -/
def parseMessageText (input : Bytes) : Bytes × Bool :=
  match stripPrefix (0x01 :: b!"ACTION ") input with
  | none => (input, false)
  | some s =>
    match stripSuffix 0x01 s with
    | none => (input, false)
    | some s => (s, true)

/-- `split_comma` (src/msg.rs:351-353), collected. -/
def splitComma (s : Bytes) : List Bytes := splitOn COMMA s

/-! ### Badges -/

/-- `Subscriber` (src/msg.rs:216-223). -/
structure Subscriber (σ : Type := Bytes) where
  version : σ
  months : σ
  monthsN : Nat
deriving DecidableEq, Repr

/-- `BadgeData` (src/msg.rs:253-257). -/
structure BadgeData (σ : Type := Bytes) where
  name : σ
  version : σ
  extra : Option σ
deriving DecidableEq, Repr

/-- `Badge` (src/msg.rs:117-137). -/
inductive Badge (σ : Type := Bytes) where
  | staff
  | turbo
  | broadcaster
  | moderator
  | subscriber (v : Subscriber σ)
  | other (v : BadgeData σ)
deriving DecidableEq, Repr

/-- `From<Badge> for BadgeData` (src/msg.rs:157-190); `as_badge_data` (141-143) is the same. -/
def Badge.toData : Badge → BadgeData
  | .staff => ⟨b!"staff", b!"1", none⟩
  | .turbo => ⟨b!"turbo", b!"1", none⟩
  | .broadcaster => ⟨b!"broadcaster", b!"1", none⟩
  | .moderator => ⟨b!"moderator", b!"1", none⟩
  | .subscriber ⟨version, months, _⟩ => ⟨b!"subscriber", version, some months⟩
  | .other data => data

/-- `From<BadgeData> for Badge` (src/msg.rs:192-211). -/
def BadgeData.toBadge (value : BadgeData) : Badge :=
  if value.name = b!"staff" then .staff
  else if value.name = b!"turbo" then .turbo
  else if value.name = b!"broadcaster" then .broadcaster
  else if value.name = b!"moderator" then .moderator
  else if value.name = b!"subscriber" then
    .subscriber {
      version := value.version
      months := value.extra.getD (b!"1")
      monthsN := (value.extra.bind parseU64).getD 1 }
  else .other value

/-- `parse_badges` (src/msg.rs:355-380). -/
def parseBadges (badges badgeInfo : Bytes) : List Badge :=
  if badges = [] then []
  else
    let info := (splitOn COMMA badgeInfo).filterMap (splitOnce SLASH)
    ((splitOn COMMA badges).filterMap (splitOnce SLASH)).map fun nv =>
      (BadgeData.mk nv.1 nv.2 ((info.find? fun p => p.1 == nv.1).map (·.2))).toBadge

/-- The expression `message.tag(Tag::Badges).zip(message.tag(Tag::BadgeInfo)).map(..)
.unwrap_or_default()`, which occurs in five parsers (e.g. src/msg/privmsg.rs:387-391). -/
def badgesOf (m : MsgRef) : R (List Badge) := do
  match ← m.tag .badges, ← m.tag .badgeInfo with
  | some a, some b => return parseBadges a b
  | _, _ => return []

/-! ### User -/

/-- `User` (src/msg.rs:293-297). -/
structure User (σ : Type := Bytes) where
  id : σ
  login : σ
  name : σ
deriving DecidableEq, Repr

/-- The getter `User::name` (src/msg.rs:313). -/
def User.getName (u : User) : R Bytes := maybeUnescape u.name

/-- `message.prefix().and_then(|prefix| prefix.nick)` (e.g. src/msg/privmsg.rs:353-356) -/
def nickOf? (m : MsgRef) : R (Option Bytes) := do
  return (← m.prefix?).bind (·.nick)

/-! ### CLEARCHAT (src/msg/clear_chat.rs) -/

/-- `Action` (src/msg/clear_chat.rs:62-73), `Ban` (104-110), `TimeOut` (125-133). -/
inductive Action (σ : Type := Bytes) where
  | clear
  | ban (user id : σ)
  | timeOut (user id : σ) (duration : Nat)
deriving DecidableEq, Repr

/-- `ClearChat` (src/msg/clear_chat.rs:12-23). -/
structure ClearChat (σ : Type := Bytes) where
  channel : σ
  channelId : σ
  action : Action σ
  timestamp : Timestamp
deriving DecidableEq, Repr

/-- `ClearChat::target` (src/msg/clear_chat.rs:46-52). -/
def ClearChat.target (c : ClearChat) : Option Bytes :=
  match c.action with
  | .clear => none
  | .ban user _ => some user
  | .timeOut user _ _ => some user

/-- `Action::is_clear`, `is_ban`, `is_time_out` (src/msg/clear_chat.rs:80-98). -/
def Action.isClear : Action → Bool | .clear => true | _ => false
/-- `Action::is_ban` (src/msg/clear_chat.rs:88-90). -/
def Action.isBan : Action → Bool | .ban _ _ => true | _ => false
/-- `Action::is_time_out` (src/msg/clear_chat.rs:96-98). -/
def Action.isTimeOut : Action → Bool | .timeOut _ _ _ => true | _ => false

/-- `ClearChat::parse` (src/msg/clear_chat.rs:149-174). -/
def ClearChat.parse (m : MsgRef) : R (Option ClearChat) := OptionT.run do
  if (← get' m.command) ≠ .clearChat then failure
  let channel ← req m.channel
  let channelId ← req (m.tag .roomId)
  let text ← get' m.text
  let duration := (← get' (m.tag .banDuration)).bind parseDuration
  let action ← match text, duration with
    | some name, some duration => do
      let id ← req (m.tag .targetUserId)
      pure (Action.timeOut name id duration)
    | some name, none => do
      let id ← req (m.tag .targetUserId)
      pure (Action.ban name id)
    | none, _ => pure Action.clear
  let timestamp ← some? (parseTimestamp (← req (m.tag .tmiSentTs)))
  return { channel, channelId, action, timestamp }

/-! ### CLEARMSG (src/msg/clear_msg.rs) -/

/-- `ClearMsg` (src/msg/clear_msg.rs:11-30). -/
structure ClearMsg (σ : Type := Bytes) where
  channel : σ
  channelId : σ
  sender : σ
  targetMessageId : σ
  text : σ
  isAction : Bool
  timestamp : Timestamp
deriving DecidableEq, Repr

/-- `ClearMsg::parse` (src/msg/clear_msg.rs:58-73). -/
def ClearMsg.parse (m : MsgRef) : R (Option ClearMsg) := OptionT.run do
  if (← get' m.command) ≠ .clearMsg then failure
  let (text, isAction) := parseMessageText (← req m.text)
  let channel ← req m.channel
  let channelId ← req (m.tag .roomId)
  let sender ← req (m.tag .login)
  let targetMessageId ← req (m.tag .targetMsgId)
  let timestamp ← some? (parseTimestamp (← req (m.tag .tmiSentTs)))
  return { channel, channelId, sender, targetMessageId, text, isAction, timestamp }

/-! ### GLOBALUSERSTATE (src/msg/global_user_state.rs) -/

/-- `GlobalUserState` (src/msg/global_user_state.rs:12-27). -/
structure GlobalUserState (σ : Type := Bytes) where
  id : σ
  name : σ
  badges : List (Badge σ)
  emoteSets : List σ
  color : Option σ
deriving DecidableEq, Repr

/-- The getter `GlobalUserState::name` (src/msg/global_user_state.rs:40). -/
def GlobalUserState.getName (u : GlobalUserState) : R Bytes := maybeUnescape u.name

/-- `GlobalUserState::parse` (src/msg/global_user_state.rs:66-90). -/
def GlobalUserState.parse (m : MsgRef) : R (Option GlobalUserState) := OptionT.run do
  if (← get' m.command) ≠ .globalUserState then failure
  let id ← req (m.tag .userId)
  let name ← req (m.tag .displayName)
  let badges ← get' (badgesOf m)
  let emoteSets := ((← get' (m.tag .emoteSets)).map splitComma).getD []
  let color := nonEmpty (← get' (m.tag .color))
  return { id, name, badges, emoteSets, color }

/-! ### JOIN and PART (src/msg/join.rs, src/msg/part.rs) -/

/-- `Join` (src/msg/join.rs:10-16). -/
structure Join (σ : Type := Bytes) where
  channel : σ
  user : σ
deriving DecidableEq, Repr

/-- `Join::parse` (src/msg/join.rs:29-41). -/
def Join.parse (m : MsgRef) : R (Option Join) := OptionT.run do
  if (← get' m.command) ≠ .join then failure
  let channel ← req m.channel
  let user ← req (nickOf? m)
  return { channel, user }

/-- `Part` (src/msg/part.rs:10-16). -/
structure Part (σ : Type := Bytes) where
  channel : σ
  user : σ
deriving DecidableEq, Repr

/-- `Part::parse` (src/msg/part.rs:29-41). -/
def Part.parse (m : MsgRef) : R (Option Part) := OptionT.run do
  if (← get' m.command) ≠ .part then failure
  let channel ← req m.channel
  let user ← req (nickOf? m)
  return { channel, user }

/-! ### NOTICE (src/msg/notice.rs) -/

/-- `Notice` (src/msg/notice.rs:12-21). -/
structure Notice (σ : Type := Bytes) where
  channel : Option σ
  text : σ
  id : Option σ
deriving DecidableEq, Repr

/-- `Notice::parse` (src/msg/notice.rs:41-51). -/
def Notice.parse (m : MsgRef) : R (Option Notice) := OptionT.run do
  if (← get' m.command) ≠ .notice then failure
  let channel ← get' m.channel
  let text ← req m.text
  let id ← get' (m.tag .msgId)
  return { channel, text, id }

/-! ### PING and PONG (src/msg/ping.rs, src/msg/pong.rs) -/

/-- `Ping` (src/msg/ping.rs:24-27). -/
structure Ping (σ : Type := Bytes) where
  nonce : Option σ
deriving DecidableEq, Repr

/-- `Ping::parse` (src/msg/ping.rs:37-45). -/
def Ping.parse (m : MsgRef) : R (Option Ping) := OptionT.run do
  if (← get' m.command) ≠ .ping then failure
  let nonce ← get' m.text
  return { nonce }

/-- `Pong` (src/msg/pong.rs:22-25). -/
structure Pong (σ : Type := Bytes) where
  nonce : Option σ
deriving DecidableEq, Repr

/-- `Pong::parse` (src/msg/pong.rs:35-43). -/
def Pong.parse (m : MsgRef) : R (Option Pong) := OptionT.run do
  if (← get' m.command) ≠ .pong then failure
  let nonce ← get' m.text
  return { nonce }

/-! ### PRIVMSG (src/msg/privmsg.rs) -/

/-- `Reply` (src/msg/privmsg.rs:131-146). -/
structure Reply (σ : Type := Bytes) where
  threadParentMessageId : σ
  threadParentUserLogin : σ
  messageId : σ
  sender : User σ
  text : σ
deriving DecidableEq, Repr

/-- The getter `Reply::text` (src/msg/privmsg.rs:173). -/
def Reply.getText (r : Reply) : R Bytes := maybeUnescape r.text

/-- `PinnedChatLevel` (src/msg/privmsg.rs:206-217). -/
inductive PinnedChatLevel where
  | one | two | three | four | five | six | seven | eight | nine | ten
deriving DecidableEq, Repr

/-- `PinnedChatLevel::as_str` (src/msg/privmsg.rs:223-236). -/
def PinnedChatLevel.asStr : PinnedChatLevel → Bytes
  | .one => b!"ONE"
  | .two => b!"TWO"
  | .three => b!"THREE"
  | .four => b!"FOUR"
  | .five => b!"FIVE"
  | .six => b!"SIX"
  | .seven => b!"SEVEN"
  | .eight => b!"EIGHT"
  | .nine => b!"NINE"
  | .ten => b!"TEN"

/-- `level as u8`, also `From<PinnedChatLevel> for u8` (src/msg/privmsg.rs:239-243): the
discriminants of `#[repr(u8)]` count from 0. -/
def PinnedChatLevel.toU8 : PinnedChatLevel → UInt8
  | .one => 0
  | .two => 1
  | .three => 2
  | .four => 3
  | .five => 4
  | .six => 5
  | .seven => 6
  | .eight => 7
  | .nine => 8
  | .ten => 9

/-- `PinnedChatLevel::MIN` and `MAX` (src/msg/privmsg.rs:220-221). -/
def PinnedChatLevel.min : PinnedChatLevel := .one
/-- `PinnedChatLevel::MAX` (src/msg/privmsg.rs:221). -/
def PinnedChatLevel.max : PinnedChatLevel := .ten

/-- `transmute::<u8, PinnedChatLevel>`: undefined behaviour (a fault) for a byte that is not a
discriminant.  Called at src/msg/privmsg.rs:253. -/
def PinnedChatLevel.transmute (v : UInt8) : R PinnedChatLevel :=
  match [PinnedChatLevel.one, .two, .three, .four, .five, .six, .seven, .eight, .nine, .ten].find?
      (fun l => l.toU8 == v) with
  | some l => .ok l
  | none => .error .oob

/-- `TryFrom<u8> for PinnedChatLevel` (src/msg/privmsg.rs:245-255). -/
def PinnedChatLevel.tryFrom (value : UInt8) : R (Option PinnedChatLevel) :=
  if value < PinnedChatLevel.min.toU8 || value > PinnedChatLevel.max.toU8 then .ok none
  else do return some (← PinnedChatLevel.transmute value)

/-- `FromStr for PinnedChatLevel` (src/msg/privmsg.rs:257-275). -/
def PinnedChatLevel.fromStr (s : Bytes) : Option PinnedChatLevel :=
  if s = b!"ONE" then some .one
  else if s = b!"TWO" then some .two
  else if s = b!"THREE" then some .three
  else if s = b!"FOUR" then some .four
  else if s = b!"FIVE" then some .five
  else if s = b!"SIX" then some .six
  else if s = b!"SEVEN" then some .seven
  else if s = b!"EIGHT" then some .eight
  else if s = b!"NINE" then some .nine
  else if s = b!"TEN" then some .ten
  else none

/-- `PinnedChat` (src/msg/privmsg.rs:189-200). -/
structure PinnedChat (σ : Type := Bytes) where
  paidAmount : Int
  paidCurrency : σ
  paidExponent : Int
  paidLevel : PinnedChatLevel
  isSystemMessage : Bool
deriving DecidableEq, Repr

/-- `Privmsg` (src/msg/privmsg.rs:15-56). -/
structure Privmsg (σ : Type := Bytes) where
  channel : σ
  channelId : σ
  msgId : Option σ
  id : σ
  sender : User σ
  replyTo : Option (Reply σ)
  pinnedChat : Option (PinnedChat σ)
  text : σ
  isAction : Bool
  badges : List (Badge σ)
  color : Option σ
  customRewardId : Option σ
  bits : Option Nat
  emotes : σ
  timestamp : Timestamp
deriving DecidableEq, Repr

/-- The closure for `reply_to` in `Privmsg::parse` (src/msg/privmsg.rs:359-371). -/
def parseReply (m : MsgRef) : R (Option Reply) := OptionT.run do
  let messageId ← req (m.tag .replyParentMsgId)
  let threadParentMessageId ← req (m.tag .replyThreadParentMsgId)
  let threadParentUserLogin ← req (m.tag .replyThreadParentUserLogin)
  let id ← req (m.tag .replyParentUserId)
  let login ← req (m.tag .replyParentUserLogin)
  let name ← req (m.tag .replyParentDisplayName)
  let text ← req (m.tag .replyParentMsgBody)
  return { threadParentMessageId, threadParentUserLogin, messageId, sender := ⟨id, login, name⟩, text }

/-- The closure for `pinned_chat` in `Privmsg::parse` (src/msg/privmsg.rs:372-385). -/
def parsePinned (m : MsgRef) : R (Option PinnedChat) := OptionT.run do
  let amount ← req (m.tag .pinnedChatPaidAmount)
  let paidAmount ← some? (parseI64 amount)
  let paidCurrency ← req (m.tag .pinnedChatPaidCurrency)
  let paidExponent ← some? (parseI64 (← req (m.tag .pinnedChatPaidExponent)))
  let paidLevel ← some? (PinnedChatLevel.fromStr (← req (m.tag .pinnedChatPaidLevel)))
  let isSystemMessage := parseBool (← req (m.tag .pinnedChatPaidIsSystemMessage))
  return { paidAmount, paidCurrency, paidExponent, paidLevel, isSystemMessage }

/-- `Privmsg::parse` (src/msg/privmsg.rs:341-421). -/
def Privmsg.parse (m : MsgRef) : R (Option Privmsg) := OptionT.run do
  if (← get' m.command) ≠ .privmsg then failure
  let (text, isAction) := parseMessageText (← req m.text)
  let channel ← req m.channel
  let channelId ← req (m.tag .roomId)
  let msgId ← get' (m.tag .msgId)
  let id ← req (m.tag .id)
  let senderId ← req (m.tag .userId)
  let login ← req (nickOf? m)
  let name ← req (m.tag .displayName)
  let replyTo ← get' (parseReply m)
  let pinnedChat ← get' (parsePinned m)
  let badges ← get' (badgesOf m)
  let color := nonEmpty (← get' (m.tag .color))
  let customRewardId := nonEmpty (← get' (m.tag .customRewardId))
  let bits := (← get' (m.tag .bits)).bind parseU64
  let emotes := (← get' (m.tag .emotes)).getD []
  let timestamp ← some? (parseTimestamp (← req (m.tag .tmiSentTs)))
  return { channel, channelId, msgId, id, sender := ⟨senderId, login, name⟩, replyTo, pinnedChat,
           text, isAction, badges, color, customRewardId, bits, emotes, timestamp }

/-! ### ROOMSTATE (src/msg/room_state.rs) -/

/-- `FollowersOnly` (src/msg/room_state.rs:77-90).  A duration is modelled by its
nanoseconds. -/
inductive FollowersOnly where
  | disabled
  | enabled (duration : Option Nat)
deriving DecidableEq, Repr

/-- `RoomState` (src/msg/room_state.rs:11-27). -/
structure RoomState (σ : Type := Bytes) where
  channel : σ
  channelId : σ
  emoteOnly : Option Bool
  followersOnly : Option FollowersOnly
  r9k : Option Bool
  slow : Option Nat
  subsOnly : Option Bool
deriving DecidableEq, Repr

/-- The closure of `followers_only` (src/msg/room_state.rs:102-109): `n * 60` is an `i64` multiplication and
is then cast to `u64`. -/
def followersFrom (checks : Bool) (n : Int) : R FollowersOnly :=
  if n > 0 then do return .enabled (some (fromSecs (i64AsU64 (← mulI64 checks n 60))))
  else if n = 0 then .ok (.enabled none)
  else .ok .disabled

/-- `message.tag(Tag::FollowersOnly).and_then(|v| v.parse().ok()).map(..)`
(src/msg/room_state.rs:102-109). -/
def followersOnlyOf (m : MsgRef) : R (Option FollowersOnly) := do
  match (← m.tag .followersOnly).bind parseI64 with
  | none => return none
  | some n => return some (← followersFrom m.checks n)

/-- `RoomState::parse` (src/msg/room_state.rs:93-117). -/
def RoomState.parse (m : MsgRef) : R (Option RoomState) := OptionT.run do
  if (← get' m.command) ≠ .roomState then failure
  let channel ← req m.channel
  let channelId ← req (m.tag .roomId)
  let emoteOnly := (← get' (m.tag .emoteOnly)).map parseBool
  let followersOnly ← get' (followersOnlyOf m)
  let r9k := (← get' (m.tag .r9K)).map parseBool
  let slow := ((← get' (m.tag .slow)).bind parseU64).map fromSecs
  let subsOnly := (← get' (m.tag .subsOnly)).map parseBool
  return { channel, channelId, emoteOnly, followersOnly, r9k, slow, subsOnly }

/-! ### USERSTATE (src/msg/user_state.rs) -/

/-- `UserState` (src/msg/user_state.rs:20-35). -/
structure UserState (σ : Type := Bytes) where
  channel : σ
  userName : σ
  badges : List (Badge σ)
  emoteSets : List σ
  color : Option σ
deriving DecidableEq, Repr

/-- `UserState::parse` (src/msg/user_state.rs:69-93). -/
def UserState.parse (m : MsgRef) : R (Option UserState) := OptionT.run do
  if (← get' m.command) ≠ .userState then failure
  let channel ← req m.channel
  let userName ← req (m.tag .displayName)
  let badges ← get' (badgesOf m)
  let emoteSets := ((← get' (m.tag .emoteSets)).map splitComma).getD []
  let color := nonEmpty (← get' (m.tag .color))
  return { channel, userName, badges, emoteSets, color }

/-! ### WHISPER (src/msg/whisper.rs) -/

/-- `Whisper` (src/msg/whisper.rs:10-28). -/
structure Whisper (σ : Type := Bytes) where
  recipient : σ
  sender : User σ
  text : σ
  badges : List (Badge σ)
  emotes : σ
  color : Option σ
deriving DecidableEq, Repr

/-- `Whisper::parse` (src/msg/whisper.rs:65-91). -/
def Whisper.parse (m : MsgRef) : R (Option Whisper) := OptionT.run do
  if (← get' m.command) ≠ .whisper then failure
  let (recipient, text) ← some? (splitOnce2 SP COLON (← req m.params))
  let id ← req (m.tag .userId)
  let login ← req (nickOf? m)
  let name ← req (m.tag .displayName)
  let color := nonEmpty (← get' (m.tag .color))
  let badges ← get' (badgesOf m)
  let emotes := (← get' (m.tag .emotes)).getD []
  return { recipient, sender := ⟨id, login, name⟩, text, badges, emotes, color }

/-! ### USERNOTICE (src/msg/user_notice.rs) -/

/-- `SubGiftPromo` (src/msg/user_notice.rs:429-432). -/
structure SubGiftPromo (σ : Type := Bytes) where
  totalGifts : Nat
  promoName : σ
deriving DecidableEq, Repr

/-- `Event` (src/msg/user_notice.rs:123-173) with the fields of its payload structs (179-432). -/
inductive Event (σ : Type := Bytes) where
  | subOrResub (isResub : Bool) (cumulativeMonths : Nat) (streakMonths : Option Nat)
      (subPlan subPlanName : σ)
  | raid (viewerCount : Nat) (profileImageUrl : σ)
  | subGift (cumulativeMonths : Nat) (recipient : User σ) (subPlan subPlanName : σ)
      (numGiftedMonths : Nat)
  | subMysteryGift (count senderTotalGifts : Nat) (subPlan : σ)
  | anonSubMysteryGift (count : Nat) (subPlan : σ)
  | giftPaidUpgrade (gifterLogin gifterName : σ) (promotion : Option (SubGiftPromo σ))
  | anonGiftPaidUpgrade (promotion : Option (SubGiftPromo σ))
  | ritual (name : σ)
  | bitsBadgeTier (tier : Nat)
  | announcement (highlightColor : σ)
  | unknown
deriving DecidableEq, Repr

/-- `UserNotice` (src/msg/user_notice.rs:16-51). -/
structure UserNotice (σ : Type := Bytes) where
  channel : σ
  channelId : σ
  sender : Option (User σ)
  text : Option σ
  systemMessage : Option σ
  event : Event σ
  eventId : σ
  badges : List (Badge σ)
  emotes : σ
  color : Option σ
  messageId : σ
  timestamp : Timestamp
deriving DecidableEq, Repr

/-- The getter `UserNotice::system_message` (src/msg/user_notice.rs:76). -/
def UserNotice.getSystemMessage (u : UserNotice) : R (Option Bytes) :=
  match u.systemMessage with
  | none => .ok none
  | some s => do return some (← maybeUnescape s)

/-- The getters `sub_plan_name` (src/msg/user_notice.rs:211,269). -/
def Event.getSubPlanName : Event → R (Option Bytes)
  | .subOrResub _ _ _ _ n => do return some (← maybeUnescape n)
  | .subGift _ _ _ n _ => do return some (← maybeUnescape n)
  | _ => .ok none

/-- `parse_promotion` (src/msg/user_notice.rs:444-457). -/
def parsePromotion (m : MsgRef) : R (Option SubGiftPromo) := do
  match (← m.tag .msgParamPromoGiftTotal).bind parseU64, ← m.tag .msgParamPromoName with
  | some totalGifts, some promoName => return some ⟨totalGifts, promoName⟩
  | _, _ => return none

/-- `message.tag(tag).and_then(|v| v.parse().ok())?` for `u64`.  E.g. src/msg/user_notice.rs:475-477. -/
def reqU64 (m : MsgRef) (t : Tag) : OptionT R Nat := do
  let v ← get' (m.tag t)
  some? (v.bind parseU64)

/-- `AN_ANONYMOUS_GIFTER` (src/msg/user_notice.rs:461). -/
def anAnonymousGifter : Option Bytes := some (b!"274598607")

/-- The closure `|n| if n > 0 { Some(n) } else { None }` (src/msg/user_notice.rs:481). -/
def positive (n : Nat) : Option Nat := if n > 0 then some n else none

/-- The `match event_id` of `UserNotice::parse` (src/msg/user_notice.rs:471-579): arms in order. -/
def parseEvent (m : MsgRef) (eventId : Bytes) (senderId : Option Bytes) : OptionT R (Event × Bool) :=
  if eventId = b!"sub" ∨ eventId = b!"resub" then do
    let cumulativeMonths ← reqU64 m .msgParamCumulativeMonths
    let streakMonths := ((← get' (m.tag .msgParamStreakMonths)).bind parseU64).bind positive
    let subPlan ← req (m.tag .msgParamSubPlan)
    let subPlanName ← req (m.tag .msgParamSubPlanName)
    pure (.subOrResub (eventId == b!"resub") cumulativeMonths streakMonths subPlan subPlanName, false)
  else if eventId = b!"raid" then do
    let viewerCount ← reqU64 m .msgParamViewerCount
    let profileImageUrl ← req (m.tag .msgParamProfileImageUrl)
    pure (.raid viewerCount profileImageUrl, false)
  else if eventId = b!"subgift" ∨ eventId = b!"anonsubgift" then do
    let cumulativeMonths ← reqU64 m .msgParamMonths
    let id ← req (m.tag .msgParamRecipientId)
    let login ← req (m.tag .msgParamRecipientUserName)
    let name ← req (m.tag .msgParamRecipientDisplayName)
    let subPlan ← req (m.tag .msgParamSubPlan)
    let subPlanName ← req (m.tag .msgParamSubPlanName)
    let numGiftedMonths ← reqU64 m .msgParamGiftMonths
    pure (.subGift cumulativeMonths ⟨id, login, name⟩ subPlan subPlanName numGiftedMonths,
      eventId == b!"anonsubgift" || senderId == anAnonymousGifter)
  else if eventId = b!"anonsubmysterygift" then do
    let count ← reqU64 m .msgParamMassGiftCount
    let subPlan ← req (m.tag .msgParamSubPlan)
    pure (.anonSubMysteryGift count subPlan, true)
  else if eventId = b!"submysterygift" ∧ senderId = anAnonymousGifter then do
    let count ← reqU64 m .msgParamMassGiftCount
    let subPlan ← req (m.tag .msgParamSubPlan)
    pure (.anonSubMysteryGift count subPlan, true)
  else if eventId = b!"submysterygift" then do
    let count ← reqU64 m .msgParamMassGiftCount
    let senderTotalGifts ← reqU64 m .msgParamSenderCount
    let subPlan ← req (m.tag .msgParamSubPlan)
    pure (.subMysteryGift count senderTotalGifts subPlan, false)
  else if eventId = b!"giftpaidupgrade" then do
    let gifterLogin ← req (m.tag .msgParamSenderLogin)
    let gifterName ← req (m.tag .msgParamSenderName)
    let promotion ← get' (parsePromotion m)
    pure (.giftPaidUpgrade gifterLogin gifterName promotion, false)
  else if eventId = b!"anongiftpaidupgrade" then do
    let promotion ← get' (parsePromotion m)
    pure (.anonGiftPaidUpgrade promotion, true)
  else if eventId = b!"ritual" then do
    let name ← req (m.tag .msgParamRitualName)
    pure (.ritual name, false)
  else if eventId = b!"bitsbadgetier" then do
    let tier ← reqU64 m .msgParamThreshold
    pure (.bitsBadgeTier tier, false)
  else if eventId = b!"announcement" then do
    let highlightColor := (← get' (m.tag .msgParamColor)).getD (b!"PRIMARY")
    pure (.announcement highlightColor, false)
  else pure (.unknown, true)

/-- The sender of a user notice in `UserNotice::parse` (src/msg/user_notice.rs:581-589). -/
def senderOf (m : MsgRef) (isAnon : Bool) : OptionT R (Option User) :=
  if !isAnon then do
    let id ← req (m.tag .userId)
    let login ← req (m.tag .login)
    let name ← req (m.tag .displayName)
    pure (some (User.mk id login name))
  else pure none

/-- `UserNotice::parse` (src/msg/user_notice.rs:464-615). -/
def UserNotice.parse (m : MsgRef) : R (Option UserNotice) := OptionT.run do
  if (← get' m.command) ≠ .userNotice then failure
  let senderId ← get' (m.tag .userId)
  let eventId ← req (m.tag .msgId)
  let (event, isAnon) ← parseEvent m eventId senderId
  let sender ← senderOf m isAnon
  let channel ← req m.channel
  let channelId ← req (m.tag .roomId)
  let text ← get' m.text
  let systemMessage := nonEmpty (← get' (m.tag .systemMsg))
  let badges ← get' (badgesOf m)
  let emotes := (← get' (m.tag .emotes)).getD []
  let color := nonEmpty (← get' (m.tag .color))
  let messageId ← req (m.tag .id)
  let timestamp ← some? ((← get' (m.tag .tmiSentTs)).bind parseTimestamp)
  return { channel, channelId, sender, text, systemMessage, event, eventId, badges, emotes, color,
           messageId, timestamp }

/-! ### Message -/

/-- `Message` (src/msg.rs:39-56). -/
inductive Message where
  | clearChat (v : ClearChat)
  | clearMsg (v : ClearMsg)
  | globalUserState (v : GlobalUserState)
  | join (v : Join)
  | notice (v : Notice)
  | part (v : Part)
  | ping (v : Ping)
  | pong (v : Pong)
  | privmsg (v : Privmsg)
  | reconnect
  | roomState (v : RoomState)
  | userNotice (v : UserNotice)
  | userState (v : UserState)
  | whisper (v : Whisper)
  | other (m : MsgRef)
deriving DecidableEq, Repr

/-- `T::from_irc(message)?.into()`  src/msg.rs:91-104. -/
def into {α : Type} (x : R (Option α)) (f : α → Message) : R (Option Message) := do
  return (← x).map f

/-- `Message::from_irc` (src/msg.rs:87-108). -/
def Message.fromIrc (m : MsgRef) : R (Option Message) := do
  match ← m.command with
  | .clearChat => into (ClearChat.parse m) .clearChat
  | .clearMsg => into (ClearMsg.parse m) .clearMsg
  | .globalUserState => into (GlobalUserState.parse m) .globalUserState
  | .join => into (Join.parse m) .join
  | .notice => into (Notice.parse m) .notice
  | .part => into (Part.parse m) .part
  | .ping => into (Ping.parse m) .ping
  | .pong => into (Pong.parse m) .pong
  | .privmsg => into (Privmsg.parse m) .privmsg
  | .reconnect => return some .reconnect
  | .roomState => into (RoomState.parse m) .roomState
  | .userNotice => into (UserNotice.parse m) .userNotice
  | .userState => into (UserState.parse m) .userState
  | .whisper => into (Whisper.parse m) .whisper
  | _ => return some (.other m)

/-- `Message::parse` (src/msg.rs:62-66). -/
def Message.parse (b : Build) (src : Bytes) : R (Option Message) := do
  match ← MsgRef.parse b src with
  | none => return none
  | some m => Message.fromIrc m

/-- `IrcMessage::as_typed` (src/msg.rs:18-20). -/
def MsgOwned.asTyped (m : MsgOwned) : R (Option Message) := Message.fromIrc m.asRef

/-- `IrcMessageRef::as_typed` (src/msg.rs:25-27). -/
def MsgRef.asTyped (m : MsgRef) : R (Option Message) := Message.fromIrc m

end Tmi.Model
