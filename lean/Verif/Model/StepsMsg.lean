/-
The conversion into typed messages once more, counting its work as `Verif/Model/Steps.lean` does: a step for every byte
that is looked at.
-/
import Verif.Model.Steps

namespace Tmi.Model

namespace Steps

/-- `expr?` for an `Option` expression.  E.g. src/msg/privmsg.rs:348. -/
def req {α : Type} (x : Run (Option α)) : OptionT Run α := OptionT.mk x

/-- An expression whose value is used as it is.  E.g. src/msg/privmsg.rs:349. -/
def get' {α : Type} (x : Run α) : OptionT Run α := OptionT.lift x

/-- What takes no step: slicing, comparing the variant of the command.  E.g. src/msg/privmsg.rs:342. -/
def free {α : Type} (x : R α) : Run α := pay 0 x

/-- Reading a number (e.g. src/msg/privmsg.rs:373), a duration or a time (src/msg.rs:332-339) out of a string: a step for
each byte. -/
def number {α : Type} (read : Bytes → Option α) (v : Option Bytes) : Run (Option α) :=
  pay (v.getD []).length (.ok (v.bind read))

/-- `parse_bool` (src/msg.rs:382-384): a step for each byte. -/
def bool (v : Bytes) : Run Bool := pay v.length (.ok (parseBool v))

/-- `parse_message_text` (src/msg.rs:341-349): at most the nine bytes around an action. -/
def messageText (v : Bytes) : Run (Bytes × Bool) := pay 9 (.ok (parseMessageText v))

/-- `split_comma` (src/msg.rs:351-353), collected: a step for each byte. -/
def comma (v : Option Bytes) : Run (List Bytes) := pay (v.getD []).length (.ok ((v.map splitComma).getD []))

/-- `ClearChat::parse` (src/msg/clear_chat.rs:149-174). -/
def parseClearChat (m : MsgRef) : Run (Option ClearChat) := OptionT.run do
  if (← get' (free m.command)) ≠ .clearChat then failure
  let channel ← req (free m.channel)
  let channelId ← req (tag m .roomId)
  let text ← get' (text m)
  let duration ← get' (number parseDuration (← get' (tag m .banDuration)))
  let action ← match text, duration with
    | some name, some duration => do
      let id ← req (tag m .targetUserId)
      pure (Action.timeOut name id duration)
    | some name, none => do
      let id ← req (tag m .targetUserId)
      pure (Action.ban name id)
    | none, _ => pure Action.clear
  let timestamp ← req (number parseTimestamp (some (← req (tag m .tmiSentTs))))
  return { channel, channelId, action, timestamp }

/-- `ClearMsg::parse` (src/msg/clear_msg.rs:58-73). -/
def parseClearMsg (m : MsgRef) : Run (Option ClearMsg) := OptionT.run do
  if (← get' (free m.command)) ≠ .clearMsg then failure
  let (text, isAction) ← get' (messageText (← req (text m)))
  let channel ← req (free m.channel)
  let channelId ← req (tag m .roomId)
  let sender ← req (tag m .login)
  let targetMessageId ← req (tag m .targetMsgId)
  let timestamp ← req (number parseTimestamp (some (← req (tag m .tmiSentTs))))
  return { channel, channelId, sender, targetMessageId, text, isAction, timestamp }

/-- `GlobalUserState::parse` (src/msg/global_user_state.rs:66-90). -/
def parseGlobalUserState (m : MsgRef) : Run (Option GlobalUserState) := OptionT.run do
  if (← get' (free m.command)) ≠ .globalUserState then failure
  let id ← req (tag m .userId)
  let name ← req (tag m .displayName)
  let badges ← get' (badgesOf m)
  let emoteSets ← get' (comma (← get' (tag m .emoteSets)))
  let color := nonEmpty (← get' (tag m .color))
  return { id, name, badges, emoteSets, color }

/-- `Join::parse` (src/msg/join.rs:29-41). -/
def parseJoin (m : MsgRef) : Run (Option Join) := OptionT.run do
  if (← get' (free m.command)) ≠ .join then failure
  let channel ← req (free m.channel)
  let user ← req (free (nickOf? m))
  return { channel, user }

/-- `Part::parse` (src/msg/part.rs:29-41). -/
def parsePart (m : MsgRef) : Run (Option Part) := OptionT.run do
  if (← get' (free m.command)) ≠ .part then failure
  let channel ← req (free m.channel)
  let user ← req (free (nickOf? m))
  return { channel, user }

/-- `Notice::parse` (src/msg/notice.rs:41-51). -/
def parseNotice (m : MsgRef) : Run (Option Notice) := OptionT.run do
  if (← get' (free m.command)) ≠ .notice then failure
  let channel ← get' (free m.channel)
  let text ← req (text m)
  let id ← get' (tag m .msgId)
  return { channel, text, id }

/-- `Ping::parse` (src/msg/ping.rs:37-45). -/
def parsePing (m : MsgRef) : Run (Option Ping) := OptionT.run do
  if (← get' (free m.command)) ≠ .ping then failure
  let nonce ← get' (text m)
  return { nonce }

/-- `Pong::parse` (src/msg/pong.rs:35-43). -/
def parsePong (m : MsgRef) : Run (Option Pong) := OptionT.run do
  if (← get' (free m.command)) ≠ .pong then failure
  let nonce ← get' (text m)
  return { nonce }

/-- The closure for `reply_to` in `Privmsg::parse` (src/msg/privmsg.rs:359-371). -/
def parseReply (m : MsgRef) : Run (Option Reply) := OptionT.run do
  let messageId ← req (tag m .replyParentMsgId)
  let threadParentMessageId ← req (tag m .replyThreadParentMsgId)
  let threadParentUserLogin ← req (tag m .replyThreadParentUserLogin)
  let id ← req (tag m .replyParentUserId)
  let login ← req (tag m .replyParentUserLogin)
  let name ← req (tag m .replyParentDisplayName)
  let text ← req (tag m .replyParentMsgBody)
  return { threadParentMessageId, threadParentUserLogin, messageId, sender := ⟨id, login, name⟩, text }

/-- The closure for `pinned_chat` in `Privmsg::parse` (src/msg/privmsg.rs:372-385).  The level is compared with ten names,
of thirty-nine bytes (src/msg/privmsg.rs:261-272). -/
def parsePinned (m : MsgRef) : Run (Option PinnedChat) := OptionT.run do
  let amount ← req (tag m .pinnedChatPaidAmount)
  let paidAmount ← req (number parseI64 (some amount))
  let paidCurrency ← req (tag m .pinnedChatPaidCurrency)
  let paidExponent ← req (number parseI64 (some (← req (tag m .pinnedChatPaidExponent))))
  let level ← req (tag m .pinnedChatPaidLevel)
  let paidLevel ← req (pay 49 (.ok (PinnedChatLevel.fromStr level)))
  let isSystemMessage ← get' (bool (← req (tag m .pinnedChatPaidIsSystemMessage)))
  return { paidAmount, paidCurrency, paidExponent, paidLevel, isSystemMessage }

/-- `Privmsg::parse` (src/msg/privmsg.rs:341-421). -/
def parsePrivmsg (m : MsgRef) : Run (Option Privmsg) := OptionT.run do
  if (← get' (free m.command)) ≠ .privmsg then failure
  let (text, isAction) ← get' (messageText (← req (text m)))
  let channel ← req (free m.channel)
  let channelId ← req (tag m .roomId)
  let msgId ← get' (tag m .msgId)
  let id ← req (tag m .id)
  let senderId ← req (tag m .userId)
  let login ← req (free (nickOf? m))
  let name ← req (tag m .displayName)
  let replyTo ← get' (parseReply m)
  let pinnedChat ← get' (parsePinned m)
  let badges ← get' (badgesOf m)
  let color := nonEmpty (← get' (tag m .color))
  let customRewardId := nonEmpty (← get' (tag m .customRewardId))
  let bits ← get' (number parseU64 (← get' (tag m .bits)))
  let emotes := (← get' (tag m .emotes)).getD []
  let timestamp ← req (number parseTimestamp (some (← req (tag m .tmiSentTs))))
  return { channel, channelId, msgId, id, sender := ⟨senderId, login, name⟩, replyTo, pinnedChat,
           text, isAction, badges, color, customRewardId, bits, emotes, timestamp }

/-- `message.tag(..).map(parse_bool)` (e.g. src/msg/room_state.rs:101). -/
def optBool (v : Option Bytes) : Run (Option Bool) := pay (v.getD []).length (.ok (v.map parseBool))

/-- `message.tag(Tag::FollowersOnly).and_then(|v| v.parse().ok()).map(..)` (src/msg/room_state.rs:102-109). -/
def followersOnlyOf (m : MsgRef) : Run (Option FollowersOnly) := do
  match ← number parseI64 (← tag m .followersOnly) with
  | none => return none
  | some n => return some (← free (followersFrom m.checks n))

/-- `RoomState::parse` (src/msg/room_state.rs:93-117). -/
def parseRoomState (m : MsgRef) : Run (Option RoomState) := OptionT.run do
  if (← get' (free m.command)) ≠ .roomState then failure
  let channel ← req (free m.channel)
  let channelId ← req (tag m .roomId)
  let emoteOnly ← get' (optBool (← get' (tag m .emoteOnly)))
  let followersOnly ← get' (followersOnlyOf m)
  let r9k ← get' (optBool (← get' (tag m .r9K)))
  let slow := (← get' (number parseU64 (← get' (tag m .slow)))).map fromSecs
  let subsOnly ← get' (optBool (← get' (tag m .subsOnly)))
  return { channel, channelId, emoteOnly, followersOnly, r9k, slow, subsOnly }

/-- `UserState::parse` (src/msg/user_state.rs:69-93). -/
def parseUserState (m : MsgRef) : Run (Option UserState) := OptionT.run do
  if (← get' (free m.command)) ≠ .userState then failure
  let channel ← req (free m.channel)
  let userName ← req (tag m .displayName)
  let badges ← get' (badgesOf m)
  let emoteSets ← get' (comma (← get' (tag m .emoteSets)))
  let color := nonEmpty (← get' (tag m .color))
  return { channel, userName, badges, emoteSets, color }

/-- `Whisper::parse` (src/msg/whisper.rs:65-91).  Simplification: looking for `" :"` takes two steps for each byte. -/
def parseWhisper (m : MsgRef) : Run (Option Whisper) := OptionT.run do
  if (← get' (free m.command)) ≠ .whisper then failure
  let params ← req (free m.params)
  let (recipient, text) ← req (pay (2 * params.length) (.ok (splitOnce2 SP COLON params)))
  let id ← req (tag m .userId)
  let login ← req (free (nickOf? m))
  let name ← req (tag m .displayName)
  let color := nonEmpty (← get' (tag m .color))
  let badges ← get' (badgesOf m)
  let emotes := (← get' (tag m .emotes)).getD []
  return { recipient, sender := ⟨id, login, name⟩, text, badges, emotes, color }

/-- `parse_promotion` (src/msg/user_notice.rs:444-457). -/
def parsePromotion (m : MsgRef) : Run (Option SubGiftPromo) := do
  match ← number parseU64 (← tag m .msgParamPromoGiftTotal), ← tag m .msgParamPromoName with
  | some totalGifts, some promoName => return some ⟨totalGifts, promoName⟩
  | _, _ => return none

/-- `message.tag(tag).and_then(|v| v.parse().ok())?` for `u64`.  E.g. src/msg/user_notice.rs:475-477. -/
def reqU64 (m : MsgRef) (t : Tag) : OptionT Run Nat := do
  let v ← get' (tag m t)
  req (number parseU64 v)

/-- The `match event_id` of `UserNotice::parse` (src/msg/user_notice.rs:471-579).  Comparing the id of the event with the
names of all events, of 127 bytes, and the id of the user with that of anonymous gifters, of nine bytes, is paid for by
`parseUserNotice`. -/
def parseEvent (m : MsgRef) (eventId : Bytes) (senderId : Option Bytes) : OptionT Run (Event × Bool) :=
  if eventId = b!"sub" ∨ eventId = b!"resub" then do
    let cumulativeMonths ← reqU64 m .msgParamCumulativeMonths
    let streakMonths := (← get' (number parseU64 (← get' (tag m .msgParamStreakMonths)))).bind positive
    let subPlan ← req (tag m .msgParamSubPlan)
    let subPlanName ← req (tag m .msgParamSubPlanName)
    pure (.subOrResub (eventId == b!"resub") cumulativeMonths streakMonths subPlan subPlanName, false)
  else if eventId = b!"raid" then do
    let viewerCount ← reqU64 m .msgParamViewerCount
    let profileImageUrl ← req (tag m .msgParamProfileImageUrl)
    pure (.raid viewerCount profileImageUrl, false)
  else if eventId = b!"subgift" ∨ eventId = b!"anonsubgift" then do
    let cumulativeMonths ← reqU64 m .msgParamMonths
    let id ← req (tag m .msgParamRecipientId)
    let login ← req (tag m .msgParamRecipientUserName)
    let name ← req (tag m .msgParamRecipientDisplayName)
    let subPlan ← req (tag m .msgParamSubPlan)
    let subPlanName ← req (tag m .msgParamSubPlanName)
    let numGiftedMonths ← reqU64 m .msgParamGiftMonths
    pure (.subGift cumulativeMonths ⟨id, login, name⟩ subPlan subPlanName numGiftedMonths,
      eventId == b!"anonsubgift" || senderId == anAnonymousGifter)
  else if eventId = b!"anonsubmysterygift" then do
    let count ← reqU64 m .msgParamMassGiftCount
    let subPlan ← req (tag m .msgParamSubPlan)
    pure (.anonSubMysteryGift count subPlan, true)
  else if eventId = b!"submysterygift" ∧ senderId = anAnonymousGifter then do
    let count ← reqU64 m .msgParamMassGiftCount
    let subPlan ← req (tag m .msgParamSubPlan)
    pure (.anonSubMysteryGift count subPlan, true)
  else if eventId = b!"submysterygift" then do
    let count ← reqU64 m .msgParamMassGiftCount
    let senderTotalGifts ← reqU64 m .msgParamSenderCount
    let subPlan ← req (tag m .msgParamSubPlan)
    pure (.subMysteryGift count senderTotalGifts subPlan, false)
  else if eventId = b!"giftpaidupgrade" then do
    let gifterLogin ← req (tag m .msgParamSenderLogin)
    let gifterName ← req (tag m .msgParamSenderName)
    let promotion ← get' (parsePromotion m)
    pure (.giftPaidUpgrade gifterLogin gifterName promotion, false)
  else if eventId = b!"anongiftpaidupgrade" then do
    let promotion ← get' (parsePromotion m)
    pure (.anonGiftPaidUpgrade promotion, true)
  else if eventId = b!"ritual" then do
    let name ← req (tag m .msgParamRitualName)
    pure (.ritual name, false)
  else if eventId = b!"bitsbadgetier" then do
    let tier ← reqU64 m .msgParamThreshold
    pure (.bitsBadgeTier tier, false)
  else if eventId = b!"announcement" then do
    let highlightColor := (← get' (tag m .msgParamColor)).getD (b!"PRIMARY")
    pure (.announcement highlightColor, false)
  else pure (.unknown, true)

/-- The sender of a user notice in `UserNotice::parse` (src/msg/user_notice.rs:581-589). -/
def senderOf (m : MsgRef) (isAnon : Bool) : OptionT Run (Option User) :=
  if !isAnon then do
    let id ← req (tag m .userId)
    let login ← req (tag m .login)
    let name ← req (tag m .displayName)
    pure (some (User.mk id login name))
  else pure none

/-- `UserNotice::parse` (src/msg/user_notice.rs:464-615). -/
def parseUserNotice (m : MsgRef) : Run (Option UserNotice) := OptionT.run do
  if (← get' (free m.command)) ≠ .userNotice then failure
  let senderId ← get' (tag m .userId)
  let eventId ← req (tag m .msgId)
  get' (pay 160 (.ok ()))
  let (event, isAnon) ← parseEvent m eventId senderId
  let sender ← senderOf m isAnon
  let channel ← req (free m.channel)
  let channelId ← req (tag m .roomId)
  let text ← get' (text m)
  let systemMessage := nonEmpty (← get' (tag m .systemMsg))
  let badges ← get' (badgesOf m)
  let emotes := (← get' (tag m .emotes)).getD []
  let color := nonEmpty (← get' (tag m .color))
  let messageId ← req (tag m .id)
  let timestamp ← req (number parseTimestamp (← get' (tag m .tmiSentTs)))
  return { channel, channelId, sender, text, systemMessage, event, eventId, badges, emotes, color,
           messageId, timestamp }

/-- `T::from_irc(message)?.into()` (src/msg.rs:91-104). -/
def into {α : Type} (x : Run (Option α)) (f : α → Message) : Run (Option Message) := do
  return (← x).map f

/-- `Message::from_irc` (src/msg.rs:87-108). -/
def fromIrc (m : MsgRef) : Run (Option Message) := do
  match ← free m.command with
  | .clearChat => into (parseClearChat m) .clearChat
  | .clearMsg => into (parseClearMsg m) .clearMsg
  | .globalUserState => into (parseGlobalUserState m) .globalUserState
  | .join => into (parseJoin m) .join
  | .notice => into (parseNotice m) .notice
  | .part => into (parsePart m) .part
  | .ping => into (parsePing m) .ping
  | .pong => into (parsePong m) .pong
  | .privmsg => into (parsePrivmsg m) .privmsg
  | .reconnect => return some .reconnect
  | .roomState => into (parseRoomState m) .roomState
  | .userNotice => into (parseUserNotice m) .userNotice
  | .userState => into (parseUserState m) .userState
  | .whisper => into (parseWhisper m) .whisper
  | _ => return some (.other m)

/-- `Message::parse` (src/msg.rs:62-66). -/
def parseMessage (b : Build) (src : Bytes) : Run (Option Message) := do
  match ← parse b src with
  | none => return none
  | some m => fromIrc m

end Steps

end Tmi.Model
