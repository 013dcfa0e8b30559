/-
Model of the `into_owned` methods of src/msg.rs and src/msg/*.rs.

A message whose texts are `Cow<'src, str>` is modelled by the message type at `Text` (Spec/Owned.lean);
`buf` is the buffer of lifetime `'src`, which is still alive when `into_owned` runs.
-/
import Verif.Spec.Owned

namespace Tmi.Model
open Spec (Text)

variable (buf : Bytes)

/-- `maybe_clone` (src/msg.rs:386-391): `Cow::Borrowed(v) => Cow::Owned(v.to_owned())`,
`Cow::Owned(v) => Cow::Owned(v)`. -/
def maybeClone : Text → Text
  | .borrowed start len => .owned ((buf.drop start).take len)
  | .static s => .owned s
  | .owned s => .owned s

/-- `Subscriber::into_owned` (src/msg.rs:241-247). -/
def Subscriber.intoOwned (v : Subscriber Text) : Subscriber Text := {
  version := maybeClone buf v.version
  months := maybeClone buf v.months
  monthsN := v.monthsN }

/-- `BadgeData::into_owned` (src/msg.rs:281-287). -/
def BadgeData.intoOwned (v : BadgeData Text) : BadgeData Text := {
  name := maybeClone buf v.name
  version := maybeClone buf v.version
  extra := v.extra.map (maybeClone buf) }

/-- `Badge::into_owned` (src/msg.rs:145-154). -/
def Badge.intoOwned : Badge Text → Badge Text
  | .staff => .staff
  | .turbo => .turbo
  | .broadcaster => .broadcaster
  | .moderator => .moderator
  | .subscriber v => .subscriber (v.intoOwned buf)
  | .other v => .other (v.intoOwned buf)

/-- `User::into_owned` (src/msg.rs:319-325). -/
def User.intoOwned (v : User Text) : User Text := {
  id := maybeClone buf v.id
  login := maybeClone buf v.login
  name := maybeClone buf v.name }

/-- `Action::into_owned` (src/msg/clear_chat.rs:189-202). -/
def Action.intoOwned : Action Text → Action Text
  | .clear => .clear
  | .ban user id => .ban (maybeClone buf user) (maybeClone buf id)
  | .timeOut user id duration => .timeOut (maybeClone buf user) (maybeClone buf id) duration

/-- `ClearChat::into_owned` (src/msg/clear_chat.rs:177-184). -/
def ClearChat.intoOwned (v : ClearChat Text) : ClearChat Text := {
  channel := maybeClone buf v.channel
  channelId := maybeClone buf v.channelId
  action := v.action.intoOwned buf
  timestamp := v.timestamp }

/-- `ClearMsg::into_owned` (src/msg/clear_msg.rs:76-86). -/
def ClearMsg.intoOwned (v : ClearMsg Text) : ClearMsg Text := {
  channel := maybeClone buf v.channel
  channelId := maybeClone buf v.channelId
  sender := maybeClone buf v.sender
  targetMessageId := maybeClone buf v.targetMessageId
  text := maybeClone buf v.text
  isAction := v.isAction
  timestamp := v.timestamp }

/-- `GlobalUserState::into_owned` (src/msg/global_user_state.rs:93-101). -/
def GlobalUserState.intoOwned (v : GlobalUserState Text) : GlobalUserState Text := {
  id := maybeClone buf v.id
  name := maybeClone buf v.name
  badges := v.badges.map (Badge.intoOwned buf)
  emoteSets := v.emoteSets.map (maybeClone buf)
  color := v.color.map (maybeClone buf) }

/-- `Join::into_owned` (src/msg/join.rs:44-49). -/
def Join.intoOwned (v : Join Text) : Join Text := {
  channel := maybeClone buf v.channel
  user := maybeClone buf v.user }

/-- `Part::into_owned` (src/msg/part.rs:44-49). -/
def Part.intoOwned (v : Part Text) : Part Text := {
  channel := maybeClone buf v.channel
  user := maybeClone buf v.user }

/-- `Notice::into_owned` (src/msg/notice.rs:54-60). -/
def Notice.intoOwned (v : Notice Text) : Notice Text := {
  channel := v.channel.map (maybeClone buf)
  text := maybeClone buf v.text
  id := v.id.map (maybeClone buf) }

/-- `Ping::into_owned` (src/msg/ping.rs:48-52). -/
def Ping.intoOwned (v : Ping Text) : Ping Text := { nonce := v.nonce.map (maybeClone buf) }

/-- `Pong::into_owned` (src/msg/pong.rs:46-50). -/
def Pong.intoOwned (v : Pong Text) : Pong Text := { nonce := v.nonce.map (maybeClone buf) }

/-- `Reply::into_owned` (src/msg/privmsg.rs:447-455). -/
def Reply.intoOwned (v : Reply Text) : Reply Text := {
  threadParentMessageId := maybeClone buf v.threadParentMessageId
  threadParentUserLogin := maybeClone buf v.threadParentUserLogin
  messageId := maybeClone buf v.messageId
  sender := v.sender.intoOwned buf
  text := maybeClone buf v.text }

/-- `PinnedChat::into_owned` (src/msg/privmsg.rs:460-468). -/
def PinnedChat.intoOwned (v : PinnedChat Text) : PinnedChat Text := {
  paidAmount := v.paidAmount
  paidCurrency := maybeClone buf v.paidCurrency
  paidExponent := v.paidExponent
  paidLevel := v.paidLevel
  isSystemMessage := v.isSystemMessage }

/-- `Privmsg::into_owned` (src/msg/privmsg.rs:424-442). -/
def Privmsg.intoOwned (v : Privmsg Text) : Privmsg Text := {
  channel := maybeClone buf v.channel
  channelId := maybeClone buf v.channelId
  msgId := v.msgId.map (maybeClone buf)
  id := maybeClone buf v.id
  sender := v.sender.intoOwned buf
  replyTo := v.replyTo.map (Reply.intoOwned buf)
  pinnedChat := v.pinnedChat.map (PinnedChat.intoOwned buf)
  text := maybeClone buf v.text
  isAction := v.isAction
  badges := v.badges.map (Badge.intoOwned buf)
  color := v.color.map (maybeClone buf)
  customRewardId := v.customRewardId.map (maybeClone buf)
  bits := v.bits
  emotes := maybeClone buf v.emotes
  timestamp := v.timestamp }

/-- `RoomState::into_owned` (src/msg/room_state.rs:120-130). -/
def RoomState.intoOwned (v : RoomState Text) : RoomState Text := {
  channel := maybeClone buf v.channel
  channelId := maybeClone buf v.channelId
  emoteOnly := v.emoteOnly
  followersOnly := v.followersOnly
  r9k := v.r9k
  slow := v.slow
  subsOnly := v.subsOnly }

/-- `UserState::into_owned` (src/msg/user_state.rs:96-104). -/
def UserState.intoOwned (v : UserState Text) : UserState Text := {
  channel := maybeClone buf v.channel
  userName := maybeClone buf v.userName
  badges := v.badges.map (Badge.intoOwned buf)
  emoteSets := v.emoteSets.map (maybeClone buf)
  color := v.color.map (maybeClone buf) }

/-- `Whisper::into_owned` (src/msg/whisper.rs:94-103). -/
def Whisper.intoOwned (v : Whisper Text) : Whisper Text := {
  recipient := maybeClone buf v.recipient
  sender := v.sender.intoOwned buf
  text := maybeClone buf v.text
  badges := v.badges.map (Badge.intoOwned buf)
  emotes := maybeClone buf v.emotes
  color := v.color.map (maybeClone buf) }

/-- `SubGiftPromo::into_owned` (src/msg/user_notice.rs:689-694). -/
def SubGiftPromo.intoOwned (v : SubGiftPromo Text) : SubGiftPromo Text := {
  totalGifts := v.totalGifts
  promoName := maybeClone buf v.promoName }

/-- `Event::into_owned` (src/msg/user_notice.rs:638-684). -/
def Event.intoOwned : Event Text → Event Text
  | .subOrResub isResub cumulativeMonths streakMonths subPlan subPlanName =>
    .subOrResub isResub cumulativeMonths streakMonths (maybeClone buf subPlan)
      (maybeClone buf subPlanName)
  | .raid viewerCount profileImageUrl => .raid viewerCount (maybeClone buf profileImageUrl)
  | .subGift cumulativeMonths recipient subPlan subPlanName numGiftedMonths =>
    .subGift cumulativeMonths (recipient.intoOwned buf) (maybeClone buf subPlan)
      (maybeClone buf subPlanName) numGiftedMonths
  | .subMysteryGift count senderTotalGifts subPlan =>
    .subMysteryGift count senderTotalGifts (maybeClone buf subPlan)
  | .anonSubMysteryGift count subPlan => .anonSubMysteryGift count (maybeClone buf subPlan)
  | .giftPaidUpgrade gifterLogin gifterName promotion =>
    .giftPaidUpgrade (maybeClone buf gifterLogin) (maybeClone buf gifterName)
      (promotion.map (SubGiftPromo.intoOwned buf))
  | .anonGiftPaidUpgrade promotion =>
    .anonGiftPaidUpgrade (promotion.map (SubGiftPromo.intoOwned buf))
  | .ritual name => .ritual (maybeClone buf name)
  | .bitsBadgeTier tier => .bitsBadgeTier tier
  | .announcement highlightColor => .announcement (maybeClone buf highlightColor)
  | .unknown => .unknown

/-- `UserNotice::into_owned` (src/msg/user_notice.rs:618-633). -/
def UserNotice.intoOwned (v : UserNotice Text) : UserNotice Text := {
  channel := maybeClone buf v.channel
  channelId := maybeClone buf v.channelId
  sender := v.sender.map (User.intoOwned buf)
  text := v.text.map (maybeClone buf)
  systemMessage := v.systemMessage.map (maybeClone buf)
  event := v.event.intoOwned buf
  eventId := maybeClone buf v.eventId
  badges := v.badges.map (Badge.intoOwned buf)
  emotes := maybeClone buf v.emotes
  color := v.color.map (maybeClone buf)
  messageId := maybeClone buf v.messageId
  timestamp := v.timestamp }

end Tmi.Model
