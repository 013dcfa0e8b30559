/-
Specification of copies: what a message says, when its texts may be views into a buffer.
-/
import Verif.Model.Msg

namespace Tmi.Spec
open Model

/-- A text held by a message: `Cow<'src, str>`.  A borrowed text is a range of the buffer the message
was parsed from, or a string constant; an owned one carries its own bytes. -/
inductive Text where
  | borrowed (start len : Nat)
  | static (s : Bytes)
  | owned (s : Bytes)
deriving DecidableEq, Repr

/-- What a text reads as while the buffer holds `buf`. -/
def Text.read (buf : Bytes) : Text → Bytes
  | .borrowed start len => (buf.drop start).take len
  | .static s => s
  | .owned s => s

/-! The message a user sees while the buffer holds `buf`: the same message with every text replaced by
the bytes it reads as, and everything else unchanged. -/

variable (buf : Bytes)

def seeSubscriber (v : Subscriber Text) : Subscriber :=
  ⟨v.version.read buf, v.months.read buf, v.monthsN⟩

def seeBadgeData (v : BadgeData Text) : BadgeData :=
  ⟨v.name.read buf, v.version.read buf, v.extra.map (·.read buf)⟩

def seeBadge : Badge Text → Badge
  | .staff => .staff
  | .turbo => .turbo
  | .broadcaster => .broadcaster
  | .moderator => .moderator
  | .subscriber v => .subscriber (seeSubscriber buf v)
  | .other v => .other (seeBadgeData buf v)

def seeUser (v : User Text) : User := ⟨v.id.read buf, v.login.read buf, v.name.read buf⟩

def seeAction : Action Text → Action
  | .clear => .clear
  | .ban user id => .ban (user.read buf) (id.read buf)
  | .timeOut user id duration => .timeOut (user.read buf) (id.read buf) duration

def seeClearChat (v : ClearChat Text) : ClearChat :=
  ⟨v.channel.read buf, v.channelId.read buf, seeAction buf v.action, v.timestamp⟩

def seeClearMsg (v : ClearMsg Text) : ClearMsg :=
  ⟨v.channel.read buf, v.channelId.read buf, v.sender.read buf, v.targetMessageId.read buf,
   v.text.read buf, v.isAction, v.timestamp⟩

def seeGlobalUserState (v : GlobalUserState Text) : GlobalUserState :=
  ⟨v.id.read buf, v.name.read buf, v.badges.map (seeBadge buf), v.emoteSets.map (·.read buf),
   v.color.map (·.read buf)⟩

def seeJoin (v : Join Text) : Join := ⟨v.channel.read buf, v.user.read buf⟩

def seePart (v : Part Text) : Part := ⟨v.channel.read buf, v.user.read buf⟩

def seeNotice (v : Notice Text) : Notice :=
  ⟨v.channel.map (·.read buf), v.text.read buf, v.id.map (·.read buf)⟩

def seePing (v : Ping Text) : Ping := ⟨v.nonce.map (·.read buf)⟩

def seePong (v : Pong Text) : Pong := ⟨v.nonce.map (·.read buf)⟩

def seeReply (v : Reply Text) : Reply :=
  ⟨v.threadParentMessageId.read buf, v.threadParentUserLogin.read buf, v.messageId.read buf,
   seeUser buf v.sender, v.text.read buf⟩

def seePinnedChat (v : PinnedChat Text) : PinnedChat :=
  ⟨v.paidAmount, v.paidCurrency.read buf, v.paidExponent, v.paidLevel, v.isSystemMessage⟩

def seePrivmsg (v : Privmsg Text) : Privmsg :=
  ⟨v.channel.read buf, v.channelId.read buf, v.msgId.map (·.read buf), v.id.read buf,
   seeUser buf v.sender, v.replyTo.map (seeReply buf), v.pinnedChat.map (seePinnedChat buf),
   v.text.read buf, v.isAction, v.badges.map (seeBadge buf), v.color.map (·.read buf),
   v.customRewardId.map (·.read buf), v.bits, v.emotes.read buf, v.timestamp⟩

def seeRoomState (v : RoomState Text) : RoomState :=
  ⟨v.channel.read buf, v.channelId.read buf, v.emoteOnly, v.followersOnly, v.r9k, v.slow, v.subsOnly⟩

def seeUserState (v : UserState Text) : UserState :=
  ⟨v.channel.read buf, v.userName.read buf, v.badges.map (seeBadge buf),
   v.emoteSets.map (·.read buf), v.color.map (·.read buf)⟩

def seeWhisper (v : Whisper Text) : Whisper :=
  ⟨v.recipient.read buf, seeUser buf v.sender, v.text.read buf, v.badges.map (seeBadge buf),
   v.emotes.read buf, v.color.map (·.read buf)⟩

def seeSubGiftPromo (v : SubGiftPromo Text) : SubGiftPromo := ⟨v.totalGifts, v.promoName.read buf⟩

def seeEvent : Event Text → Event
  | .subOrResub isResub cumulative streak plan planName =>
    .subOrResub isResub cumulative streak (plan.read buf) (planName.read buf)
  | .raid viewers url => .raid viewers (url.read buf)
  | .subGift cumulative recipient plan planName gifted =>
    .subGift cumulative (seeUser buf recipient) (plan.read buf) (planName.read buf) gifted
  | .subMysteryGift count total plan => .subMysteryGift count total (plan.read buf)
  | .anonSubMysteryGift count plan => .anonSubMysteryGift count (plan.read buf)
  | .giftPaidUpgrade login name promotion =>
    .giftPaidUpgrade (login.read buf) (name.read buf) (promotion.map (seeSubGiftPromo buf))
  | .anonGiftPaidUpgrade promotion => .anonGiftPaidUpgrade (promotion.map (seeSubGiftPromo buf))
  | .ritual name => .ritual (name.read buf)
  | .bitsBadgeTier tier => .bitsBadgeTier tier
  | .announcement color => .announcement (color.read buf)
  | .unknown => .unknown

def seeUserNotice (v : UserNotice Text) : UserNotice :=
  ⟨v.channel.read buf, v.channelId.read buf, v.sender.map (seeUser buf), v.text.map (·.read buf),
   v.systemMessage.map (·.read buf), seeEvent buf v.event, v.eventId.read buf,
   v.badges.map (seeBadge buf), v.emotes.read buf, v.color.map (·.read buf), v.messageId.read buf,
   v.timestamp⟩

end Tmi.Spec
