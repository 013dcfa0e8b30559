/-
Specification of the tag names (C10): the name of a tag is its variant's name in kebab case.
-/
import Verif.Model.Tag

namespace Tmi.Spec
open Tmi.Model (Tag)

/-- The name of a variant of `Tag` in the source. -/
def variantName : Tag → Bytes
  | .msgId => b!"MsgId"
  | .badges => b!"Badges"
  | .badgeInfo => b!"BadgeInfo"
  | .displayName => b!"DisplayName"
  | .emoteOnly => b!"EmoteOnly"
  | .emotes => b!"Emotes"
  | .flags => b!"Flags"
  | .id => b!"Id"
  | .mod => b!"Mod"
  | .roomId => b!"RoomId"
  | .subscriber => b!"Subscriber"
  | .tmiSentTs => b!"TmiSentTs"
  | .turbo => b!"Turbo"
  | .userId => b!"UserId"
  | .userType => b!"UserType"
  | .clientNonce => b!"ClientNonce"
  | .firstMsg => b!"FirstMsg"
  | .replyParentDisplayName => b!"ReplyParentDisplayName"
  | .replyParentMsgBody => b!"ReplyParentMsgBody"
  | .replyParentMsgId => b!"ReplyParentMsgId"
  | .replyParentUserId => b!"ReplyParentUserId"
  | .replyParentUserLogin => b!"ReplyParentUserLogin"
  | .replyThreadParentMsgId => b!"ReplyThreadParentMsgId"
  | .replyThreadParentUserLogin => b!"ReplyThreadParentUserLogin"
  | .followersOnly => b!"FollowersOnly"
  | .r9K => b!"R9K"
  | .rituals => b!"Rituals"
  | .slow => b!"Slow"
  | .subsOnly => b!"SubsOnly"
  | .msgParamCumulativeMonths => b!"MsgParamCumulativeMonths"
  | .msgParamDisplayName => b!"MsgParamDisplayName"
  | .msgParamLogin => b!"MsgParamLogin"
  | .msgParamMonths => b!"MsgParamMonths"
  | .msgParamPromoGiftTotal => b!"MsgParamPromoGiftTotal"
  | .msgParamPromoName => b!"MsgParamPromoName"
  | .msgParamRecipientDisplayName => b!"MsgParamRecipientDisplayName"
  | .msgParamRecipientId => b!"MsgParamRecipientId"
  | .msgParamRecipientUserName => b!"MsgParamRecipientUserName"
  | .msgParamSenderLogin => b!"MsgParamSenderLogin"
  | .msgParamSenderName => b!"MsgParamSenderName"
  | .msgParamShouldShareStreak => b!"MsgParamShouldShareStreak"
  | .msgParamStreakMonths => b!"MsgParamStreakMonths"
  | .msgParamSubPlan => b!"MsgParamSubPlan"
  | .msgParamSubPlanName => b!"MsgParamSubPlanName"
  | .msgParamViewerCount => b!"MsgParamViewerCount"
  | .msgParamRitualName => b!"MsgParamRitualName"
  | .msgParamThreshold => b!"MsgParamThreshold"
  | .msgParamGiftMonths => b!"MsgParamGiftMonths"
  | .msgParamColor => b!"MsgParamColor"
  | .login => b!"Login"
  | .bits => b!"Bits"
  | .systemMsg => b!"SystemMsg"
  | .emoteSets => b!"EmoteSets"
  | .threadId => b!"ThreadId"
  | .messageId => b!"MessageId"
  | .returningChatter => b!"ReturningChatter"
  | .color => b!"Color"
  | .vip => b!"Vip"
  | .targetUserId => b!"TargetUserId"
  | .targetMsgId => b!"TargetMsgId"
  | .banDuration => b!"BanDuration"
  | .msgParamMultimonthDuration => b!"MsgParamMultimonthDuration"
  | .msgParamWasGifted => b!"MsgParamWasGifted"
  | .msgParamMultimonthTenure => b!"MsgParamMultimonthTenure"
  | .sentTs => b!"SentTs"
  | .msgParamOriginId => b!"MsgParamOriginId"
  | .msgParamFunString => b!"MsgParamFunString"
  | .msgParamSenderCount => b!"MsgParamSenderCount"
  | .msgParamProfileImageUrl => b!"MsgParamProfileImageUrl"
  | .msgParamMassGiftCount => b!"MsgParamMassGiftCount"
  | .msgParamGiftMonthBeingRedeemed => b!"MsgParamGiftMonthBeingRedeemed"
  | .msgParamAnonGift => b!"MsgParamAnonGift"
  | .customRewardId => b!"CustomRewardId"
  | .pinnedChatPaidAmount => b!"PinnedChatPaidAmount"
  | .pinnedChatPaidCanonicalAmount => b!"PinnedChatPaidCanonicalAmount"
  | .pinnedChatPaidCurrency => b!"PinnedChatPaidCurrency"
  | .pinnedChatPaidExponent => b!"PinnedChatPaidExponent"
  | .pinnedChatPaidLevel => b!"PinnedChatPaidLevel"
  | .pinnedChatPaidIsSystemMessage => b!"PinnedChatPaidIsSystemMessage"
  | .unknown _ => b!"Unknown"

def isUpper (c : UInt8) : Bool := 0x41 ≤ c && c ≤ 0x5A
def toLower (c : UInt8) : UInt8 := if isUpper c then c + 32 else c

/-- Kebab case: a hyphen before every capital but the first, then lower case. -/
def kebab : Bytes → Bytes
  | [] => []
  | c :: r => toLower c :: r.flatMap fun c => if isUpper c then [0x2D, toLower c] else [c]

/-- The name of a tag in the protocol.  Twitch spells four of them differently. -/
def tagName : Tag → Bytes
  | .r9K => b!"r9k"
  | .msgParamDisplayName => b!"msg-param-displayName"
  | .msgParamViewerCount => b!"msg-param-viewerCount"
  | .msgParamProfileImageUrl => b!"msg-param-profileImageURL"
  | t => kebab (variantName t)

/-- A tag with a variant of its own. -/
def Known (t : Tag) : Prop := ∀ n, t ≠ .unknown n

end Tmi.Spec
