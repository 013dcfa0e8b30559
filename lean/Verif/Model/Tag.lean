/-
Model of the `Tag` enum: src/irc/tags.rs:6-72 (macro) and src/irc/tags.rs:80-194 (table).
-/
import Verif.Base

namespace Tmi.Model

/-- `Tag` (src/irc/tags.rs:11-20, variants from the table at src/irc/tags.rs:80-194). -/
inductive Tag where
  | msgId
  | badges
  | badgeInfo
  | displayName
  | emoteOnly
  | emotes
  | flags
  | id
  | mod
  | roomId
  | subscriber
  | tmiSentTs
  | turbo
  | userId
  | userType
  | clientNonce
  | firstMsg
  | replyParentDisplayName
  | replyParentMsgBody
  | replyParentMsgId
  | replyParentUserId
  | replyParentUserLogin
  | replyThreadParentMsgId
  | replyThreadParentUserLogin
  | followersOnly
  | r9K
  | rituals
  | slow
  | subsOnly
  | msgParamCumulativeMonths
  | msgParamDisplayName
  | msgParamLogin
  | msgParamMonths
  | msgParamPromoGiftTotal
  | msgParamPromoName
  | msgParamRecipientDisplayName
  | msgParamRecipientId
  | msgParamRecipientUserName
  | msgParamSenderLogin
  | msgParamSenderName
  | msgParamShouldShareStreak
  | msgParamStreakMonths
  | msgParamSubPlan
  | msgParamSubPlanName
  | msgParamViewerCount
  | msgParamRitualName
  | msgParamThreshold
  | msgParamGiftMonths
  | msgParamColor
  | login
  | bits
  | systemMsg
  | emoteSets
  | threadId
  | messageId
  | returningChatter
  | color
  | vip
  | targetUserId
  | targetMsgId
  | banDuration
  | msgParamMultimonthDuration
  | msgParamWasGifted
  | msgParamMultimonthTenure
  | sentTs
  | msgParamOriginId
  | msgParamFunString
  | msgParamSenderCount
  | msgParamProfileImageUrl
  | msgParamMassGiftCount
  | msgParamGiftMonthBeingRedeemed
  | msgParamAnonGift
  | customRewardId
  | pinnedChatPaidAmount
  | pinnedChatPaidCanonicalAmount
  | pinnedChatPaidCurrency
  | pinnedChatPaidExponent
  | pinnedChatPaidLevel
  | pinnedChatPaidIsSystemMessage
  | unknown (key : Bytes)
deriving DecidableEq, Repr

/-- `Tag::as_str` (src/irc/tags.rs:25-30): the second column of the table. -/
def Tag.asStr : Tag → Bytes
  | .msgId => b!"msg-id" -- tags.rs:82
  | .badges => b!"badges" -- tags.rs:83
  | .badgeInfo => b!"badge-info" -- tags.rs:84
  | .displayName => b!"display-name" -- tags.rs:85
  | .emoteOnly => b!"emote-only" -- tags.rs:86
  | .emotes => b!"emotes" -- tags.rs:87
  | .flags => b!"flags" -- tags.rs:88
  | .id => b!"id" -- tags.rs:89
  | .mod => b!"mod" -- tags.rs:90
  | .roomId => b!"room-id" -- tags.rs:91
  | .subscriber => b!"subscriber" -- tags.rs:92
  | .tmiSentTs => b!"tmi-sent-ts" -- tags.rs:93
  | .turbo => b!"turbo" -- tags.rs:94
  | .userId => b!"user-id" -- tags.rs:95
  | .userType => b!"user-type" -- tags.rs:96
  | .clientNonce => b!"client-nonce" -- tags.rs:97
  | .firstMsg => b!"first-msg" -- tags.rs:98
  | .replyParentDisplayName => b!"reply-parent-display-name" -- tags.rs:100
  | .replyParentMsgBody => b!"reply-parent-msg-body" -- tags.rs:102
  | .replyParentMsgId => b!"reply-parent-msg-id" -- tags.rs:108
  | .replyParentUserId => b!"reply-parent-user-id" -- tags.rs:110
  | .replyParentUserLogin => b!"reply-parent-user-login" -- tags.rs:112
  | .replyThreadParentMsgId => b!"reply-thread-parent-msg-id" -- tags.rs:117
  | .replyThreadParentUserLogin => b!"reply-thread-parent-user-login" -- tags.rs:120
  | .followersOnly => b!"followers-only" -- tags.rs:122
  | .r9K => b!"r9k" -- tags.rs:123
  | .rituals => b!"rituals" -- tags.rs:124
  | .slow => b!"slow" -- tags.rs:125
  | .subsOnly => b!"subs-only" -- tags.rs:126
  | .msgParamCumulativeMonths => b!"msg-param-cumulative-months" -- tags.rs:127
  | .msgParamDisplayName => b!"msg-param-displayName" -- tags.rs:128
  | .msgParamLogin => b!"msg-param-login" -- tags.rs:129
  | .msgParamMonths => b!"msg-param-months" -- tags.rs:130
  | .msgParamPromoGiftTotal => b!"msg-param-promo-gift-total" -- tags.rs:131
  | .msgParamPromoName => b!"msg-param-promo-name" -- tags.rs:132
  | .msgParamRecipientDisplayName => b!"msg-param-recipient-display-name" -- tags.rs:133
  | .msgParamRecipientId => b!"msg-param-recipient-id" -- tags.rs:134
  | .msgParamRecipientUserName => b!"msg-param-recipient-user-name" -- tags.rs:135
  | .msgParamSenderLogin => b!"msg-param-sender-login" -- tags.rs:136
  | .msgParamSenderName => b!"msg-param-sender-name" -- tags.rs:137
  | .msgParamShouldShareStreak => b!"msg-param-should-share-streak" -- tags.rs:138
  | .msgParamStreakMonths => b!"msg-param-streak-months" -- tags.rs:139
  | .msgParamSubPlan => b!"msg-param-sub-plan" -- tags.rs:140
  | .msgParamSubPlanName => b!"msg-param-sub-plan-name" -- tags.rs:141
  | .msgParamViewerCount => b!"msg-param-viewerCount" -- tags.rs:142
  | .msgParamRitualName => b!"msg-param-ritual-name" -- tags.rs:143
  | .msgParamThreshold => b!"msg-param-threshold" -- tags.rs:144
  | .msgParamGiftMonths => b!"msg-param-gift-months" -- tags.rs:145
  | .msgParamColor => b!"msg-param-color" -- tags.rs:146
  | .login => b!"login" -- tags.rs:147
  | .bits => b!"bits" -- tags.rs:148
  | .systemMsg => b!"system-msg" -- tags.rs:149
  | .emoteSets => b!"emote-sets" -- tags.rs:150
  | .threadId => b!"thread-id" -- tags.rs:151
  | .messageId => b!"message-id" -- tags.rs:152
  | .returningChatter => b!"returning-chatter" -- tags.rs:153
  | .color => b!"color" -- tags.rs:154
  | .vip => b!"vip" -- tags.rs:155
  | .targetUserId => b!"target-user-id" -- tags.rs:156
  | .targetMsgId => b!"target-msg-id" -- tags.rs:157
  | .banDuration => b!"ban-duration" -- tags.rs:158
  | .msgParamMultimonthDuration => b!"msg-param-multimonth-duration" -- tags.rs:159
  | .msgParamWasGifted => b!"msg-param-was-gifted" -- tags.rs:160
  | .msgParamMultimonthTenure => b!"msg-param-multimonth-tenure" -- tags.rs:161
  | .sentTs => b!"sent-ts" -- tags.rs:162
  | .msgParamOriginId => b!"msg-param-origin-id" -- tags.rs:163
  | .msgParamFunString => b!"msg-param-fun-string" -- tags.rs:164
  | .msgParamSenderCount => b!"msg-param-sender-count" -- tags.rs:165
  | .msgParamProfileImageUrl => b!"msg-param-profileImageURL" -- tags.rs:166
  | .msgParamMassGiftCount => b!"msg-param-mass-gift-count" -- tags.rs:167
  | .msgParamGiftMonthBeingRedeemed => b!"msg-param-gift-month-being-redeemed" -- tags.rs:168
  | .msgParamAnonGift => b!"msg-param-anon-gift" -- tags.rs:169
  | .customRewardId => b!"custom-reward-id" -- tags.rs:170
  | .pinnedChatPaidAmount => b!"pinned-chat-paid-amount" -- tags.rs:173
  | .pinnedChatPaidCanonicalAmount => b!"pinned-chat-paid-amount" -- tags.rs:176
  | .pinnedChatPaidCurrency => b!"pinned-chat-paid-currency" -- tags.rs:179
  | .pinnedChatPaidExponent => b!"pinned-chat-paid-exponent" -- tags.rs:182
  | .pinnedChatPaidLevel => b!"pinned-chat-paid-level" -- tags.rs:187
  | .pinnedChatPaidIsSystemMessage => b!"pinned-chat-paid-is-system-message" -- tags.rs:193
  | .unknown key => key

/-- `Display for Tag` (src/irc/tags.rs:196-200). -/
def Tag.display (t : Tag) : Bytes := t.asStr

/-- The first and third column of the table, in order (src/irc/tags.rs:80-194). -/
def tagTable : List (Bytes × Tag) := [
  (b!"msg-id", .msgId),
  (b!"badges", .badges),
  (b!"badge-info", .badgeInfo),
  (b!"display-name", .displayName),
  (b!"emote-only", .emoteOnly),
  (b!"emotes", .emotes),
  (b!"flags", .flags),
  (b!"id", .id),
  (b!"mod", .mod),
  (b!"room-id", .roomId),
  (b!"subscriber", .subscriber),
  (b!"tmi-sent-ts", .tmiSentTs),
  (b!"turbo", .turbo),
  (b!"user-id", .userId),
  (b!"user-type", .userType),
  (b!"client-nonce", .clientNonce),
  (b!"first-msg", .firstMsg),
  (b!"reply-parent-display-name", .replyParentDisplayName),
  (b!"reply-parent-msg-body", .replyParentMsgBody),
  (b!"reply-parent-msg-id", .replyParentMsgId),
  (b!"reply-parent-user-id", .replyParentUserId),
  (b!"reply-parent-user-login", .replyParentUserLogin),
  (b!"reply-thread-parent-msg-id", .replyThreadParentMsgId),
  (b!"reply-thread-parent-user-login", .replyThreadParentUserLogin),
  (b!"followers-only", .followersOnly),
  (b!"r9k", .r9K),
  (b!"rituals", .rituals),
  (b!"slow", .slow),
  (b!"subs-only", .subsOnly),
  (b!"msg-param-cumulative-months", .msgParamCumulativeMonths),
  (b!"msg-param-displayName", .msgParamDisplayName),
  (b!"msg-param-login", .msgParamLogin),
  (b!"msg-param-months", .msgParamMonths),
  (b!"msg-param-promo-gift-total", .msgParamPromoGiftTotal),
  (b!"msg-param-promo-name", .msgParamPromoName),
  (b!"msg-param-recipient-display-name", .msgParamRecipientDisplayName),
  (b!"msg-param-recipient-id", .msgParamRecipientId),
  (b!"msg-param-recipient-user-name", .msgParamRecipientUserName),
  (b!"msg-param-sender-login", .msgParamSenderLogin),
  (b!"msg-param-sender-name", .msgParamSenderName),
  (b!"msg-param-should-share-streak", .msgParamShouldShareStreak),
  (b!"msg-param-streak-months", .msgParamStreakMonths),
  (b!"msg-param-sub-plan", .msgParamSubPlan),
  (b!"msg-param-sub-plan-name", .msgParamSubPlanName),
  (b!"msg-param-viewerCount", .msgParamViewerCount),
  (b!"msg-param-ritual-name", .msgParamRitualName),
  (b!"msg-param-threshold", .msgParamThreshold),
  (b!"msg-param-gift-months", .msgParamGiftMonths),
  (b!"msg-param-color", .msgParamColor),
  (b!"login", .login),
  (b!"bits", .bits),
  (b!"system-msg", .systemMsg),
  (b!"emote-sets", .emoteSets),
  (b!"thread-id", .threadId),
  (b!"message-id", .messageId),
  (b!"returning-chatter", .returningChatter),
  (b!"color", .color),
  (b!"vip", .vip),
  (b!"target-user-id", .targetUserId),
  (b!"target-msg-id", .targetMsgId),
  (b!"ban-duration", .banDuration),
  (b!"msg-param-multimonth-duration", .msgParamMultimonthDuration),
  (b!"msg-param-was-gifted", .msgParamWasGifted),
  (b!"msg-param-multimonth-tenure", .msgParamMultimonthTenure),
  (b!"sent-ts", .sentTs),
  (b!"msg-param-origin-id", .msgParamOriginId),
  (b!"msg-param-fun-string", .msgParamFunString),
  (b!"msg-param-sender-count", .msgParamSenderCount),
  (b!"msg-param-profileImageURL", .msgParamProfileImageUrl),
  (b!"msg-param-mass-gift-count", .msgParamMassGiftCount),
  (b!"msg-param-gift-month-being-redeemed", .msgParamGiftMonthBeingRedeemed),
  (b!"msg-param-anon-gift", .msgParamAnonGift),
  (b!"custom-reward-id", .customRewardId),
  (b!"pinned-chat-paid-amount", .pinnedChatPaidAmount),
  (b!"pinned-chat-paid-canonical-amount", .pinnedChatPaidCanonicalAmount),
  (b!"pinned-chat-paid-currency", .pinnedChatPaidCurrency),
  (b!"pinned-chat-paid-exponent", .pinnedChatPaidExponent),
  (b!"pinned-chat-paid-level", .pinnedChatPaidLevel),
  (b!"pinned-chat-paid-is-system-message", .pinnedChatPaidIsSystemMessage)]

/-- `Tag::parse` (src/irc/tags.rs:34-39): a `match` on the bytes, first arm that is equal. -/
def Tag.parse (src : Bytes) : Tag :=
  match tagTable.find? (fun row => row.1 == src) with
  | some row => row.2
  | none => .unknown src

end Tmi.Model
