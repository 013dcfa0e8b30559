/-
How much room a typed message takes: the lengths of all the texts that it holds.  `into_owned` copies each of
them once (C51).
-/
import Verif.Spec.Msg

namespace Tmi.Spec
open Tmi.Model

/-- The length of some texts together. -/
def total (texts : List Bytes) : Nat := (texts.map List.length).sum

/-- The texts of a user. -/
def userTexts (u : User) : List Bytes := [u.id, u.login, u.name]

/-- The texts of a badge. -/
def badgeTexts : Badge → List Bytes
  | .staff | .turbo | .broadcaster | .moderator => []
  | .subscriber s => [s.version, s.months]
  | .other d => [d.name, d.version] ++ d.extra.toList

/-- The texts of the message that a message replies to. -/
def replyTexts (r : Reply) : List Bytes :=
  [r.threadParentMessageId, r.threadParentUserLogin, r.messageId] ++ userTexts r.sender ++ [r.text]

/-- The texts of an event. -/
def eventTexts : Event → List Bytes
  | .subOrResub _ _ _ plan name => [plan, name]
  | .raid _ url => [url]
  | .subGift _ r plan name _ => userTexts r ++ [plan, name]
  | .subMysteryGift _ _ plan => [plan]
  | .anonSubMysteryGift _ plan => [plan]
  | .giftPaidUpgrade login name promo => [login, name] ++ (promo.map (·.promoName)).toList
  | .anonGiftPaidUpgrade promo => (promo.map (·.promoName)).toList
  | .ritual name => [name]
  | .bitsBadgeTier _ => []
  | .announcement color => [color]
  | .unknown => []

/-- The texts of a message, without those of the badges. -/
def messageTexts : Message → List Bytes
  | .clearChat v => [v.channel, v.channelId] ++ (match v.action with
    | .clear => []
    | .ban user id => [user, id]
    | .timeOut user id _ => [user, id])
  | .clearMsg v => [v.channel, v.channelId, v.sender, v.targetMessageId, v.text]
  | .globalUserState v => [v.id, v.name] ++ v.emoteSets ++ v.color.toList
  | .join v => [v.channel, v.user]
  | .notice v => v.channel.toList ++ [v.text] ++ v.id.toList
  | .part v => [v.channel, v.user]
  | .ping v => v.nonce.toList
  | .pong v => v.nonce.toList
  | .privmsg v => [v.channel, v.channelId] ++ v.msgId.toList ++ [v.id] ++ userTexts v.sender ++
    (match v.replyTo with | some r => replyTexts r | none => []) ++ (v.pinnedChat.map (·.paidCurrency)).toList ++
    [v.text] ++ v.color.toList ++ v.customRewardId.toList ++ [v.emotes]
  | .reconnect => []
  | .roomState v => [v.channel, v.channelId]
  | .userNotice v => [v.channel, v.channelId] ++ (match v.sender with | some u => userTexts u | none => []) ++
    v.text.toList ++ v.systemMessage.toList ++ eventTexts v.event ++ [v.eventId, v.emotes] ++ v.color.toList ++ [v.messageId]
  | .userState v => [v.channel, v.userName] ++ v.emoteSets ++ v.color.toList
  | .whisper v => [v.recipient] ++ userTexts v.sender ++ [v.text, v.emotes] ++ v.color.toList
  | .other m => [m.src]

/-- The badges of a message. -/
def messageBadges : Message → List Badge
  | .globalUserState v => v.badges
  | .privmsg v => v.badges
  | .userNotice v => v.badges
  | .userState v => v.badges
  | .whisper v => v.badges
  | _ => []

/-- How much room a message takes. -/
def room (m : Message) : Nat := total (messageTexts m) + total ((messageBadges m).flatMap badgeTexts)

/-- No two badges of the line have the same name. -/
def BadgesDistinct (l : Line) : Prop := ∀ v, l.tag (b!"badges") = some v → ((entries v).map (·.1)).Nodup

end Tmi.Spec
