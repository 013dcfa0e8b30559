/-
Specification of the getters of typed messages: what each reports, as its documentation says, of the
line that was parsed.  The getters themselves are the functions `Getter.*` of the model.
-/
import Verif.Spec.Msg
import Verif.Spec.Unescape
import Verif.Model.Getters

namespace Tmi.Spec
open Tmi.Model

/-- `get` reports the text that the server put, escaped, in the place `o`: a value without a backslash comes back as
it is, and so does every recoverable text that was escaped. -/
structure TextIn (o : Option Bytes) (get : Except Fault Bytes) : Prop where
  present : o ≠ none
  plain : ∀ v, o = some v → BSLASH ∉ v → get = .ok v
  escaped : GivesBack o get

/-- What the getters of a user say. -/
structure UserGives (idTag loginText nameTag : Option Bytes) (u : User) : Prop where
  id : idTag = some (Getter.User.id u)
  login : loginText = some (Getter.User.login u)
  name : TextIn nameTag (Getter.User.name u)

/-- What the getters of a badge with the given name, version and badge-info say. -/
def BadgeGives (name version : Bytes) (extra : Option Bytes) (x : Badge) : Prop :=
  if name = b!"staff" then x = .staff
  else if name = b!"turbo" then x = .turbo
  else if name = b!"broadcaster" then x = .broadcaster
  else if name = b!"moderator" then x = .moderator
  else if name = b!"subscriber" then
    ∃ s, x = .subscriber s ∧ Getter.Subscriber.version s = version ∧ MonthsOf extra (Getter.Subscriber.months s)
  else ∃ d, x = .other d ∧ Getter.BadgeData.name d = name ∧ Getter.BadgeData.version d = version ∧
    Getter.BadgeData.extra d = extra

/-- What the iterator over the badges and their number say: the entries of `badges`, with the entries of the same name
in `badge-info`. -/
structure BadgesGive (l : Line) (badges : List Badge) (num : Nat) : Prop where
  length : num = badges.length
  absent : l.tag (b!"badges") = none ∨ l.tag (b!"badge-info") = none → num = 0
  present : ∀ b i, l.tag (b!"badges") = some b → l.tag (b!"badge-info") = some i →
    num = (entries b).length ∧
    ∀ (k : Nat) name version, (entries b)[k]? = some (name, version) →
      ∃ x, badges[k]? = some x ∧ BadgeGives name version (lookup name (entries i)) x

/-- What the iterator over the emote sets and their number say. -/
structure EmoteSetsGive (l : Line) (sets : List Bytes) (num : Nat) : Prop where
  length : num = sets.length
  sets : EmoteSetsOf l sets

/-- CLEARCHAT -/
structure ClearChatGives (l : Line) (v : ClearChat) : Prop where
  channel : l.channel = some (Getter.ClearChat.channel v)
  channelId : l.tag (b!"room-id") = some (Getter.ClearChat.channelId v)
  banUser : ∀ x, Getter.Ban.user (Getter.ClearChat.action v) = some x → l.text = some x
  banId : ∀ x, Getter.Ban.id (Getter.ClearChat.action v) = some x → l.tag (b!"target-user-id") = some x
  timeOutUser : ∀ x, Getter.TimeOut.user (Getter.ClearChat.action v) = some x → l.text = some x
  timeOutId : ∀ x, Getter.TimeOut.id (Getter.ClearChat.action v) = some x → l.tag (b!"target-user-id") = some x
  duration : ∀ x, Getter.TimeOut.duration (Getter.ClearChat.action v) = some x →
    ∃ n, l.num (b!"ban-duration") n ∧ x = n * 1000000000
  /-- a message without text clears the chat, one with text has the getters of a ban or those of a timeout -/
  kind : match Getter.ClearChat.action v with
    | .clear => l.text = none
    | .ban _ _ => l.text ≠ none ∧ ¬ ∃ n, l.num (b!"ban-duration") n
    | .timeOut _ _ _ => l.text ≠ none ∧ ∃ n, l.num (b!"ban-duration") n
  timestamp : TimestampOf l (Getter.ClearChat.timestamp v)

/-- CLEARMSG -/
structure ClearMsgGives (l : Line) (v : ClearMsg) : Prop where
  channel : l.channel = some (Getter.ClearMsg.channel v)
  channelId : l.tag (b!"room-id") = some (Getter.ClearMsg.channelId v)
  sender : l.tag (b!"login") = some (Getter.ClearMsg.sender v)
  targetMessageId : l.tag (b!"target-msg-id") = some (Getter.ClearMsg.targetMessageId v)
  text : ∃ t, l.text = some t ∧ TextOf t (Getter.ClearMsg.text v) (Getter.ClearMsg.isAction v)
  timestamp : TimestampOf l (Getter.ClearMsg.timestamp v)

/-- GLOBALUSERSTATE -/
structure GlobalUserStateGives (l : Line) (v : GlobalUserState) : Prop where
  id : l.tag (b!"user-id") = some (Getter.GlobalUserState.id v)
  name : TextIn (l.tag (b!"display-name")) (Getter.GlobalUserState.name v)
  badges : BadgesGive l (Getter.GlobalUserState.badges v) (Getter.GlobalUserState.numBadges v)
  emoteSets : EmoteSetsGive l (Getter.GlobalUserState.emoteSets v) (Getter.GlobalUserState.numEmoteSets v)
  color : OptText (l.tag (b!"color")) (Getter.GlobalUserState.color v)

/-- USERSTATE -/
structure UserStateGives (l : Line) (v : UserState) : Prop where
  channel : l.channel = some (Getter.UserState.channel v)
  userName : l.tag (b!"display-name") = some (Getter.UserState.userName v)
  badges : BadgesGive l (Getter.UserState.badges v) (Getter.UserState.numBadges v)
  emoteSets : EmoteSetsGive l (Getter.UserState.emoteSets v) (Getter.UserState.numEmoteSets v)
  color : OptText (l.tag (b!"color")) (Getter.UserState.color v)

/-- JOIN -/
structure JoinGives (l : Line) (v : Model.Join) : Prop where
  channel : l.channel = some (Getter.Join.channel v)
  user : l.nick = some (Getter.Join.user v)

/-- PART -/
structure PartGives (l : Line) (v : Part) : Prop where
  channel : l.channel = some (Getter.Part.channel v)
  user : l.nick = some (Getter.Part.user v)

/-- NOTICE -/
structure NoticeGives (l : Line) (v : Notice) : Prop where
  channel : l.channel = Getter.Notice.channel v
  text : l.text = some (Getter.Notice.text v)
  id : l.tag (b!"msg-id") = Getter.Notice.id v

/-- The getters of the reply of a PRIVMSG. -/
structure ReplyGives (l : Line) (v : Reply) : Prop where
  threadParentMessageId : l.tag (b!"reply-thread-parent-msg-id") = some (Getter.Reply.threadParentMessageId v)
  threadParentUserLogin : l.tag (b!"reply-thread-parent-user-login") = some (Getter.Reply.threadParentUserLogin v)
  messageId : l.tag (b!"reply-parent-msg-id") = some (Getter.Reply.messageId v)
  sender : UserGives (l.tag (b!"reply-parent-user-id")) (l.tag (b!"reply-parent-user-login"))
    (l.tag (b!"reply-parent-display-name")) (Getter.Reply.sender v)
  text : TextIn (l.tag (b!"reply-parent-msg-body")) (Getter.Reply.text v)

/-- The getters of the hype chat of a PRIVMSG. -/
structure PinnedGives (l : Line) (v : PinnedChat) : Prop where
  paidAmount : ∃ t, l.tag (b!"pinned-chat-paid-amount") = some t ∧ I64 t (Getter.PinnedChat.paidAmount v)
  paidCurrency : l.tag (b!"pinned-chat-paid-currency") = some (Getter.PinnedChat.paidCurrency v)
  paidExponent : ∃ t, l.tag (b!"pinned-chat-paid-exponent") = some t ∧ I64 t (Getter.PinnedChat.paidExponent v)
  paidLevel : l.tag (b!"pinned-chat-paid-level") = some (levelName (Getter.PinnedChat.paidLevel v))
  isSystemMessage : ∃ t, l.tag (b!"pinned-chat-paid-is-system-message") = some t ∧
    (Getter.PinnedChat.isSystemMessage v = true ↔ IsTrue t)

/-- PRIVMSG -/
structure PrivmsgGives (l : Line) (v : Privmsg) : Prop where
  id : l.tag (b!"id") = some (Getter.Privmsg.id v)
  channel : l.channel = some (Getter.Privmsg.channel v)
  channelId : l.tag (b!"room-id") = some (Getter.Privmsg.channelId v)
  msgId : l.tag (b!"msg-id") = Getter.Privmsg.msgId v
  sender : UserGives (l.tag (b!"user-id")) l.nick (l.tag (b!"display-name")) (Getter.Privmsg.sender v)
  replyTo : ∀ r, Getter.Privmsg.replyTo v = some r → ReplyGives l r
  noReply : Getter.Privmsg.replyTo v = none → ¬ ∃ r, ReplyOf l r
  pinnedChat : ∀ r, Getter.Privmsg.pinnedChat v = some r → PinnedGives l r
  notPinned : Getter.Privmsg.pinnedChat v = none → ¬ ∃ r, PinnedOf l r
  text : ∃ t, l.text = some t ∧ TextOf t (Getter.Privmsg.text v) (Getter.Privmsg.isAction v)
  badges : BadgesGive l (Getter.Privmsg.badges v) (Getter.Privmsg.numBadges v)
  color : OptText (l.tag (b!"color")) (Getter.Privmsg.color v)
  customRewardId : OptText (l.tag (b!"custom-reward-id")) (Getter.Privmsg.customRewardId v)
  bits : OptU64 (l.tag (b!"bits")) (Getter.Privmsg.bits v)
  rawEmotes : Getter.Privmsg.rawEmotes v = (l.tag (b!"emotes")).getD []
  timestamp : TimestampOf l (Getter.Privmsg.timestamp v)

/-- ROOMSTATE -/
structure RoomStateGives (l : Line) (v : RoomState) : Prop where
  channel : l.channel = some (Getter.RoomState.channel v)
  channelId : l.tag (b!"room-id") = some (Getter.RoomState.channelId v)
  emoteOnly : OptBool (l.tag (b!"emote-only")) (Getter.RoomState.emoteOnly v)
  followersOnly : ∀ f, Getter.RoomState.followersOnly v = some f ↔
    ∃ t, l.tag (b!"followers-only") = some t ∧ FollowersOf t f
  r9k : OptBool (l.tag (b!"r9k")) (Getter.RoomState.r9k v)
  slow : OptSecs (l.tag (b!"slow")) (Getter.RoomState.slow v)
  subsOnly : OptBool (l.tag (b!"subs-only")) (Getter.RoomState.subsOnly v)

/-- WHISPER: the recipient ends and the text begins at the first `" :"` of the params. -/
structure WhisperGives (l : Line) (v : Whisper) : Prop where
  params : l.params = some (Getter.Whisper.recipient v ++ SP :: COLON :: Getter.Whisper.text v)
  first : ∀ a b, l.params = some (a ++ SP :: COLON :: b) → (Getter.Whisper.recipient v).length ≤ a.length
  sender : UserGives (l.tag (b!"user-id")) l.nick (l.tag (b!"display-name")) (Getter.Whisper.sender v)
  badges : BadgesGive l (Getter.Whisper.badges v) (Getter.Whisper.numBadges v)
  rawEmotes : Getter.Whisper.rawEmotes v = (l.tag (b!"emotes")).getD []
  color : OptText (l.tag (b!"color")) (Getter.Whisper.color v)

/-- The getters of the promotion of a gift upgrade. -/
structure PromoGives (l : Line) (p : SubGiftPromo) : Prop where
  totalGifts : l.num (b!"msg-param-promo-gift-total") (Getter.SubGiftPromo.totalGifts p)
  promoName : l.tag (b!"msg-param-promo-name") = some (Getter.SubGiftPromo.promoName p)

/-- The getters of the event of a USERNOTICE. -/
structure EventGives (l : Line) (e : Event) : Prop where
  isResub : ∀ x, Getter.SubOrResub.isResub e = some x →
    l.tag (b!"msg-id") = some (if x = true then b!"resub" else b!"sub")
  cumulativeMonths : ∀ x, Getter.SubOrResub.cumulativeMonths e = some x → l.num (b!"msg-param-cumulative-months") x
  streakMonths : ∀ x, Getter.SubOrResub.streakMonths e = some x →
    ∀ n, x = some n ↔ l.num (b!"msg-param-streak-months") n ∧ 0 < n
  subPlan : ∀ x, Getter.SubOrResub.subPlan e = some x ∨ Getter.SubGift.subPlan e = some x ∨
      Getter.SubMysteryGift.subPlan e = some x ∨ Getter.AnonSubMysteryGift.subPlan e = some x →
    l.tag (b!"msg-param-sub-plan") = some x
  subPlanName : ∀ x, Getter.SubOrResub.subPlanName e = some x ∨ Getter.SubGift.subPlanName e = some x →
    TextIn (l.tag (b!"msg-param-sub-plan-name")) x
  viewerCount : ∀ x, Getter.Raid.viewerCount e = some x → l.num (b!"msg-param-viewerCount") x
  profileImageUrl : ∀ x, Getter.Raid.profileImageUrl e = some x → l.tag (b!"msg-param-profileImageURL") = some x
  giftMonths : ∀ x, Getter.SubGift.cumulativeMonths e = some x → l.num (b!"msg-param-months") x
  recipient : ∀ x, Getter.SubGift.recipient e = some x →
    UserGives (l.tag (b!"msg-param-recipient-id")) (l.tag (b!"msg-param-recipient-user-name"))
      (l.tag (b!"msg-param-recipient-display-name")) x
  numGiftedMonths : ∀ x, Getter.SubGift.numGiftedMonths e = some x → l.num (b!"msg-param-gift-months") x
  count : ∀ x, Getter.SubMysteryGift.count e = some x ∨ Getter.AnonSubMysteryGift.count e = some x →
    l.num (b!"msg-param-mass-gift-count") x
  senderTotalGifts : ∀ x, Getter.SubMysteryGift.senderTotalGifts e = some x → l.num (b!"msg-param-sender-count") x
  gifterLogin : ∀ x, Getter.GiftPaidUpgrade.gifterLogin e = some x → l.tag (b!"msg-param-sender-login") = some x
  gifterName : ∀ x, Getter.GiftPaidUpgrade.gifterName e = some x → l.tag (b!"msg-param-sender-name") = some x
  promotion : ∀ x, Getter.GiftPaidUpgrade.promotion e = some x ∨ Getter.AnonGiftPaidUpgrade.promotion e = some x →
    (∀ p, x = some p → PromoGives l p) ∧
    (x = none → ¬ ((∃ n, l.num (b!"msg-param-promo-gift-total") n) ∧ l.tag (b!"msg-param-promo-name") ≠ none))
  ritual : ∀ x, Getter.Ritual.name e = some x → l.tag (b!"msg-param-ritual-name") = some x
  tier : ∀ x, Getter.BitsBadgeTier.tier e = some x → l.num (b!"msg-param-threshold") x
  highlightColor : ∀ x, Getter.Announcement.highlightColor e = some x →
    x = (l.tag (b!"msg-param-color")).getD (b!"PRIMARY")
  /-- each kind of event has its getters, and there is one for each `msg-id` with a meaning -/
  kind : ∃ id, l.tag (b!"msg-id") = some id ∧
    ((Getter.SubOrResub.isResub e).isSome = true ↔ id = b!"sub" ∨ id = b!"resub") ∧
    ((Getter.Raid.viewerCount e).isSome = true ↔ id = b!"raid") ∧
    ((Getter.SubGift.recipient e).isSome = true ↔ id = b!"subgift" ∨ id = b!"anonsubgift") ∧
    ((Getter.AnonSubMysteryGift.count e).isSome = true ↔ id = b!"anonsubmysterygift" ∨
      (id = b!"submysterygift" ∧ l.tag (b!"user-id") = some anonymousGifterId)) ∧
    ((Getter.SubMysteryGift.count e).isSome = true ↔
      id = b!"submysterygift" ∧ l.tag (b!"user-id") ≠ some anonymousGifterId) ∧
    ((Getter.GiftPaidUpgrade.gifterLogin e).isSome = true ↔ id = b!"giftpaidupgrade") ∧
    ((Getter.AnonGiftPaidUpgrade.promotion e).isSome = true ↔ id = b!"anongiftpaidupgrade") ∧
    ((Getter.Ritual.name e).isSome = true ↔ id = b!"ritual") ∧
    ((Getter.BitsBadgeTier.tier e).isSome = true ↔ id = b!"bitsbadgetier") ∧
    ((Getter.Announcement.highlightColor e).isSome = true ↔ id = b!"announcement")

/-- USERNOTICE -/
structure UserNoticeGives (l : Line) (v : UserNotice) : Prop where
  channel : l.channel = some (Getter.UserNotice.channel v)
  channelId : l.tag (b!"room-id") = some (Getter.UserNotice.channelId v)
  sender : ∀ u, Getter.UserNotice.sender v = some u →
    UserGives (l.tag (b!"user-id")) (l.tag (b!"login")) (l.tag (b!"display-name")) u
  text : l.text = Getter.UserNotice.text v
  systemMessage : ∀ r, Getter.UserNotice.systemMessage v = .ok (some r) →
    l.tag (b!"system-msg") ≠ some [] ∧ TextIn (l.tag (b!"system-msg")) (.ok r)
  noSystemMessage : Getter.UserNotice.systemMessage v = .ok none ↔
    l.tag (b!"system-msg") = none ∨ l.tag (b!"system-msg") = some []
  event : EventGives l (Getter.UserNotice.event v)
  eventId : l.tag (b!"msg-id") = some (Getter.UserNotice.eventId v)
  badges : BadgesGive l (Getter.UserNotice.badges v) (Getter.UserNotice.numBadges v)
  rawEmotes : Getter.UserNotice.rawEmotes v = (l.tag (b!"emotes")).getD []
  color : OptText (l.tag (b!"color")) (Getter.UserNotice.color v)
  messageId : l.tag (b!"id") = some (Getter.UserNotice.messageId v)
  timestamp : TimestampOf l (Getter.UserNotice.timestamp v)

end Tmi.Spec
