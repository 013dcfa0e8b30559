/-
The getters of the typed messages: what `generate_getters!` (src/msg/macros.rs:1-23) makes of the
lists of getters in src/msg.rs and src/msg/*.rs.

A getter with an expression returns that expression; one without clones the field of the same name.
References, clones, `as_ref`, `as_deref` and `Cow` are the value itself.  An iterator is the list of
its items.  The structs that are payloads of the variants of `Action` and `Event` are flattened in
the model, so their getters are functions of the enum, defined on their variant.
-/
import Verif.Model.Msg

namespace Tmi.Model.Getter

/-! ### `Subscriber` (src/msg.rs) -/

/-- The getter `Subscriber::version` (src/msg.rs:230). -/
def Subscriber.version (v : Subscriber) : Bytes := v.version

/-- The getter `Subscriber::months` (src/msg.rs:235). -/
def Subscriber.months (v : Subscriber) : Nat := v.monthsN

/-! ### `BadgeData` (src/msg.rs) -/

/-- The getter `BadgeData::name` (src/msg.rs:264). -/
def BadgeData.name (v : BadgeData) : Bytes := v.name

/-- The getter `BadgeData::version` (src/msg.rs:269). -/
def BadgeData.version (v : BadgeData) : Bytes := v.version

/-- The getter `BadgeData::extra` (src/msg.rs:275). -/
def BadgeData.extra (v : BadgeData) : Option Bytes := v.extra

/-! ### `User` (src/msg.rs) -/

/-- The getter `User::id` (src/msg.rs:302). -/
def User.id (v : User) : Bytes := v.id

/-- The getter `User::login` (src/msg.rs:305). -/
def User.login (v : User) : Bytes := v.login

/-- The getter `User::name` (src/msg.rs:313). -/
def User.name (v : User) : R Bytes := v.getName

/-! ### `ClearChat` (src/msg/clear_chat.rs) -/

/-- The getter `ClearChat::channel` (src/msg/clear_chat.rs:28). -/
def ClearChat.channel (v : ClearChat) : Bytes := v.channel

/-- The getter `ClearChat::channel_id` (src/msg/clear_chat.rs:31). -/
def ClearChat.channelId (v : ClearChat) : Bytes := v.channelId

/-- The getter `ClearChat::action` (src/msg/clear_chat.rs:34). -/
def ClearChat.action (v : ClearChat) : Action := v.action

/-- The getter `ClearChat::timestamp` (src/msg/clear_chat.rs:37). -/
def ClearChat.timestamp (v : ClearChat) : Timestamp := v.timestamp

/-! ### `Ban` (src/msg/clear_chat.rs), the payload of `Action::Ban`: `none` for the other variants -/

/-- The getter `Ban::user` (src/msg/clear_chat.rs:115). -/
def Ban.user : Action → Option (Bytes)
  | .ban u _ => some u
  | _ => none

/-- The getter `Ban::id` (src/msg/clear_chat.rs:118). -/
def Ban.id : Action → Option (Bytes)
  | .ban _ i => some i
  | _ => none

/-! ### `TimeOut` (src/msg/clear_chat.rs), the payload of `Action::TimeOut`: `none` for the other variants -/

/-- The getter `TimeOut::user` (src/msg/clear_chat.rs:138). -/
def TimeOut.user : Action → Option (Bytes)
  | .timeOut u _ _ => some u
  | _ => none

/-- The getter `TimeOut::id` (src/msg/clear_chat.rs:141). -/
def TimeOut.id : Action → Option (Bytes)
  | .timeOut _ i _ => some i
  | _ => none

/-- The getter `TimeOut::duration` (src/msg/clear_chat.rs:144). -/
def TimeOut.duration : Action → Option (Nat)
  | .timeOut _ _ d => some d
  | _ => none

/-! ### `ClearMsg` (src/msg/clear_msg.rs) -/

/-- The getter `ClearMsg::channel` (src/msg/clear_msg.rs:35). -/
def ClearMsg.channel (v : ClearMsg) : Bytes := v.channel

/-- The getter `ClearMsg::channel_id` (src/msg/clear_msg.rs:38). -/
def ClearMsg.channelId (v : ClearMsg) : Bytes := v.channelId

/-- The getter `ClearMsg::sender` (src/msg/clear_msg.rs:41). -/
def ClearMsg.sender (v : ClearMsg) : Bytes := v.sender

/-- The getter `ClearMsg::target_message_id` (src/msg/clear_msg.rs:44). -/
def ClearMsg.targetMessageId (v : ClearMsg) : Bytes := v.targetMessageId

/-- The getter `ClearMsg::text` (src/msg/clear_msg.rs:47). -/
def ClearMsg.text (v : ClearMsg) : Bytes := v.text

/-- The getter `ClearMsg::is_action` (src/msg/clear_msg.rs:50). -/
def ClearMsg.isAction (v : ClearMsg) : Bool := v.isAction

/-- The getter `ClearMsg::timestamp` (src/msg/clear_msg.rs:53). -/
def ClearMsg.timestamp (v : ClearMsg) : Timestamp := v.timestamp

/-! ### `GlobalUserState` (src/msg/global_user_state.rs) -/

/-- The getter `GlobalUserState::id` (src/msg/global_user_state.rs:32). -/
def GlobalUserState.id (v : GlobalUserState) : Bytes := v.id

/-- The getter `GlobalUserState::name` (src/msg/global_user_state.rs:40). -/
def GlobalUserState.name (v : GlobalUserState) : R Bytes := v.getName

/-- The getter `GlobalUserState::badges` (src/msg/global_user_state.rs:43-44). -/
def GlobalUserState.badges (v : GlobalUserState) : List Badge := v.badges

/-- The getter `GlobalUserState::num_badges` (src/msg/global_user_state.rs:47). -/
def GlobalUserState.numBadges (v : GlobalUserState) : Nat := v.badges.length

/-- The getter `GlobalUserState::emote_sets` (src/msg/global_user_state.rs:50-51). -/
def GlobalUserState.emoteSets (v : GlobalUserState) : List Bytes := v.emoteSets

/-- The getter `GlobalUserState::num_emote_sets` (src/msg/global_user_state.rs:54). -/
def GlobalUserState.numEmoteSets (v : GlobalUserState) : Nat := v.emoteSets.length

/-- The getter `GlobalUserState::color` (src/msg/global_user_state.rs:61). -/
def GlobalUserState.color (v : GlobalUserState) : Option Bytes := v.color

/-! ### `Join` (src/msg/join.rs) -/

/-- The getter `Join::channel` (src/msg/join.rs:21). -/
def Join.channel (v : Join) : Bytes := v.channel

/-- The getter `Join::user` (src/msg/join.rs:24). -/
def Join.user (v : Join) : Bytes := v.user

/-! ### `Notice` (src/msg/notice.rs) -/

/-- The getter `Notice::channel` (src/msg/notice.rs:28). -/
def Notice.channel (v : Notice) : Option Bytes := v.channel

/-- The getter `Notice::text` (src/msg/notice.rs:31). -/
def Notice.text (v : Notice) : Bytes := v.text

/-- The getter `Notice::id` (src/msg/notice.rs:36). -/
def Notice.id (v : Notice) : Option Bytes := v.id

/-! ### `Part` (src/msg/part.rs) -/

/-- The getter `Part::channel` (src/msg/part.rs:21). -/
def Part.channel (v : Part) : Bytes := v.channel

/-- The getter `Part::user` (src/msg/part.rs:24). -/
def Part.user (v : Part) : Bytes := v.user

/-! ### `Ping` (src/msg/ping.rs) -/

/-- The getter `Ping::nonce` (src/msg/ping.rs:32). -/
def Ping.nonce (v : Ping) : Option Bytes := v.nonce

/-! ### `Pong` (src/msg/pong.rs) -/

/-- The getter `Pong::nonce` (src/msg/pong.rs:30). -/
def Pong.nonce (v : Pong) : Option Bytes := v.nonce

/-! ### `Privmsg` (src/msg/privmsg.rs) -/

/-- The getter `Privmsg::id` (src/msg/privmsg.rs:61). -/
def Privmsg.id (v : Privmsg) : Bytes := v.id

/-- The getter `Privmsg::channel` (src/msg/privmsg.rs:64). -/
def Privmsg.channel (v : Privmsg) : Bytes := v.channel

/-- The getter `Privmsg::channel_id` (src/msg/privmsg.rs:67). -/
def Privmsg.channelId (v : Privmsg) : Bytes := v.channelId

/-- The getter `Privmsg::msg_id` (src/msg/privmsg.rs:75). -/
def Privmsg.msgId (v : Privmsg) : Option Bytes := v.msgId

/-- The getter `Privmsg::sender` (src/msg/privmsg.rs:78). -/
def Privmsg.sender (v : Privmsg) : User := v.sender

/-- The getter `Privmsg::reply_to` (src/msg/privmsg.rs:81). -/
def Privmsg.replyTo (v : Privmsg) : Option Reply := v.replyTo

/-- The getter `Privmsg::pinned_chat` (src/msg/privmsg.rs:84). -/
def Privmsg.pinnedChat (v : Privmsg) : Option PinnedChat := v.pinnedChat

/-- The getter `Privmsg::text` (src/msg/privmsg.rs:89). -/
def Privmsg.text (v : Privmsg) : Bytes := v.text

/-- The getter `Privmsg::is_action` (src/msg/privmsg.rs:92). -/
def Privmsg.isAction (v : Privmsg) : Bool := v.isAction

/-- The getter `Privmsg::badges` (src/msg/privmsg.rs:95-96). -/
def Privmsg.badges (v : Privmsg) : List Badge := v.badges

/-- The getter `Privmsg::num_badges` (src/msg/privmsg.rs:99). -/
def Privmsg.numBadges (v : Privmsg) : Nat := v.badges.length

/-- The getter `Privmsg::color` (src/msg/privmsg.rs:106). -/
def Privmsg.color (v : Privmsg) : Option Bytes := v.color

/-- The getter `Privmsg::custom_reward_id` (src/msg/privmsg.rs:111). -/
def Privmsg.customRewardId (v : Privmsg) : Option Bytes := v.customRewardId

/-- The getter `Privmsg::bits` (src/msg/privmsg.rs:114). -/
def Privmsg.bits (v : Privmsg) : Option Nat := v.bits

/-- The getter `Privmsg::raw_emotes` (src/msg/privmsg.rs:121). -/
def Privmsg.rawEmotes (v : Privmsg) : Bytes := v.emotes

/-- The getter `Privmsg::timestamp` (src/msg/privmsg.rs:124). -/
def Privmsg.timestamp (v : Privmsg) : Timestamp := v.timestamp

/-! ### `Reply` (src/msg/privmsg.rs) -/

/-- The getter `Reply::thread_parent_message_id` (src/msg/privmsg.rs:153). -/
def Reply.threadParentMessageId (v : Reply) : Bytes := v.threadParentMessageId

/-- The getter `Reply::thread_parent_user_login` (src/msg/privmsg.rs:159). -/
def Reply.threadParentUserLogin (v : Reply) : Bytes := v.threadParentUserLogin

/-- The getter `Reply::message_id` (src/msg/privmsg.rs:165). -/
def Reply.messageId (v : Reply) : Bytes := v.messageId

/-- The getter `Reply::sender` (src/msg/privmsg.rs:168). -/
def Reply.sender (v : Reply) : User := v.sender

/-- The getter `Reply::text` (src/msg/privmsg.rs:173). -/
def Reply.text (v : Reply) : R Bytes := v.getText

/-! ### `PinnedChat` (src/msg/privmsg.rs) -/

/-- The getter `PinnedChat::paid_amount` (src/msg/privmsg.rs:280). -/
def PinnedChat.paidAmount (v : PinnedChat) : Int := v.paidAmount

/-- The getter `PinnedChat::paid_currency` (src/msg/privmsg.rs:283). -/
def PinnedChat.paidCurrency (v : PinnedChat) : Bytes := v.paidCurrency

/-- The getter `PinnedChat::paid_exponent` (src/msg/privmsg.rs:289). -/
def PinnedChat.paidExponent (v : PinnedChat) : Int := v.paidExponent

/-- The getter `PinnedChat::paid_level` (src/msg/privmsg.rs:294). -/
def PinnedChat.paidLevel (v : PinnedChat) : PinnedChatLevel := v.paidLevel

/-- The getter `PinnedChat::is_system_message` (src/msg/privmsg.rs:300). -/
def PinnedChat.isSystemMessage (v : PinnedChat) : Bool := v.isSystemMessage

/-! ### `RoomState` (src/msg/room_state.rs) -/

/-- The getter `RoomState::channel` (src/msg/room_state.rs:32). -/
def RoomState.channel (v : RoomState) : Bytes := v.channel

/-- The getter `RoomState::channel_id` (src/msg/room_state.rs:35). -/
def RoomState.channelId (v : RoomState) : Bytes := v.channelId

/-- The getter `RoomState::emote_only` (src/msg/room_state.rs:43). -/
def RoomState.emoteOnly (v : RoomState) : Option Bool := v.emoteOnly

/-- The getter `RoomState::followers_only` (src/msg/room_state.rs:51). -/
def RoomState.followersOnly (v : RoomState) : Option FollowersOnly := v.followersOnly

/-- The getter `RoomState::r9k` (src/msg/room_state.rs:56). -/
def RoomState.r9k (v : RoomState) : Option Bool := v.r9k

/-- The getter `RoomState::slow` (src/msg/room_state.rs:61). -/
def RoomState.slow (v : RoomState) : Option Nat := v.slow

/-- The getter `RoomState::subs_only` (src/msg/room_state.rs:66). -/
def RoomState.subsOnly (v : RoomState) : Option Bool := v.subsOnly

/-! ### `UserNotice` (src/msg/user_notice.rs) -/

/-- The getter `UserNotice::channel` (src/msg/user_notice.rs:56). -/
def UserNotice.channel (v : UserNotice) : Bytes := v.channel

/-- The getter `UserNotice::channel_id` (src/msg/user_notice.rs:59). -/
def UserNotice.channelId (v : UserNotice) : Bytes := v.channelId

/-- The getter `UserNotice::sender` (src/msg/user_notice.rs:68). -/
def UserNotice.sender (v : UserNotice) : Option User := v.sender

/-- The getter `UserNotice::text` (src/msg/user_notice.rs:71). -/
def UserNotice.text (v : UserNotice) : Option Bytes := v.text

/-- The getter `UserNotice::system_message` (src/msg/user_notice.rs:76). -/
def UserNotice.systemMessage (v : UserNotice) : R (Option Bytes) := v.getSystemMessage

/-- The getter `UserNotice::event` (src/msg/user_notice.rs:79). -/
def UserNotice.event (v : UserNotice) : Event := v.event

/-- The getter `UserNotice::event_id` (src/msg/user_notice.rs:84). -/
def UserNotice.eventId (v : UserNotice) : Bytes := v.eventId

/-- The getter `UserNotice::badges` (src/msg/user_notice.rs:87-88). -/
def UserNotice.badges (v : UserNotice) : List Badge := v.badges

/-- The getter `UserNotice::num_badges` (src/msg/user_notice.rs:91). -/
def UserNotice.numBadges (v : UserNotice) : Nat := v.badges.length

/-- The getter `UserNotice::raw_emotes` (src/msg/user_notice.rs:98). -/
def UserNotice.rawEmotes (v : UserNotice) : Bytes := v.emotes

/-- The getter `UserNotice::color` (src/msg/user_notice.rs:105). -/
def UserNotice.color (v : UserNotice) : Option Bytes := v.color

/-- The getter `UserNotice::message_id` (src/msg/user_notice.rs:108). -/
def UserNotice.messageId (v : UserNotice) : Bytes := v.messageId

/-- The getter `UserNotice::timestamp` (src/msg/user_notice.rs:111). -/
def UserNotice.timestamp (v : UserNotice) : Timestamp := v.timestamp

/-! ### `SubOrResub` (src/msg/user_notice.rs), the payload of `Event::SubOrResub`: `none` for the other variants -/

/-- The getter `SubOrResub::is_resub` (src/msg/user_notice.rs:192). -/
def SubOrResub.isResub : Event → Option (Bool)
  | .subOrResub x _ _ _ _ => some x
  | _ => none

/-- The getter `SubOrResub::cumulative_months` (src/msg/user_notice.rs:195). -/
def SubOrResub.cumulativeMonths : Event → Option (Nat)
  | .subOrResub _ x _ _ _ => some x
  | _ => none

/-- The getter `SubOrResub::streak_months` (src/msg/user_notice.rs:198). -/
def SubOrResub.streakMonths : Event → Option (Option Nat)
  | .subOrResub _ _ x _ _ => some x
  | _ => none

/-- The getter `SubOrResub::sub_plan` (src/msg/user_notice.rs:206). -/
def SubOrResub.subPlan : Event → Option (Bytes)
  | .subOrResub _ _ _ x _ => some x
  | _ => none

/-- The getter `SubOrResub::sub_plan_name` (src/msg/user_notice.rs:211). -/
def SubOrResub.subPlanName : Event → Option (R Bytes)
  | .subOrResub _ _ _ _ x => some (maybeUnescape x)
  | _ => none

/-! ### `Raid` (src/msg/user_notice.rs), the payload of `Event::Raid`: `none` for the other variants -/

/-- The getter `Raid::viewer_count` (src/msg/user_notice.rs:226). -/
def Raid.viewerCount : Event → Option (Nat)
  | .raid x _ => some x
  | _ => none

/-- The getter `Raid::profile_image_url` (src/msg/user_notice.rs:233). -/
def Raid.profileImageUrl : Event → Option (Bytes)
  | .raid _ x => some x
  | _ => none

/-! ### `SubGift` (src/msg/user_notice.rs), the payload of `Event::SubGift`: `none` for the other variants -/

/-- The getter `SubGift::cumulative_months` (src/msg/user_notice.rs:253). -/
def SubGift.cumulativeMonths : Event → Option (Nat)
  | .subGift x _ _ _ _ => some x
  | _ => none

/-- The getter `SubGift::recipient` (src/msg/user_notice.rs:256). -/
def SubGift.recipient : Event → Option (User)
  | .subGift _ x _ _ _ => some x
  | _ => none

/-- The getter `SubGift::sub_plan` (src/msg/user_notice.rs:264). -/
def SubGift.subPlan : Event → Option (Bytes)
  | .subGift _ _ x _ _ => some x
  | _ => none

/-- The getter `SubGift::sub_plan_name` (src/msg/user_notice.rs:269). -/
def SubGift.subPlanName : Event → Option (R Bytes)
  | .subGift _ _ _ x _ => some (maybeUnescape x)
  | _ => none

/-- The getter `SubGift::num_gifted_months` (src/msg/user_notice.rs:272). -/
def SubGift.numGiftedMonths : Event → Option (Nat)
  | .subGift _ _ _ _ x => some x
  | _ => none

/-! ### `SubMysteryGift` (src/msg/user_notice.rs), the payload of `Event::SubMysteryGift`: `none` for the other variants -/

/-- The getter `SubMysteryGift::count` (src/msg/user_notice.rs:288). -/
def SubMysteryGift.count : Event → Option (Nat)
  | .subMysteryGift x _ _ => some x
  | _ => none

/-- The getter `SubMysteryGift::sender_total_gifts` (src/msg/user_notice.rs:291). -/
def SubMysteryGift.senderTotalGifts : Event → Option (Nat)
  | .subMysteryGift _ x _ => some x
  | _ => none

/-- The getter `SubMysteryGift::sub_plan` (src/msg/user_notice.rs:299). -/
def SubMysteryGift.subPlan : Event → Option (Bytes)
  | .subMysteryGift _ _ x => some x
  | _ => none

/-! ### `AnonSubMysteryGift` (src/msg/user_notice.rs), the payload of `Event::AnonSubMysteryGift`: `none` for the other variants -/

/-- The getter `AnonSubMysteryGift::count` (src/msg/user_notice.rs:314). -/
def AnonSubMysteryGift.count : Event → Option (Nat)
  | .anonSubMysteryGift x _ => some x
  | _ => none

/-- The getter `AnonSubMysteryGift::sub_plan` (src/msg/user_notice.rs:322). -/
def AnonSubMysteryGift.subPlan : Event → Option (Bytes)
  | .anonSubMysteryGift _ x => some x
  | _ => none

/-! ### `GiftPaidUpgrade` (src/msg/user_notice.rs), the payload of `Event::GiftPaidUpgrade`: `none` for the other variants -/

/-- The getter `GiftPaidUpgrade::gifter_login` (src/msg/user_notice.rs:338). -/
def GiftPaidUpgrade.gifterLogin : Event → Option (Bytes)
  | .giftPaidUpgrade x _ _ => some x
  | _ => none

/-- The getter `GiftPaidUpgrade::gifter_name` (src/msg/user_notice.rs:341). -/
def GiftPaidUpgrade.gifterName : Event → Option (Bytes)
  | .giftPaidUpgrade _ x _ => some x
  | _ => none

/-- The getter `GiftPaidUpgrade::promotion` (src/msg/user_notice.rs:344). -/
def GiftPaidUpgrade.promotion : Event → Option (Option SubGiftPromo)
  | .giftPaidUpgrade _ _ x => some x
  | _ => none

/-! ### `AnonGiftPaidUpgrade` (src/msg/user_notice.rs), the payload of `Event::AnonGiftPaidUpgrade`: `none` for the other variants -/

/-- The getter `AnonGiftPaidUpgrade::promotion` (src/msg/user_notice.rs:359). -/
def AnonGiftPaidUpgrade.promotion : Event → Option (Option SubGiftPromo)
  | .anonGiftPaidUpgrade x => some x
  | _ => none

/-! ### `Ritual` (src/msg/user_notice.rs), the payload of `Event::Ritual`: `none` for the other variants -/

/-- The getter `Ritual::name` (src/msg/user_notice.rs:380). -/
def Ritual.name : Event → Option (Bytes)
  | .ritual x => some x
  | _ => none

/-! ### `BitsBadgeTier` (src/msg/user_notice.rs), the payload of `Event::BitsBadgeTier`: `none` for the other variants -/

/-- The getter `BitsBadgeTier::tier` (src/msg/user_notice.rs:399). -/
def BitsBadgeTier.tier : Event → Option (Nat)
  | .bitsBadgeTier x => some x
  | _ => none

/-! ### `Announcement` (src/msg/user_notice.rs), the payload of `Event::Announcement`: `none` for the other variants -/

/-- The getter `Announcement::highlight_color` (src/msg/user_notice.rs:422). -/
def Announcement.highlightColor : Event → Option (Bytes)
  | .announcement x => some x
  | _ => none

/-! ### `SubGiftPromo` (src/msg/user_notice.rs) -/

/-- The getter `SubGiftPromo::total_gifts` (src/msg/user_notice.rs:437). -/
def SubGiftPromo.totalGifts (v : SubGiftPromo) : Nat := v.totalGifts

/-- The getter `SubGiftPromo::promo_name` (src/msg/user_notice.rs:440). -/
def SubGiftPromo.promoName (v : SubGiftPromo) : Bytes := v.promoName

/-! ### `UserState` (src/msg/user_state.rs) -/

/-- The getter `UserState::channel` (src/msg/user_state.rs:40). -/
def UserState.channel (v : UserState) : Bytes := v.channel

/-- The getter `UserState::user_name` (src/msg/user_state.rs:43). -/
def UserState.userName (v : UserState) : Bytes := v.userName

/-- The getter `UserState::badges` (src/msg/user_state.rs:46-47). -/
def UserState.badges (v : UserState) : List Badge := v.badges

/-- The getter `UserState::num_badges` (src/msg/user_state.rs:50). -/
def UserState.numBadges (v : UserState) : Nat := v.badges.length

/-- The getter `UserState::emote_sets` (src/msg/user_state.rs:53-54). -/
def UserState.emoteSets (v : UserState) : List Bytes := v.emoteSets

/-- The getter `UserState::num_emote_sets` (src/msg/user_state.rs:57). -/
def UserState.numEmoteSets (v : UserState) : Nat := v.emoteSets.length

/-- The getter `UserState::color` (src/msg/user_state.rs:64). -/
def UserState.color (v : UserState) : Option Bytes := v.color

/-! ### `Whisper` (src/msg/whisper.rs) -/

/-- The getter `Whisper::recipient` (src/msg/whisper.rs:33). -/
def Whisper.recipient (v : Whisper) : Bytes := v.recipient

/-- The getter `Whisper::sender` (src/msg/whisper.rs:36). -/
def Whisper.sender (v : Whisper) : User := v.sender

/-- The getter `Whisper::text` (src/msg/whisper.rs:39). -/
def Whisper.text (v : Whisper) : Bytes := v.text

/-- The getter `Whisper::badges` (src/msg/whisper.rs:42-43). -/
def Whisper.badges (v : Whisper) : List Badge := v.badges

/-- The getter `Whisper::num_badges` (src/msg/whisper.rs:46). -/
def Whisper.numBadges (v : Whisper) : Nat := v.badges.length

/-- The getter `Whisper::raw_emotes` (src/msg/whisper.rs:53). -/
def Whisper.rawEmotes (v : Whisper) : Bytes := v.emotes

/-- The getter `Whisper::color` (src/msg/whisper.rs:60). -/
def Whisper.color (v : Whisper) : Option Bytes := v.color

end Tmi.Model.Getter
