/-
What the server has to say about subscriptions, raids, gifts and the like, about whispers, about the settings of a
channel and about the user itself, as records, and the line in which it says it.
https://dev.twitch.tv/docs/chat/irc (USERNOTICE, WHISPER, ROOMSTATE, USERSTATE, GLOBALUSERSTATE, NOTICE)
-/
import Verif.Spec.Serve

namespace Tmi.Spec
open Tmi.Model

/-- A user: id, login name and display name. -/
structure Person where
  id : Bytes
  login : Bytes
  name : List Char

/-- How a user appears in chat: names and versions of the badges, more about some of them, and the colour. -/
structure Looks where
  badges : List (Bytes × Bytes)
  badgeInfo : List (Bytes × Bytes)
  color : Option Bytes

/-- What can happen in a channel. -/
inductive Deed where
  /-- somebody subscribed, for the first time or again -/
  | subscribed (again : Bool) (months : Nat) (streak : Option Nat) (plan : Bytes) (planName : List Char)
  /-- another channel came to visit, with so many viewers -/
  | raided (viewers : Nat) (image : Bytes)
  /-- somebody gave a subscription of `length` months to `to`, who has now subscribed for `months` months -/
  | gifted (anonymous : Bool) (months : Nat) (to : Person) (plan : Bytes) (planName : List Char) (length : Nat)
  /-- somebody gave `count` subscriptions to the channel, `total` in all -/
  | giftedMany (anonymous : Bool) (count total : Nat) (plan : Bytes)
  /-- somebody goes on with the subscription that the user with this login and display name gave them -/
  | upgraded (login name : Bytes) (promo : Option (Nat × Bytes))
  /-- somebody goes on with the subscription that an anonymous user gave them -/
  | upgradedAnonymous (promo : Option (Nat × Bytes))
  /-- a ritual, such as a first message -/
  | ritual (name : Bytes)
  /-- somebody got a bits badge -/
  | earned (tier : Nat)
  /-- a moderator announced something -/
  | announced (color : Option Bytes)

/-- Something that happened in a channel. -/
structure Happening where
  place : Place
  /-- the id of the message -/
  id : Bytes
  /-- who did it -/
  who : Person
  looks : Looks
  emotes : Bytes
  /-- what that user wrote -/
  text : Option Bytes
  /-- what the server wrote -/
  system : List Char
  deed : Deed

/-- The id of the event. -/
def Deed.msgId : Deed → Bytes
  | .subscribed again .. => if again then b!"resub" else b!"sub"
  | .raided .. => b!"raid"
  | .gifted anonymous .. => if anonymous then b!"anonsubgift" else b!"subgift"
  | .giftedMany anonymous .. => if anonymous then b!"anonsubmysterygift" else b!"submysterygift"
  | .upgraded .. => b!"giftpaidupgrade"
  | .upgradedAnonymous .. => b!"anongiftpaidupgrade"
  | .ritual .. => b!"ritual"
  | .earned .. => b!"bitsbadgetier"
  | .announced .. => b!"announcement"

/-- The tags that only this event has. -/
def Deed.rows : Deed → List (Bytes × Option Bytes)
  | .subscribed _ months streak plan planName =>
    [(b!"msg-param-cumulative-months", some (showNat months)),
     (b!"msg-param-streak-months", some (showNat (streak.getD 0))),
     (b!"msg-param-sub-plan", some plan),
     (b!"msg-param-sub-plan-name", some (enc (escape planName)))]
  | .raided viewers image =>
    [(b!"msg-param-profileImageURL", some image),
     (b!"msg-param-viewerCount", some (showNat viewers))]
  | .gifted _ months to plan planName length =>
    [(b!"msg-param-gift-months", some (showNat length)),
     (b!"msg-param-months", some (showNat months)),
     (b!"msg-param-recipient-display-name", some (enc (escape to.name))),
     (b!"msg-param-recipient-id", some to.id),
     (b!"msg-param-recipient-user-name", some to.login),
     (b!"msg-param-sub-plan", some plan),
     (b!"msg-param-sub-plan-name", some (enc (escape planName)))]
  | .giftedMany _ count total plan =>
    [(b!"msg-param-mass-gift-count", some (showNat count)),
     (b!"msg-param-sender-count", some (showNat total)),
     (b!"msg-param-sub-plan", some plan)]
  | .upgraded login name promo =>
    [(b!"msg-param-promo-gift-total", promo.map fun p => showNat p.1),
     (b!"msg-param-promo-name", promo.map fun p => p.2),
     (b!"msg-param-sender-login", some login),
     (b!"msg-param-sender-name", some name)]
  | .upgradedAnonymous promo =>
    [(b!"msg-param-promo-gift-total", promo.map fun p => showNat p.1),
     (b!"msg-param-promo-name", promo.map fun p => p.2)]
  | .ritual name => [(b!"msg-param-ritual-name", some name)]
  | .earned tier => [(b!"msg-param-threshold", some (showNat tier))]
  | .announced color => [(b!"msg-param-color", color)]

/-- The tags of a happening. -/
def Happening.tags (h : Happening) : List (Bytes × Bytes) := presentTags ([
  (b!"badge-info", some (renderEntries h.looks.badgeInfo)),
  (b!"badges", some (renderEntries h.looks.badges)),
  (b!"color", some (h.looks.color.getD [])),
  (b!"display-name", some (enc (escape h.who.name))),
  (b!"emotes", some h.emotes),
  (b!"id", some h.id),
  (b!"login", some h.who.login),
  (b!"msg-id", some h.deed.msgId),
  (b!"room-id", some h.place.channelId),
  (b!"system-msg", some (enc (escape h.system))),
  (b!"tmi-sent-ts", some (showNat h.place.time)),
  (b!"user-id", some h.who.id)] ++ h.deed.rows)

/-- The line in which the server reports it. -/
def Happening.line (h : Happening) : Bytes :=
  [AT] ++ renderTags h.tags ++ b!" :tmi.twitch.tv USERNOTICE #" ++ h.place.channel ++
    (match h.text with | some t => b!" :" ++ t | none => [])

/-- Who may write in a channel. -/
inductive Followers where
  /-- everybody may write -/
  | off
  /-- followers may write -/
  | any
  /-- those may write who have followed for this many minutes -/
  | minutes (n : Nat)

/-- Some of the settings of a channel. -/
structure Settings where
  /-- the channel, without `#` -/
  channel : Bytes
  channelId : Bytes
  emoteOnly : Option Bool
  followers : Option Followers
  unique : Option Bool
  /-- seconds between messages -/
  slow : Option Nat
  subsOnly : Option Bool

/-- What the server says otherwise. -/
inductive Notified where
  /-- something happened -/
  | happened (h : Happening)
  /-- a user wrote to the login name `to` -/
  | whispered (who : Person) (looks : Looks) (emotes : Bytes) (to : Bytes) (text : Bytes)
  /-- the settings of a channel, or the one that was changed -/
  | settings (s : Settings)
  /-- how the user appears in a channel, and the emote sets that it may use -/
  | seenAs (channel : Bytes) (name : Bytes) (looks : Looks) (sets : List Bytes)
  /-- the user after the login -/
  | loggedIn (id : Bytes) (name : List Char) (looks : Looks) (sets : List Bytes)
  /-- a notice about a channel -/
  | noticed (channel id text : Bytes)
  /-- a notice before the login -/
  | refused (text : Bytes)

/-- A setting that is on or off. -/
def onOff (b : Bool) : Bytes := if b then b!"1" else b!"0"

def Followers.shown : Followers → Bytes
  | .off => b!"-1"
  | .any => b!"0"
  | .minutes n => showNat n

/-- The tags of it, some of which may be missing. -/
def Notified.rows : Notified → List (Bytes × Option Bytes)
  | .happened _ => []
  | .whispered who looks emotes _ _ =>
    [(b!"badge-info", some (renderEntries looks.badgeInfo)),
     (b!"badges", some (renderEntries looks.badges)),
     (b!"color", some (looks.color.getD [])),
     (b!"display-name", some (enc (escape who.name))),
     (b!"emotes", some emotes),
     (b!"user-id", some who.id)]
  | .settings s =>
    [(b!"emote-only", s.emoteOnly.map onOff),
     (b!"followers-only", s.followers.map (·.shown)),
     (b!"r9k", s.unique.map onOff),
     (b!"room-id", some s.channelId),
     (b!"slow", s.slow.map showNat),
     (b!"subs-only", s.subsOnly.map onOff)]
  | .seenAs _ name looks sets =>
    [(b!"badge-info", some (renderEntries looks.badgeInfo)),
     (b!"badges", some (renderEntries looks.badges)),
     (b!"color", some (looks.color.getD [])),
     (b!"display-name", some name),
     (b!"emote-sets", some (joinWith COMMA sets))]
  | .loggedIn id name looks sets =>
    [(b!"badge-info", some (renderEntries looks.badgeInfo)),
     (b!"badges", some (renderEntries looks.badges)),
     (b!"color", some (looks.color.getD [])),
     (b!"display-name", some (enc (escape name))),
     (b!"emote-sets", some (joinWith COMMA sets)),
     (b!"user-id", some id)]
  | .noticed _ id _ => [(b!"msg-id", some id)]
  | .refused _ => []

/-- The line in which the server says it. -/
def Notified.line (s : Notified) : Bytes :=
  match s with
  | .happened h => h.line
  | .whispered who _ _ to text =>
    [AT] ++ renderTags (presentTags s.rows) ++ b!" :" ++ userPrefix who.login ++ b!" WHISPER " ++ to ++ b!" :" ++ text
  | .settings x => [AT] ++ renderTags (presentTags s.rows) ++ b!" :tmi.twitch.tv ROOMSTATE #" ++ x.channel
  | .seenAs channel _ _ _ => [AT] ++ renderTags (presentTags s.rows) ++ b!" :tmi.twitch.tv USERSTATE #" ++ channel
  | .loggedIn _ _ _ _ => [AT] ++ renderTags (presentTags s.rows) ++ b!" :tmi.twitch.tv GLOBALUSERSTATE"
  | .noticed channel _ text =>
    [AT] ++ renderTags (presentTags s.rows) ++ b!" :tmi.twitch.tv NOTICE #" ++ channel ++ b!" :" ++ text
  | .refused text => b!":tmi.twitch.tv NOTICE * :" ++ text

/-! ## What there can be to say: what is not escaped needs no escaping -/

def Person.Ok (p : Person) : Prop := Unescaped p.id ∧ Unescaped p.login

structure Looks.Ok (k : Looks) : Prop where
  badges : ∀ e ∈ k.badges ++ k.badgeInfo, Unescaped e.1 ∧ Unescaped e.2 ∧ COMMA ∉ e.1 ∧ SLASH ∉ e.1 ∧ COMMA ∉ e.2
  color : ∀ s, k.color = some s → Unescaped s ∧ s ≠ []

def PromoOk (promo : Option (Nat × Bytes)) : Prop := ∀ n s, promo = some (n, s) → n < 2 ^ 64 ∧ Unescaped s

def Deed.Ok : Deed → Prop
  | .subscribed _ months streak plan _ => months < 2 ^ 64 ∧ (∀ n, streak = some n → 0 < n ∧ n < 2 ^ 64) ∧ Unescaped plan
  | .raided viewers image => viewers < 2 ^ 64 ∧ Unescaped image
  | .gifted _ months to plan _ length => months < 2 ^ 64 ∧ to.Ok ∧ Unescaped plan ∧ length < 2 ^ 64
  | .giftedMany _ count total plan => count < 2 ^ 64 ∧ total < 2 ^ 64 ∧ Unescaped plan
  | .upgraded login name promo => Unescaped login ∧ Unescaped name ∧ PromoOk promo
  | .upgradedAnonymous promo => PromoOk promo
  | .ritual name => Unescaped name
  | .earned tier => tier < 2 ^ 64
  | .announced color => ∀ s, color = some s → Unescaped s

structure Happening.Ok (h : Happening) : Prop where
  place : h.place.Ok
  id : Unescaped h.id
  who : h.who.Ok
  looks : h.looks.Ok
  emotes : Unescaped h.emotes
  deed : h.deed.Ok

structure Settings.Ok (s : Settings) : Prop where
  channel : SP ∉ s.channel
  channelId : Unescaped s.channelId
  /-- 292 billion years -/
  followers : ∀ n, s.followers = some (.minutes n) → 0 < n ∧ n ≤ 153722867280912930
  slow : ∀ n, s.slow = some n → n < 2 ^ 64

/-- There is at least one emote set, the one that everybody may use. -/
def SetsOk (sets : List Bytes) : Prop := sets ≠ [] ∧ ∀ s ∈ sets, Unescaped s ∧ COMMA ∉ s

def Notified.Ok : Notified → Prop
  | .happened h => h.Ok
  | .whispered who looks emotes to _ => who.Ok ∧ Login who.login ∧ looks.Ok ∧ Unescaped emotes ∧ SP ∉ to ∧
    to.head? ≠ some HASH
  | .settings s => s.Ok
  | .seenAs channel name looks sets => SP ∉ channel ∧ Unescaped name ∧ looks.Ok ∧ SetsOk sets
  | .loggedIn id _ looks sets => Unescaped id ∧ looks.Ok ∧ SetsOk sets
  | .noticed channel id _ => SP ∉ channel ∧ Unescaped id
  | .refused _ => True

/-! ## What a program is told -/

def PersonRead (p : Person) (u : User) : Prop :=
  Getter.User.id u = p.id ∧ Getter.User.login u = p.login ∧ (Recoverable p.name → Getter.User.name u = .ok (enc p.name))

structure LooksRead (k : Looks) (badges : List Badge) (num : Nat) (color : Option Bytes) : Prop where
  num : num = k.badges.length
  badges : ∀ (i : Nat) name version, k.badges[i]? = some (name, version) →
    ∃ x, badges[i]? = some x ∧ BadgeGives name version (lookup name k.badgeInfo) x
  color : color = k.color

/-- A promotion. -/
def PromoRead (promo : Option (Nat × Bytes)) (r : Option (Option SubGiftPromo)) : Prop :=
  match promo with
  | none => r = some none
  | some (n, s) => ∃ p, r = some (some p) ∧ Getter.SubGiftPromo.totalGifts p = n ∧ Getter.SubGiftPromo.promoName p = s

/-- Gifts of the user with this id are anonymous. -/
def Deed.hides (who : Bytes) : Deed → Bool
  | .gifted anonymous .. => anonymous || who == anonymousGifterId
  | .giftedMany anonymous .. => anonymous || who == anonymousGifterId
  | .upgradedAnonymous _ => true
  | _ => false

/-- The kind of event, and all its getters. -/
def DeedRead (who : Bytes) (d : Deed) (e : Event) : Prop :=
  match d with
  | .subscribed again months streak plan planName =>
    Getter.SubOrResub.isResub e = some again ∧ Getter.SubOrResub.cumulativeMonths e = some months ∧
    Getter.SubOrResub.streakMonths e = some streak ∧ Getter.SubOrResub.subPlan e = some plan ∧
    (Recoverable planName → Getter.SubOrResub.subPlanName e = some (.ok (enc planName)))
  | .raided viewers image =>
    Getter.Raid.viewerCount e = some viewers ∧ Getter.Raid.profileImageUrl e = some image
  | .gifted _ months to plan planName length =>
    Getter.SubGift.cumulativeMonths e = some months ∧
    (∃ u, Getter.SubGift.recipient e = some u ∧ PersonRead to u) ∧
    Getter.SubGift.subPlan e = some plan ∧
    (Recoverable planName → Getter.SubGift.subPlanName e = some (.ok (enc planName))) ∧
    Getter.SubGift.numGiftedMonths e = some length
  | .giftedMany _ count total plan =>
    if d.hides who then Getter.AnonSubMysteryGift.count e = some count ∧ Getter.AnonSubMysteryGift.subPlan e = some plan
    else Getter.SubMysteryGift.count e = some count ∧ Getter.SubMysteryGift.senderTotalGifts e = some total ∧
      Getter.SubMysteryGift.subPlan e = some plan
  | .upgraded login name promo =>
    Getter.GiftPaidUpgrade.gifterLogin e = some login ∧ Getter.GiftPaidUpgrade.gifterName e = some name ∧
    PromoRead promo (Getter.GiftPaidUpgrade.promotion e)
  | .upgradedAnonymous promo => PromoRead promo (Getter.AnonGiftPaidUpgrade.promotion e)
  | .ritual name => Getter.Ritual.name e = some name
  | .earned tier => Getter.BitsBadgeTier.tier e = some tier
  | .announced color => Getter.Announcement.highlightColor e = some (color.getD (b!"PRIMARY"))

structure HappeningRead (h : Happening) (v : UserNotice) : Prop where
  place : PlaceRead h.place (Getter.UserNotice.channel v) (Getter.UserNotice.channelId v) (Getter.UserNotice.timestamp v)
  id : Getter.UserNotice.messageId v = h.id
  anonymous : h.deed.hides h.who.id = true → Getter.UserNotice.sender v = none
  who : h.deed.hides h.who.id = false → ∃ u, Getter.UserNotice.sender v = some u ∧ PersonRead h.who u
  looks : LooksRead h.looks (Getter.UserNotice.badges v) (Getter.UserNotice.numBadges v) (Getter.UserNotice.color v)
  emotes : Getter.UserNotice.rawEmotes v = h.emotes
  text : Getter.UserNotice.text v = h.text
  system : Recoverable h.system →
    Getter.UserNotice.systemMessage v = .ok (if h.system = [] then none else some (enc h.system))
  eventId : Getter.UserNotice.eventId v = h.deed.msgId
  deed : DeedRead h.who.id h.deed (Getter.UserNotice.event v)

/-- What a program is told about who may write. -/
def Followers.read : Followers → FollowersOnly
  | .off => .disabled
  | .any => .enabled none
  | .minutes n => .enabled (some (n * 60 * 1000000000))

structure SettingsRead (s : Settings) (v : RoomState) : Prop where
  channel : Getter.RoomState.channel v = HASH :: s.channel
  channelId : Getter.RoomState.channelId v = s.channelId
  emoteOnly : Getter.RoomState.emoteOnly v = s.emoteOnly
  followers : Getter.RoomState.followersOnly v = s.followers.map (·.read)
  unique : Getter.RoomState.r9k v = s.unique
  slow : Getter.RoomState.slow v = s.slow.map (· * 1000000000)
  subsOnly : Getter.RoomState.subsOnly v = s.subsOnly

/-- What a program is told. -/
def Learned : Notified → Message → Prop
  | .happened h, m => ∃ v, m = .userNotice v ∧ HappeningRead h v
  | .whispered who looks emotes to text, m => ∃ v, m = .whisper v ∧
    PersonRead who (Getter.Whisper.sender v) ∧
    LooksRead looks (Getter.Whisper.badges v) (Getter.Whisper.numBadges v) (Getter.Whisper.color v) ∧
    Getter.Whisper.rawEmotes v = emotes ∧ Getter.Whisper.recipient v = to ∧ Getter.Whisper.text v = text
  | .settings s, m => ∃ v, m = .roomState v ∧ SettingsRead s v
  | .seenAs channel name looks sets, m => ∃ v, m = .userState v ∧
    Getter.UserState.channel v = HASH :: channel ∧ Getter.UserState.userName v = name ∧
    LooksRead looks (Getter.UserState.badges v) (Getter.UserState.numBadges v) (Getter.UserState.color v) ∧
    Getter.UserState.emoteSets v = sets ∧ Getter.UserState.numEmoteSets v = sets.length
  | .loggedIn id name looks sets, m => ∃ v, m = .globalUserState v ∧
    Getter.GlobalUserState.id v = id ∧ (Recoverable name → Getter.GlobalUserState.name v = .ok (enc name)) ∧
    LooksRead looks (Getter.GlobalUserState.badges v) (Getter.GlobalUserState.numBadges v)
      (Getter.GlobalUserState.color v) ∧
    Getter.GlobalUserState.emoteSets v = sets ∧ Getter.GlobalUserState.numEmoteSets v = sets.length
  | .noticed channel id text, m => ∃ v, m = .notice v ∧ Getter.Notice.channel v = some (HASH :: channel) ∧
    Getter.Notice.id v = some id ∧ Getter.Notice.text v = text
  | .refused text, m => ∃ v, m = .notice v ∧ Getter.Notice.channel v = none ∧ Getter.Notice.id v = none ∧
    Getter.Notice.text v = text

/-- Anything that the server says. -/
inductive Spoken where
  | said (s : Said)
  | notified (s : Notified)

def Spoken.line : Spoken → Bytes
  | .said s => s.line
  | .notified s => s.line

def Spoken.Ok : Spoken → Prop
  | .said s => s.Ok
  | .notified s => s.Ok

def SpokenRead : Spoken → Message → Prop
  | .said s, m => Heard s m
  | .notified s, m => Learned s m

end Tmi.Spec
