/-
Specification of the typed messages: which values a line `l` (split by the line grammar) gives rise
to.  Only the record types of the messages are shared with the model.
-/
import Verif.Spec.Line
import Verif.Spec.Num
import Verif.Model.Msg

namespace Tmi.Spec
open Tmi.Model (Badge BadgeData Subscriber User Action ClearChat ClearMsg GlobalUserState Join Part
  Notice Ping Pong Reply PinnedChat PinnedChatLevel Privmsg FollowersOnly RoomState UserState Whisper
  SubGiftPromo Event UserNotice Timestamp)

/-! ### Parts of a line -/

/-- Value of the first tag with the given name. -/
def Line.tag (l : Line) (name : Bytes) : Option Bytes := lookup name l.tags

/-- The nick in the prefix. -/
def Line.nick (l : Line) : Option Bytes := l.prefix?.bind nickOf

/-- The text. -/
def Line.text (l : Line) : Option Bytes := l.params.map textOf

/-! ### Reading one value -/

/-- `r` is the number (below 2^64) that an optional string denotes. -/
def OptU64 (o : Option Bytes) (r : Option Nat) : Prop :=
  ∀ n, r = some n ↔ ∃ v, o = some v ∧ IsNat v n ∧ n < 2 ^ 64

/-- `r` is the duration in nanoseconds of the seconds that an optional string denotes. -/
def OptSecs (o : Option Bytes) (r : Option Nat) : Prop :=
  ∀ d, r = some d ↔ ∃ v n, o = some v ∧ IsNat v n ∧ n < 2 ^ 64 ∧ d = n * 1000000000

/-- A string denotes the number `n`, which fits an `i64`. -/
def I64 (v : Bytes) (n : Int) : Prop := IsInt v n ∧ -2 ^ 63 ≤ n ∧ n < 2 ^ 63

/-- A string is a number from 1 to 255. -/
def IsTrue (v : Bytes) : Prop := ∃ n, IsNat v n ∧ 1 ≤ n ∧ n ≤ 255

/-- `r` is the boolean in an optional string. -/
def OptBool (o : Option Bytes) (r : Option Bool) : Prop :=
  ∀ b, r = some b ↔ ∃ v, o = some v ∧ (b = true ↔ IsTrue v)

/-- `r` is the optional string, if not empty. -/
def OptText (o r : Option Bytes) : Prop := ∀ c, r = some c ↔ o = some c ∧ c ≠ []

/-- The timestamp `t` of a line: a number of milliseconds within the range of representable dates, the
years -262143 to 262142. -/
def TimestampOf (l : Line) (t : Timestamp) : Prop :=
  ∃ v ms, l.tag (b!"tmi-sent-ts") = some v ∧ IsInt v ms ∧ InChrono ms ∧ AtMilli t ms

/-- `input` is `/me text` (then `isAction`), or just `text`. -/
def TextOf (input text : Bytes) (isAction : Bool) : Prop :=
  (isAction = true ∧ input = 0x01 :: b!"ACTION " ++ text ++ [0x01]) ∨
  (isAction = false ∧ text = input ∧ ¬ ∃ body, input = 0x01 :: b!"ACTION " ++ body ++ [0x01])

/-- The fields of a string separated by `x`. -/
def fields (x : UInt8) (s : Bytes) : List Bytes :=
  match _h : cut x s with
  | none => [s]
  | some (a, b) => a :: fields x b
termination_by s.length
decreasing_by exact cut_length _h

/-- Put a separator between strings. -/
def joinWith (x : UInt8) : List Bytes → Bytes
  | [] => []
  | [p] => p
  | p :: ps => p ++ x :: joinWith x ps

/-! ### Badges -/

/-- The `name/value` entries of a comma-separated list; entries without `/` are skipped. -/
def entries (s : Bytes) : List (Bytes × Bytes) := (fields COMMA s).filterMap (cut SLASH)

/-- `m` is the number of months in an optional badge-info value: the number, or 1. -/
def MonthsOf (extra : Option Bytes) (m : Nat) : Prop :=
  (∃ e, extra = some e ∧ IsNat e m ∧ m < 2 ^ 64) ∨
  (m = 1 ∧ ¬ ∃ e k, extra = some e ∧ IsNat e k ∧ k < 2 ^ 64)

/-- `x` is the badge with the given name, version and badge-info. -/
def BadgeOf (name version : Bytes) (extra : Option Bytes) (x : Badge) : Prop :=
  if name = b!"staff" then x = .staff
  else if name = b!"turbo" then x = .turbo
  else if name = b!"broadcaster" then x = .broadcaster
  else if name = b!"moderator" then x = .moderator
  else if name = b!"subscriber" then
    ∃ m, x = .subscriber ⟨version, extra.getD (b!"1"), m⟩ ∧ MonthsOf extra m
  else x = .other ⟨name, version, extra⟩

/-- `r` lists the badges of the `badges` and `badge-info` tags, in order. -/
structure BadgesOf (badges info : Option Bytes) (r : List Badge) : Prop where
  absent : badges = none ∨ info = none → r = []
  present : ∀ b i, badges = some b → info = some i →
    r.length = (entries b).length ∧
    ∀ (k : Nat) name version, (entries b)[k]? = some (name, version) →
      ∃ x, r[k]? = some x ∧ BadgeOf name version (lookup name (entries i)) x

/-! ### The messages -/

/-- CLEARCHAT -/
structure ClearChatOf (l : Line) (p : ClearChat) : Prop where
  channel : l.channel = some p.channel
  channelId : l.tag (b!"room-id") = some p.channelId
  action : match p.action with
    | .clear => l.text = none
    | .ban user id => l.text = some user ∧ l.tag (b!"target-user-id") = some id ∧
        OptSecs (l.tag (b!"ban-duration")) none
    | .timeOut user id d => l.text = some user ∧ l.tag (b!"target-user-id") = some id ∧
        OptSecs (l.tag (b!"ban-duration")) (some d)
  timestamp : TimestampOf l p.timestamp

/-- CLEARMSG -/
structure ClearMsgOf (l : Line) (p : ClearMsg) : Prop where
  channel : l.channel = some p.channel
  channelId : l.tag (b!"room-id") = some p.channelId
  sender : l.tag (b!"login") = some p.sender
  targetMessageId : l.tag (b!"target-msg-id") = some p.targetMessageId
  text : ∃ t, l.text = some t ∧ TextOf t p.text p.isAction
  timestamp : TimestampOf l p.timestamp

/-- `r` is the list of emote sets. -/
def EmoteSetsOf (l : Line) (r : List Bytes) : Prop :=
  match l.tag (b!"emote-sets") with
  | none => r = []
  | some s => r = fields COMMA s

/-- GLOBALUSERSTATE -/
structure GlobalUserStateOf (l : Line) (p : GlobalUserState) : Prop where
  id : l.tag (b!"user-id") = some p.id
  name : l.tag (b!"display-name") = some p.name
  badges : BadgesOf (l.tag (b!"badges")) (l.tag (b!"badge-info")) p.badges
  emoteSets : EmoteSetsOf l p.emoteSets
  color : OptText (l.tag (b!"color")) p.color

/-- USERSTATE -/
structure UserStateOf (l : Line) (p : UserState) : Prop where
  channel : l.channel = some p.channel
  userName : l.tag (b!"display-name") = some p.userName
  badges : BadgesOf (l.tag (b!"badges")) (l.tag (b!"badge-info")) p.badges
  emoteSets : EmoteSetsOf l p.emoteSets
  color : OptText (l.tag (b!"color")) p.color

/-- JOIN -/
structure JoinOf (l : Line) (p : Join) : Prop where
  channel : l.channel = some p.channel
  user : l.nick = some p.user

/-- PART -/
structure PartOf (l : Line) (p : Part) : Prop where
  channel : l.channel = some p.channel
  user : l.nick = some p.user

/-- NOTICE -/
structure NoticeOf (l : Line) (p : Notice) : Prop where
  channel : l.channel = p.channel
  text : l.text = some p.text
  id : l.tag (b!"msg-id") = p.id

/-- PING -/
structure PingOf (l : Line) (p : Ping) : Prop where
  nonce : l.text = p.nonce

/-- PONG -/
structure PongOf (l : Line) (p : Pong) : Prop where
  nonce : l.text = p.nonce

/-- The message a PRIVMSG replies to. -/
structure ReplyOf (l : Line) (r : Reply) : Prop where
  messageId : l.tag (b!"reply-parent-msg-id") = some r.messageId
  threadParentMessageId : l.tag (b!"reply-thread-parent-msg-id") = some r.threadParentMessageId
  threadParentUserLogin :
    l.tag (b!"reply-thread-parent-user-login") = some r.threadParentUserLogin
  senderId : l.tag (b!"reply-parent-user-id") = some r.sender.id
  senderLogin : l.tag (b!"reply-parent-user-login") = some r.sender.login
  senderName : l.tag (b!"reply-parent-display-name") = some r.sender.name
  text : l.tag (b!"reply-parent-msg-body") = some r.text

/-- The names of the levels. -/
def levelName : PinnedChatLevel → Bytes
  | .one => b!"ONE"
  | .two => b!"TWO"
  | .three => b!"THREE"
  | .four => b!"FOUR"
  | .five => b!"FIVE"
  | .six => b!"SIX"
  | .seven => b!"SEVEN"
  | .eight => b!"EIGHT"
  | .nine => b!"NINE"
  | .ten => b!"TEN"

/-- The hype chat of a PRIVMSG. -/
structure PinnedOf (l : Line) (r : PinnedChat) : Prop where
  amount : ∃ v, l.tag (b!"pinned-chat-paid-amount") = some v ∧ I64 v r.paidAmount
  currency : l.tag (b!"pinned-chat-paid-currency") = some r.paidCurrency
  exponent : ∃ v, l.tag (b!"pinned-chat-paid-exponent") = some v ∧ I64 v r.paidExponent
  level : l.tag (b!"pinned-chat-paid-level") = some (levelName r.paidLevel)
  isSystemMessage : ∃ v, l.tag (b!"pinned-chat-paid-is-system-message") = some v ∧
    (r.isSystemMessage = true ↔ IsTrue v)

/-- PRIVMSG -/
structure PrivmsgOf (l : Line) (p : Privmsg) : Prop where
  text : ∃ t, l.text = some t ∧ TextOf t p.text p.isAction
  channel : l.channel = some p.channel
  channelId : l.tag (b!"room-id") = some p.channelId
  msgId : l.tag (b!"msg-id") = p.msgId
  id : l.tag (b!"id") = some p.id
  senderId : l.tag (b!"user-id") = some p.sender.id
  senderLogin : l.nick = some p.sender.login
  senderName : l.tag (b!"display-name") = some p.sender.name
  replyTo : ∀ r, p.replyTo = some r ↔ ReplyOf l r
  pinnedChat : ∀ r, p.pinnedChat = some r ↔ PinnedOf l r
  badges : BadgesOf (l.tag (b!"badges")) (l.tag (b!"badge-info")) p.badges
  color : OptText (l.tag (b!"color")) p.color
  customRewardId : OptText (l.tag (b!"custom-reward-id")) p.customRewardId
  bits : OptU64 (l.tag (b!"bits")) p.bits
  emotes : p.emotes = (l.tag (b!"emotes")).getD []
  timestamp : TimestampOf l p.timestamp

/-- What `followers-only=v` means; `n` minutes are `60 * n` seconds, of 10^9 nanoseconds each. -/
def FollowersOf (v : Bytes) (f : FollowersOnly) : Prop :=
  ∃ n, I64 v n ∧
    ((n < 0 ∧ f = .disabled) ∨ (n = 0 ∧ f = .enabled none) ∨
      (0 < n ∧ f = .enabled (some ((n * 60).toNat * 1000000000))))

/-- The largest number of minutes that `n * 60` can represent. -/
def maxMinutes : Int := 153722867280912930

/-- The `followers-only` tag is a number of minutes whose seconds overflow an `i64`. -/
def FollowersOverflow (l : Line) : Prop :=
  ∃ v n, l.tag (b!"followers-only") = some v ∧ I64 v n ∧ maxMinutes < n

/-- ROOMSTATE -/
structure RoomStateOf (l : Line) (p : RoomState) : Prop where
  channel : l.channel = some p.channel
  channelId : l.tag (b!"room-id") = some p.channelId
  emoteOnly : OptBool (l.tag (b!"emote-only")) p.emoteOnly
  followersOnly : ∀ f, p.followersOnly = some f ↔
    ∃ v, l.tag (b!"followers-only") = some v ∧ FollowersOf v f
  r9k : OptBool (l.tag (b!"r9k")) p.r9k
  slow : OptSecs (l.tag (b!"slow")) p.slow
  subsOnly : OptBool (l.tag (b!"subs-only")) p.subsOnly

/-- WHISPER: the params are split at the first `" :"`. -/
structure WhisperOf (l : Line) (p : Whisper) : Prop where
  params : l.params = some (p.recipient ++ SP :: COLON :: p.text)
  first : ∀ a b, p.recipient ++ SP :: COLON :: p.text = a ++ SP :: COLON :: b →
    p.recipient.length ≤ a.length
  senderId : l.tag (b!"user-id") = some p.sender.id
  senderLogin : l.nick = some p.sender.login
  senderName : l.tag (b!"display-name") = some p.sender.name
  badges : BadgesOf (l.tag (b!"badges")) (l.tag (b!"badge-info")) p.badges
  emotes : p.emotes = (l.tag (b!"emotes")).getD []
  color : OptText (l.tag (b!"color")) p.color

/-- The user id Twitch uses for anonymous gifts. -/
def anonymousGifterId : Bytes := b!"274598607"

/-- Tag `name` of the line is the number `n`. -/
def Line.num (l : Line) (name : Bytes) (n : Nat) : Prop :=
  ∃ v, l.tag name = some v ∧ IsNat v n ∧ n < 2 ^ 64

/-- The promotion of a gift upgrade: both tags, or nothing. -/
def PromoOf (l : Line) (r : Option SubGiftPromo) : Prop :=
  ∀ p, r = some p ↔
    l.num (b!"msg-param-promo-gift-total") p.totalGifts ∧
    l.tag (b!"msg-param-promo-name") = some p.promoName

/-- `msg-id` values with a meaning. -/
def eventIds : List Bytes := [b!"sub", b!"resub", b!"raid", b!"subgift", b!"anonsubgift",
  b!"anonsubmysterygift", b!"submysterygift", b!"giftpaidupgrade", b!"anongiftpaidupgrade",
  b!"ritual", b!"bitsbadgetier", b!"announcement"]

/-- The event of a USERNOTICE with the given `msg-id`, and whether it is anonymous. -/
inductive EventOf (l : Line) : (msgId : Bytes) → Event → (anonymous : Bool) → Prop
  | subOrResub {id resub months streak plan planName} :
      (resub = false ∧ id = b!"sub") ∨ (resub = true ∧ id = b!"resub") →
      l.num (b!"msg-param-cumulative-months") months →
      (∀ n, streak = some n ↔ l.num (b!"msg-param-streak-months") n ∧ 0 < n) →
      l.tag (b!"msg-param-sub-plan") = some plan →
      l.tag (b!"msg-param-sub-plan-name") = some planName →
      EventOf l id (.subOrResub resub months streak plan planName) false
  | raid {viewers url} :
      l.num (b!"msg-param-viewerCount") viewers →
      l.tag (b!"msg-param-profileImageURL") = some url →
      EventOf l (b!"raid") (.raid viewers url) false
  | subGift {id months r plan planName gifted anon} :
      id = b!"subgift" ∨ id = b!"anonsubgift" →
      l.num (b!"msg-param-months") months →
      l.tag (b!"msg-param-recipient-id") = some r.id →
      l.tag (b!"msg-param-recipient-user-name") = some r.login →
      l.tag (b!"msg-param-recipient-display-name") = some r.name →
      l.tag (b!"msg-param-sub-plan") = some plan →
      l.tag (b!"msg-param-sub-plan-name") = some planName →
      l.num (b!"msg-param-gift-months") gifted →
      (anon = true ↔ id = b!"anonsubgift" ∨ l.tag (b!"user-id") = some anonymousGifterId) →
      EventOf l id (.subGift months r plan planName gifted) anon
  | anonSubMysteryGift {id count plan} :
      id = b!"anonsubmysterygift" ∨
        (id = b!"submysterygift" ∧ l.tag (b!"user-id") = some anonymousGifterId) →
      l.num (b!"msg-param-mass-gift-count") count →
      l.tag (b!"msg-param-sub-plan") = some plan →
      EventOf l id (.anonSubMysteryGift count plan) true
  | subMysteryGift {count total plan} :
      l.tag (b!"user-id") ≠ some anonymousGifterId →
      l.num (b!"msg-param-mass-gift-count") count →
      l.num (b!"msg-param-sender-count") total →
      l.tag (b!"msg-param-sub-plan") = some plan →
      EventOf l (b!"submysterygift") (.subMysteryGift count total plan) false
  | giftPaidUpgrade {login name promo} :
      l.tag (b!"msg-param-sender-login") = some login →
      l.tag (b!"msg-param-sender-name") = some name →
      PromoOf l promo →
      EventOf l (b!"giftpaidupgrade") (.giftPaidUpgrade login name promo) false
  | anonGiftPaidUpgrade {promo} :
      PromoOf l promo →
      EventOf l (b!"anongiftpaidupgrade") (.anonGiftPaidUpgrade promo) true
  | ritual {name} :
      l.tag (b!"msg-param-ritual-name") = some name →
      EventOf l (b!"ritual") (.ritual name) false
  | bitsBadgeTier {tier} :
      l.num (b!"msg-param-threshold") tier →
      EventOf l (b!"bitsbadgetier") (.bitsBadgeTier tier) false
  | announcement {color} :
      color = (l.tag (b!"msg-param-color")).getD (b!"PRIMARY") →
      EventOf l (b!"announcement") (.announcement color) false
  | unknown {id} : id ∉ eventIds → EventOf l id .unknown true

/-- USERNOTICE -/
structure UserNoticeOf (l : Line) (p : UserNotice) : Prop where
  channel : l.channel = some p.channel
  channelId : l.tag (b!"room-id") = some p.channelId
  event : ∃ anon, EventOf l p.eventId p.event anon ∧
    match p.sender with
    | none => anon = true
    | some u => anon = false ∧ l.tag (b!"user-id") = some u.id ∧ l.tag (b!"login") = some u.login ∧
        l.tag (b!"display-name") = some u.name
  text : l.text = p.text
  systemMessage : OptText (l.tag (b!"system-msg")) p.systemMessage
  eventId : l.tag (b!"msg-id") = some p.eventId
  badges : BadgesOf (l.tag (b!"badges")) (l.tag (b!"badge-info")) p.badges
  emotes : p.emotes = (l.tag (b!"emotes")).getD []
  color : OptText (l.tag (b!"color")) p.color
  messageId : l.tag (b!"id") = some p.messageId
  timestamp : TimestampOf l p.timestamp

end Tmi.Spec

namespace Tmi.Spec
open Tmi.Model (Message)

/-- The commands with a typed message. -/
def typedCommands : List Bytes := [b!"CLEARCHAT", b!"CLEARMSG", b!"GLOBALUSERSTATE", b!"JOIN",
  b!"NOTICE", b!"PART", b!"PING", b!"PONG", b!"PRIVMSG", b!"RECONNECT", b!"ROOMSTATE", b!"USERNOTICE",
  b!"USERSTATE", b!"WHISPER"]

/-- The command of a typed message. -/
def commandOfMessage : Message → Option Bytes
  | .clearChat _ => some (b!"CLEARCHAT")
  | .clearMsg _ => some (b!"CLEARMSG")
  | .globalUserState _ => some (b!"GLOBALUSERSTATE")
  | .join _ => some (b!"JOIN")
  | .notice _ => some (b!"NOTICE")
  | .part _ => some (b!"PART")
  | .ping _ => some (b!"PING")
  | .pong _ => some (b!"PONG")
  | .privmsg _ => some (b!"PRIVMSG")
  | .reconnect => some (b!"RECONNECT")
  | .roomState _ => some (b!"ROOMSTATE")
  | .userNotice _ => some (b!"USERNOTICE")
  | .userState _ => some (b!"USERSTATE")
  | .whisper _ => some (b!"WHISPER")
  | .other _ => none

/-- `M` is the typed message of a line. -/
def MessageOf (l : Line) : Message → Prop
  | .clearChat v => l.command = b!"CLEARCHAT" ∧ ClearChatOf l v
  | .clearMsg v => l.command = b!"CLEARMSG" ∧ ClearMsgOf l v
  | .globalUserState v => l.command = b!"GLOBALUSERSTATE" ∧ GlobalUserStateOf l v
  | .join v => l.command = b!"JOIN" ∧ JoinOf l v
  | .notice v => l.command = b!"NOTICE" ∧ NoticeOf l v
  | .part v => l.command = b!"PART" ∧ PartOf l v
  | .ping v => l.command = b!"PING" ∧ PingOf l v
  | .pong v => l.command = b!"PONG" ∧ PongOf l v
  | .privmsg v => l.command = b!"PRIVMSG" ∧ PrivmsgOf l v
  | .reconnect => l.command = b!"RECONNECT"
  | .roomState v => l.command = b!"ROOMSTATE" ∧ RoomStateOf l v
  | .userNotice v => l.command = b!"USERNOTICE" ∧ UserNoticeOf l v
  | .userState v => l.command = b!"USERSTATE" ∧ UserStateOf l v
  | .whisper v => l.command = b!"WHISPER" ∧ WhisperOf l v
  | .other _ => l.command ∉ typedCommands

end Tmi.Spec
