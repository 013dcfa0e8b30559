/-
The other end: what the server has to say, as records, and the line in which it says it.
https://dev.twitch.tv/docs/chat/irc (PRIVMSG, CLEARCHAT, CLEARMSG, JOIN, PART)
-/
import Verif.Spec.Chatter
import Verif.Spec.Getters

namespace Tmi.Spec
open Tmi.Model

/-- `name/value,name/value`. -/
def renderEntries (es : List (Bytes × Bytes)) : Bytes := joinWith COMMA (es.map fun e => e.1 ++ SLASH :: e.2)

/-- Tags, some of which may be missing. -/
def presentTags (rows : List (Bytes × Option Bytes)) : List (Bytes × Bytes) :=
  rows.filterMap fun r => r.2.map fun v => (r.1, v)

/-- An identifier or another value that needs no escaping. -/
def Unescaped (s : Bytes) : Prop := SP ∉ s ∧ SEMI ∉ s

/-- A login name. -/
def Login (s : Bytes) : Prop := Unescaped s ∧ BANG ∉ s ∧ AT ∉ s

/-- The message that a chat message replies to. -/
structure Quoted where
  /-- its id -/
  id : Bytes
  /-- the id of its author -/
  userId : Bytes
  /-- the login name of its author -/
  login : Bytes
  /-- the display name of its author -/
  name : List Char
  /-- its text -/
  text : List Char
  /-- the id of the message that the thread began with -/
  threadId : Bytes
  /-- the login name of its author -/
  threadLogin : Bytes

/-- A chat message. -/
structure Chat where
  /-- the channel, without `#` -/
  channel : Bytes
  channelId : Bytes
  /-- its id -/
  id : Bytes
  /-- the id, login name and display name of its author -/
  userId : Bytes
  login : Bytes
  name : List Char
  text : Bytes
  /-- was it written with `/me`? -/
  action : Bool
  /-- names and versions of the author's badges, and more about some of them -/
  badges : List (Bytes × Bytes)
  badgeInfo : List (Bytes × Bytes)
  color : Option Bytes
  bits : Option Nat
  msgId : Option Bytes
  rewardId : Option Bytes
  emotes : Bytes
  /-- milliseconds since 1970 -/
  time : Nat
  reply : Option Quoted

/-- The tags of a chat message. -/
def Chat.tags (c : Chat) : List (Bytes × Bytes) := presentTags [
  (b!"badge-info", some (renderEntries c.badgeInfo)),
  (b!"badges", some (renderEntries c.badges)),
  (b!"bits", c.bits.map showNat),
  (b!"color", some (c.color.getD [])),
  (b!"custom-reward-id", c.rewardId),
  (b!"display-name", some (enc (escape c.name))),
  (b!"emotes", some c.emotes),
  (b!"id", some c.id),
  (b!"msg-id", c.msgId),
  (b!"reply-parent-display-name", c.reply.map fun q => enc (escape q.name)),
  (b!"reply-parent-msg-body", c.reply.map fun q => enc (escape q.text)),
  (b!"reply-parent-msg-id", c.reply.map (·.id)),
  (b!"reply-parent-user-id", c.reply.map (·.userId)),
  (b!"reply-parent-user-login", c.reply.map (·.login)),
  (b!"reply-thread-parent-msg-id", c.reply.map (·.threadId)),
  (b!"reply-thread-parent-user-login", c.reply.map (·.threadLogin)),
  (b!"room-id", some c.channelId),
  (b!"tmi-sent-ts", some (showNat c.time)),
  (b!"user-id", some c.userId)]

/-- The line in which the server sends a chat message. -/
def Chat.line (c : Chat) : Bytes :=
  Frame.line ⟨c.tags, c.login ++ [BANG] ++ c.login ++ [AT] ++ c.login ++ b!".tmi.twitch.tv", b!"PRIVMSG", HASH :: c.channel⟩
    (if c.action then 0x01 :: b!"ACTION " ++ c.text ++ [0x01] else c.text)

/-- Chat messages that there can be: what is not escaped needs no escaping. -/
structure Chat.Ok (c : Chat) : Prop where
  channel : SP ∉ c.channel
  ids : ∀ s ∈ [c.channelId, c.id, c.userId, c.emotes], Unescaped s
  login : Login c.login
  /-- a text that is not an action does not look like one -/
  text : c.action = false → ¬ ∃ body, c.text = 0x01 :: b!"ACTION " ++ body ++ [0x01]
  badges : ∀ e ∈ c.badges ++ c.badgeInfo, Unescaped e.1 ∧ Unescaped e.2 ∧ COMMA ∉ e.1 ∧ SLASH ∉ e.1 ∧ COMMA ∉ e.2
  color : ∀ s, c.color = some s → Unescaped s ∧ s ≠ []
  bits : ∀ n, c.bits = some n → n < 2 ^ 64
  msgId : ∀ s, c.msgId = some s → Unescaped s
  rewardId : ∀ s, c.rewardId = some s → Unescaped s ∧ s ≠ []
  time : InChrono c.time
  reply : ∀ q, c.reply = some q → ∀ s ∈ [q.id, q.userId, q.login, q.threadId, q.threadLogin], Unescaped s

/-- What a program is told about the message that a chat message replies to. -/
structure QuotedRead (q : Quoted) (r : Reply) : Prop where
  messageId : Getter.Reply.messageId r = q.id
  senderId : Getter.User.id (Getter.Reply.sender r) = q.userId
  senderLogin : Getter.User.login (Getter.Reply.sender r) = q.login
  senderName : Recoverable q.name → Getter.User.name (Getter.Reply.sender r) = .ok (enc q.name)
  text : Recoverable q.text → Getter.Reply.text r = .ok (enc q.text)
  threadParentMessageId : Getter.Reply.threadParentMessageId r = q.threadId
  threadParentUserLogin : Getter.Reply.threadParentUserLogin r = q.threadLogin

/-- What a program is told about a chat message. -/
structure ChatRead (c : Chat) (p : Privmsg) : Prop where
  channel : Getter.Privmsg.channel p = HASH :: c.channel
  channelId : Getter.Privmsg.channelId p = c.channelId
  id : Getter.Privmsg.id p = c.id
  senderId : Getter.User.id (Getter.Privmsg.sender p) = c.userId
  senderLogin : Getter.User.login (Getter.Privmsg.sender p) = c.login
  senderName : Recoverable c.name → Getter.User.name (Getter.Privmsg.sender p) = .ok (enc c.name)
  text : Getter.Privmsg.text p = c.text
  isAction : Getter.Privmsg.isAction p = c.action
  numBadges : Getter.Privmsg.numBadges p = c.badges.length
  badges : ∀ (k : Nat) name version, c.badges[k]? = some (name, version) →
    ∃ x, (Getter.Privmsg.badges p)[k]? = some x ∧ BadgeGives name version (lookup name c.badgeInfo) x
  color : Getter.Privmsg.color p = c.color
  bits : Getter.Privmsg.bits p = c.bits
  msgId : Getter.Privmsg.msgId p = c.msgId
  customRewardId : Getter.Privmsg.customRewardId p = c.rewardId
  rawEmotes : Getter.Privmsg.rawEmotes p = c.emotes
  timestamp : AtMilli (Getter.Privmsg.timestamp p) c.time
  noReply : c.reply = none → Getter.Privmsg.replyTo p = none
  reply : ∀ q, c.reply = some q → ∃ r, Getter.Privmsg.replyTo p = some r ∧ QuotedRead q r
  pinnedChat : Getter.Privmsg.pinnedChat p = none

/-! ## Everything that happens in a channel -/

/-- Where and when something happened. -/
structure Place where
  /-- the channel, without `#` -/
  channel : Bytes
  channelId : Bytes
  /-- milliseconds since 1970 -/
  time : Nat

/-- What the server tells the members of a channel. -/
inductive Said where
  /-- somebody wrote a message -/
  | chat (c : Chat)
  /-- the chat was cleared -/
  | cleared (p : Place)
  /-- a user (login name, id) was banned -/
  | banned (p : Place) (user userId : Bytes)
  /-- a user was timed out -/
  | timedOut (p : Place) (user userId : Bytes) (seconds : Nat)
  /-- the message with this id, author and text was deleted -/
  | deleted (p : Place) (author id text : Bytes) (action : Bool)
  /-- a user joined a channel -/
  | joined (login channel : Bytes)
  /-- a user left a channel -/
  | parted (login channel : Bytes)

/-- The prefix of a user. -/
def userPrefix (login : Bytes) : Bytes := login ++ [BANG] ++ login ++ [AT] ++ login ++ b!".tmi.twitch.tv"

/-- A text as it is on the line. -/
def actionText (action : Bool) (text : Bytes) : Bytes :=
  if action then 0x01 :: b!"ACTION " ++ text ++ [0x01] else text

/-- The tags of what the server says. -/
def Said.tags : Said → List (Bytes × Bytes)
  | .chat c => c.tags
  | .cleared p => [(b!"room-id", p.channelId), (b!"tmi-sent-ts", showNat p.time)]
  | .banned p _ userId =>
    [(b!"room-id", p.channelId), (b!"target-user-id", userId), (b!"tmi-sent-ts", showNat p.time)]
  | .timedOut p _ userId n =>
    [(b!"ban-duration", showNat n), (b!"room-id", p.channelId), (b!"target-user-id", userId),
     (b!"tmi-sent-ts", showNat p.time)]
  | .deleted p author id _ _ =>
    [(b!"login", author), (b!"room-id", p.channelId), (b!"target-msg-id", id), (b!"tmi-sent-ts", showNat p.time)]
  | .joined _ _ => []
  | .parted _ _ => []

/-- The line in which the server says it. -/
def Said.line : Said → Bytes
  | .chat c => c.line
  | .cleared p => [AT] ++ renderTags (Said.tags (.cleared p)) ++ b!" :tmi.twitch.tv CLEARCHAT #" ++ p.channel
  | .banned p user userId =>
    [AT] ++ renderTags (Said.tags (.banned p user userId)) ++ b!" :tmi.twitch.tv CLEARCHAT #" ++ p.channel ++ b!" :" ++ user
  | .timedOut p user userId n =>
    [AT] ++ renderTags (Said.tags (.timedOut p user userId n)) ++ b!" :tmi.twitch.tv CLEARCHAT #" ++ p.channel ++
      b!" :" ++ user
  | .deleted p author id text action =>
    [AT] ++ renderTags (Said.tags (.deleted p author id text action)) ++ b!" :tmi.twitch.tv CLEARMSG #" ++ p.channel ++
      b!" :" ++ actionText action text
  | .joined login channel => [COLON] ++ userPrefix login ++ b!" JOIN #" ++ channel
  | .parted login channel => [COLON] ++ userPrefix login ++ b!" PART #" ++ channel

structure Place.Ok (p : Place) : Prop where
  channel : SP ∉ p.channel
  channelId : Unescaped p.channelId
  time : InChrono p.time

/-- What there can be to say: what is not escaped needs no escaping. -/
def Said.Ok : Said → Prop
  | .chat c => c.Ok
  | .cleared p => p.Ok
  | .banned p _ userId => p.Ok ∧ Unescaped userId
  | .timedOut p _ userId n => p.Ok ∧ Unescaped userId ∧ n < 2 ^ 64
  | .deleted p author id text action => p.Ok ∧ Unescaped author ∧ Unescaped id ∧
    (action = false → ¬ ∃ body, text = 0x01 :: b!"ACTION " ++ body ++ [0x01])
  | .joined login channel => Login login ∧ SP ∉ channel
  | .parted login channel => Login login ∧ SP ∉ channel

/-- What a program is told about where and when. -/
def PlaceRead (p : Place) (channel channelId : Bytes) (time : Timestamp) : Prop :=
  channel = HASH :: p.channel ∧ channelId = p.channelId ∧ AtMilli time p.time

/-- What a program is told. -/
def Heard : Said → Message → Prop
  | .chat c, m => ∃ p, m = .privmsg p ∧ ChatRead c p
  | .cleared p, m => ∃ v, m = .clearChat v ∧
    PlaceRead p (Getter.ClearChat.channel v) (Getter.ClearChat.channelId v) (Getter.ClearChat.timestamp v) ∧
    Getter.ClearChat.action v = .clear
  | .banned p user userId, m => ∃ v, m = .clearChat v ∧
    PlaceRead p (Getter.ClearChat.channel v) (Getter.ClearChat.channelId v) (Getter.ClearChat.timestamp v) ∧
    Getter.ClearChat.action v = .ban user userId
  | .timedOut p user userId n, m => ∃ v, m = .clearChat v ∧
    PlaceRead p (Getter.ClearChat.channel v) (Getter.ClearChat.channelId v) (Getter.ClearChat.timestamp v) ∧
    Getter.ClearChat.action v = .timeOut user userId (n * 1000000000)
  | .deleted p author id text action, m => ∃ v, m = .clearMsg v ∧
    PlaceRead p (Getter.ClearMsg.channel v) (Getter.ClearMsg.channelId v) (Getter.ClearMsg.timestamp v) ∧
    Getter.ClearMsg.sender v = author ∧ Getter.ClearMsg.targetMessageId v = id ∧ Getter.ClearMsg.text v = text ∧
    Getter.ClearMsg.isAction v = action
  | .joined login channel, m => ∃ v, m = .join v ∧ Getter.Join.user v = login ∧ Getter.Join.channel v = HASH :: channel
  | .parted login channel, m => ∃ v, m = .part v ∧ Getter.Part.user v = login ∧ Getter.Part.channel v = HASH :: channel

end Tmi.Spec
