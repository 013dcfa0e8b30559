/-
Specification of how typed messages may be written in a serialised form.

Reading is more lenient than writing: fields may come in any order, unknown fields are ignored, optional fields may be
left out, a struct may be given as the sequence of its fields.  A `Form` says which values are ways to write a thing,
next to the value that serialisation writes for it.
-/
import Verif.Spec.Serde

namespace Tmi.Spec
open Model

/-- `F v c`: the value `v` is a way to write the thing for which serialisation writes `c`. -/
abbrev Form := Value → Value → Prop

/-- A string. -/
def Form.text : Form := fun v c => ∃ s, v = .str s ∧ c = .str s

/-- A boolean. -/
def Form.flag : Form := fun v c => ∃ b, v = .bool b ∧ c = .bool b

/-- An integer between two others. -/
def Form.number (lo hi : Int) : Form := fun v c => ∃ n, lo ≤ n ∧ n ≤ hi ∧ v = .num n ∧ c = .num n

/-- A point in time: any text that chrono reads as that time. -/
def Form.time (tc : TimeCodec) : Form := fun v c => ∃ s t, tc.read s = some t ∧ v = .str s ∧ c = .str (tc.show_ t)

/-- Nothing, or something. -/
def Form.orNull (F : Form) : Form := fun v c => v = .null ∧ c = .null ∨ F v c

/-- A sequence of things, all written. -/
inductive Form.Each (F : Form) : List Value → List Value → Prop
  | nil : Each F [] []
  | cons {v c vs cs} : F v c → Each F vs cs → Each F (v :: vs) (c :: cs)

/-- A list. -/
def Form.list (F : Form) : Form := fun v c => ∃ l m, v = .seq l ∧ c = .seq m ∧ Form.Each F l m

/-- A field of a struct. -/
structure Field where
  name : Bytes
  required : Bool
  form : Form

/-- A field that must be there. -/
def must (name : Bytes) (F : Form) : Field := ⟨name, true, F⟩

/-- A field that may be left out. -/
def may (name : Bytes) (F : Form) : Field := ⟨name, false, .orNull F⟩

/-- Among the entries of a map, the field is written exactly once, or it is left out although it could be there. -/
def Field.among (f : Field) (kvs : List (Bytes × Value)) (c : Value) : Prop :=
  (∃ x, kvs.filter (fun kv => kv.1 == f.name) = [(f.name, x)] ∧ f.form x c) ∨
  (f.required = false ∧ kvs.filter (fun kv => kv.1 == f.name) = [] ∧ c = .null)

/-- The fields of a struct are written in a map, in any order and with anything else. -/
def named : List Field → List (Bytes × Value) → List (Bytes × Value) → Prop
  | [], _, [] => True
  | f :: fs, kvs, (k, c) :: cs => k = f.name ∧ f.among kvs c ∧ named fs kvs cs
  | _, _, _ => False

/-- The fields of a struct are written one after the other. -/
def inOrder : List Field → List Value → List (Bytes × Value) → Prop
  | [], [], [] => True
  | f :: fs, v :: vs, (k, c) :: cs => k = f.name ∧ f.form v c ∧ inOrder fs vs cs
  | _, _, _ => False

/-- A struct.  Serialisation writes a map with the fields in order. -/
def Form.object (fs : List Field) : Form := fun v c => ∃ cs, c = .map cs ∧
  ((∃ kvs, v = .map kvs ∧ named fs kvs cs) ∨ ∃ vs, v = .seq vs ∧ inOrder fs vs cs)

/-- An enum: the name of a variant without content, alone or with null; or the name of a variant and its content. -/
def Form.oneOf (units : List Bytes) (variants : List (Bytes × Form)) : Form := fun v c =>
  (∃ u ∈ units, (v = .str u ∨ v = .map [(u, .null)]) ∧ c = .str u) ∨
  (∃ p ∈ variants, ∃ x y, v = .map [(p.1, x)] ∧ c = .map [(p.1, y)] ∧ p.2 x y)

/-- 64-bit numbers. -/
def Form.u64 : Form := .number 0 (2 ^ 64 - 1)
/-- 64-bit numbers. -/
def Form.i64 : Form := .number (-2 ^ 63) (2 ^ 63 - 1)

/-- A duration: seconds and 32-bit nanoseconds, which may be more than a second; together less than 2^64 seconds.
Serialisation writes whole seconds, and nanoseconds below a second. -/
def Form.duration : Form := fun v c => ∃ s n : Nat, s * 1000000000 + n < 2 ^ 64 * 1000000000 ∧ n < 2 ^ 32 ∧
  c = .map [(b!"secs", .num (s + n / 1000000000 : Nat)), (b!"nanos", .num (n % 1000000000 : Nat))] ∧
  (v = .map [(b!"secs", .num s), (b!"nanos", .num n)] ∨
    v = .map [(b!"nanos", .num n), (b!"secs", .num s)] ∨
    v = .seq [.num s, .num n])

/-- `BadgeData` (src/msg.rs:252-257). -/
def badgeDataForm : Form := .object [
  must (b!"name") .text, must (b!"version") .text, may (b!"extra") .text]

/-- `Subscriber` (src/msg.rs:214-223).  The months must be a number, too: see `C67_exact`. -/
def subscriberForm : Form := .object [must (b!"version") .text, must (b!"months") .text]

/-- `Badge` (src/msg.rs:111-137). -/
def badgeForm : Form := .oneOf [b!"staff", b!"turbo", b!"broadcaster", b!"moderator"]
  [(b!"subscriber", subscriberForm), (b!"other", badgeDataForm)]

/-- `User` (src/msg.rs:292-297). -/
def userForm : Form := .object [
  must (b!"id") .text, must (b!"login") .text, must (b!"name") .text]

/-- `Action` (src/msg/clear_chat.rs:57-73). -/
def actionForm : Form := .oneOf [b!"clear"] [
  (b!"ban", .object [
    must (b!"user") .text, must (b!"id") .text]),
  (b!"timeout", .object [
    must (b!"user") .text, must (b!"id") .text, must (b!"duration") .duration])]

/-- `ClearChat` (src/msg/clear_chat.rs:10-23). -/
def clearChatFields (tc : TimeCodec) : List Field := [
  must (b!"channel") .text, must (b!"channel_id") .text, must (b!"action") actionForm, must (b!"timestamp") (.time tc)]

/-- `ClearChat` (src/msg/clear_chat.rs:10-23). -/
def clearChatForm (tc : TimeCodec) : Form := .object (clearChatFields tc)

/-- `ClearMsg` (src/msg/clear_msg.rs:9-30). -/
def clearMsgFields (tc : TimeCodec) : List Field := [
  must (b!"channel") .text, must (b!"channel_id") .text, must (b!"sender") .text, must (b!"target_message_id") .text,
  must (b!"text") .text, must (b!"is_action") .flag, must (b!"timestamp") (.time tc)]

/-- `ClearMsg` (src/msg/clear_msg.rs:9-30). -/
def clearMsgForm (tc : TimeCodec) : Form := .object (clearMsgFields tc)

/-- `GlobalUserState` (src/msg/global_user_state.rs:10-27). -/
def globalUserStateFields : List Field := [
  must (b!"id") .text, must (b!"name") .text, must (b!"badges") (.list badgeForm),
  must (b!"emote_sets") (.list .text), may (b!"color") .text]

/-- `GlobalUserState` (src/msg/global_user_state.rs:10-27). -/
def globalUserStateForm : Form := .object globalUserStateFields

/-- `Join` (src/msg/join.rs:8-16). -/
def joinFields : List Field := [
  must (b!"channel") .text, must (b!"user") .text]

/-- `Join` (src/msg/join.rs:8-16). -/
def joinForm : Form := .object joinFields

/-- `Part` (src/msg/part.rs:8-16). -/
def partFields : List Field := [
  must (b!"channel") .text, must (b!"user") .text]

/-- `Part` (src/msg/part.rs:8-16). -/
def partForm : Form := .object partFields

/-- `Notice` (src/msg/notice.rs:10-21). -/
def noticeFields : List Field := [
  may (b!"channel") .text, must (b!"text") .text, may (b!"id") .text]

/-- `Notice` (src/msg/notice.rs:10-21). -/
def noticeForm : Form := .object noticeFields

/-- `Ping` (src/msg/ping.rs:22-27). -/
def pingFields : List Field := [
  may (b!"nonce") .text]

/-- `Ping` (src/msg/ping.rs:22-27). -/
def pingForm : Form := .object pingFields

/-- `Pong` (src/msg/pong.rs:20-25). -/
def pongFields : List Field := [
  may (b!"nonce") .text]

/-- `Pong` (src/msg/pong.rs:20-25). -/
def pongForm : Form := .object pongFields

/-- `Reply` (src/msg/privmsg.rs:129-146). -/
def replyForm : Form := .object [
  must (b!"thread_parent_message_id") .text, must (b!"thread_parent_user_login") .text, must (b!"message_id") .text,
  must (b!"sender") userForm, must (b!"text") .text]

/-- `PinnedChatLevel` (src/msg/privmsg.rs:203-217). -/
def pinnedChatLevelForm : Form := .oneOf [
  b!"ONE", b!"TWO", b!"THREE", b!"FOUR", b!"FIVE", b!"SIX", b!"SEVEN", b!"EIGHT", b!"NINE", b!"TEN"] []

/-- `PinnedChat` (src/msg/privmsg.rs:187-200). -/
def pinnedChatForm : Form := .object [
  must (b!"paid_amount") .i64, must (b!"paid_currency") .text, must (b!"paid_exponent") .i64,
  must (b!"paid_level") pinnedChatLevelForm, must (b!"is_system_message") .flag]

/-- `Privmsg` (src/msg/privmsg.rs:13-56). -/
def privmsgFields (tc : TimeCodec) : List Field := [
  must (b!"channel") .text, must (b!"channel_id") .text, may (b!"msg_id") .text, must (b!"id") .text,
  must (b!"sender") userForm, may (b!"reply_to") replyForm, may (b!"pinned_chat") pinnedChatForm,
  must (b!"text") .text, must (b!"is_action") .flag, must (b!"badges") (.list badgeForm), may (b!"color") .text,
  may (b!"custom_reward_id") .text, may (b!"bits") .u64, must (b!"emotes") .text, must (b!"timestamp") (.time tc)]

/-- `Privmsg` (src/msg/privmsg.rs:13-56). -/
def privmsgForm (tc : TimeCodec) : Form := .object (privmsgFields tc)

/-- `FollowersOnly` (src/msg/room_state.rs:71-90). -/
def followersOnlyForm : Form := .oneOf [b!"disabled"] [(b!"enabled", .orNull .duration)]

/-- `RoomState` (src/msg/room_state.rs:9-27). -/
def roomStateFields : List Field := [
  must (b!"channel") .text, must (b!"channel_id") .text, may (b!"emote_only") .flag,
  may (b!"followers_only") followersOnlyForm, may (b!"r9k") .flag, may (b!"slow") .duration, may (b!"subs_only") .flag]

/-- `RoomState` (src/msg/room_state.rs:9-27). -/
def roomStateForm : Form := .object roomStateFields

/-- `UserState` (src/msg/user_state.rs:18-35). -/
def userStateFields : List Field := [
  must (b!"channel") .text, must (b!"user_name") .text, must (b!"badges") (.list badgeForm),
  must (b!"emote_sets") (.list .text), may (b!"color") .text]

/-- `UserState` (src/msg/user_state.rs:18-35). -/
def userStateForm : Form := .object userStateFields

/-- `Whisper` (src/msg/whisper.rs:8-28). -/
def whisperFields : List Field := [
  must (b!"recipient") .text, must (b!"sender") userForm, must (b!"text") .text, must (b!"badges") (.list badgeForm),
  must (b!"emotes") .text, may (b!"color") .text]

/-- `Whisper` (src/msg/whisper.rs:8-28). -/
def whisperForm : Form := .object whisperFields

/-- `SubGiftPromo` (src/msg/user_notice.rs:427-432). -/
def subGiftPromoForm : Form := .object [
  must (b!"total_gifts") .u64, must (b!"promo_name") .text]

/-- `Event` (src/msg/user_notice.rs:116-173). -/
def eventForm : Form := .oneOf [b!"unknown"] [
  (b!"suborresub", .object [
    must (b!"is_resub") .flag, must (b!"cumulative_months") .u64, may (b!"streak_months") .u64,
    must (b!"sub_plan") .text, must (b!"sub_plan_name") .text]),
  (b!"raid", .object [
    must (b!"viewer_count") .u64, must (b!"profile_image_url") .text]),
  (b!"subgift", .object [
    must (b!"cumulative_months") .u64, must (b!"recipient") userForm, must (b!"sub_plan") .text,
    must (b!"sub_plan_name") .text, must (b!"num_gifted_months") .u64]),
  (b!"submysterygift", .object [
    must (b!"count") .u64, must (b!"sender_total_gifts") .u64, must (b!"sub_plan") .text]),
  (b!"anonsubmysterygift", .object [
    must (b!"count") .u64, must (b!"sub_plan") .text]),
  (b!"giftpaidupgrade", .object [
    must (b!"gifter_login") .text, must (b!"gifter_name") .text, may (b!"promotion") subGiftPromoForm]),
  (b!"anongiftpaidupgrade", .object [
    may (b!"promotion") subGiftPromoForm]),
  (b!"ritual", .object [
    must (b!"name") .text]),
  (b!"bitsbadgetier", .object [
    must (b!"tier") .u64]),
  (b!"announcement", .object [
    must (b!"highlight_color") .text])]

/-- `UserNotice` (src/msg/user_notice.rs:14-51). -/
def userNoticeFields (tc : TimeCodec) : List Field := [
  must (b!"channel") .text, must (b!"channel_id") .text, may (b!"sender") userForm, may (b!"text") .text,
  may (b!"system_message") .text, must (b!"event") eventForm, must (b!"event_id") .text,
  must (b!"badges") (.list badgeForm), must (b!"emotes") .text, may (b!"color") .text, must (b!"message_id") .text,
  must (b!"timestamp") (.time tc)]

/-- `UserNotice` (src/msg/user_notice.rs:14-51). -/
def userNoticeForm (tc : TimeCodec) : Form := .object (userNoticeFields tc)

/-- The types of messages that can be serialised. -/
inductive Kind where
  | clearChat | clearMsg | globalUserState | join | notice | part | ping
  | pong | privmsg | roomState | userNotice | userState | whisper
deriving DecidableEq

/-- The fields of messages of a type. -/
def Kind.fields (tc : TimeCodec) : Kind → List Field
  | .clearChat => clearChatFields tc
  | .clearMsg => clearMsgFields tc
  | .globalUserState => globalUserStateFields
  | .join => joinFields
  | .notice => noticeFields
  | .part => partFields
  | .ping => pingFields
  | .pong => pongFields
  | .privmsg => privmsgFields tc
  | .roomState => roomStateFields
  | .userNotice => userNoticeFields tc
  | .userState => userStateFields
  | .whisper => whisperFields

/-- How messages of a type may be written. -/
def Kind.form (tc : TimeCodec) : Kind → Form
  | .clearChat => clearChatForm tc
  | .clearMsg => clearMsgForm tc
  | .globalUserState => globalUserStateForm
  | .join => joinForm
  | .notice => noticeForm
  | .part => partForm
  | .ping => pingForm
  | .pong => pongForm
  | .privmsg => privmsgForm tc
  | .roomState => roomStateForm
  | .userNotice => userNoticeForm tc
  | .userState => userStateForm
  | .whisper => whisperForm

/-- Deserialise a message of a type. -/
def Kind.read (tc : TimeCodec) : Kind → Value → Option Message
  | .clearChat, v => (ClearChat.de tc v).map .clearChat
  | .clearMsg, v => (ClearMsg.de tc v).map .clearMsg
  | .globalUserState, v => (GlobalUserState.de v).map .globalUserState
  | .join, v => (Join.de v).map .join
  | .notice, v => (Notice.de v).map .notice
  | .part, v => (Part.de v).map .part
  | .ping, v => (Ping.de v).map .ping
  | .pong, v => (Pong.de v).map .pong
  | .privmsg, v => (Privmsg.de tc v).map .privmsg
  | .roomState, v => (RoomState.de v).map .roomState
  | .userNotice, v => (UserNotice.de tc v).map .userNotice
  | .userState, v => (UserState.de v).map .userState
  | .whisper, v => (Whisper.de v).map .whisper

/-- Serialise a message of a type. -/
def Kind.write (tc : TimeCodec) : Kind → Message → Option Value
  | .clearChat, .clearChat v => some (v.ser tc)
  | .clearMsg, .clearMsg v => some (v.ser tc)
  | .globalUserState, .globalUserState v => some (v.ser)
  | .join, .join v => some (v.ser)
  | .notice, .notice v => some (v.ser)
  | .part, .part v => some (v.ser)
  | .ping, .ping v => some (v.ser)
  | .pong, .pong v => some (v.ser)
  | .privmsg, .privmsg v => some (v.ser tc)
  | .roomState, .roomState v => some (v.ser)
  | .userNotice, .userNotice v => some (v.ser tc)
  | .userState, .userState v => some (v.ser)
  | .whisper, .whisper v => some (v.ser)
  | _, _ => none

/-- chrono reads the text that it writes for a time it has read as the same time. -/
def TimeCodec.Stable (tc : TimeCodec) : Prop := ∀ s t, tc.read s = some t → tc.read (tc.show_ t) = some t

end Tmi.Spec
