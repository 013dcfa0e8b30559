/-
C51: `into_owned` keeps every field of every typed message, and the copy no longer depends on the buffer.

`seeX buf v` (Spec/Owned.lean) is the message as its getters show it while the buffer holds `buf`.  Each
theorem says: the copy made while the buffer holds `buf` shows, whatever the buffer holds later
(`buf'`), what the original showed.
-/
import Verif.Model.Owned

namespace Tmi.Props
open Spec Model

variable (buf buf' : Bytes)

theorem C51_text (t : Text) : (maybeClone buf t).read buf' = t.read buf := by
  cases t <;> rfl

theorem read_option (o : Option Text) :
    (o.map (maybeClone buf)).map (·.read buf') = o.map (·.read buf) := by
  cases o <;> simp [C51_text]

theorem read_list (l : List Text) :
    (l.map (maybeClone buf)).map (·.read buf') = l.map (·.read buf) := by
  simp [Function.comp_def, C51_text]

theorem C51_subscriber (v : Subscriber Text) :
    seeSubscriber buf' (v.intoOwned buf) = seeSubscriber buf v := by
  simp [seeSubscriber, Subscriber.intoOwned, C51_text]

theorem C51_badge_data (v : BadgeData Text) :
    seeBadgeData buf' (v.intoOwned buf) = seeBadgeData buf v := by
  simp only [seeBadgeData, BadgeData.intoOwned, C51_text, read_option]

theorem C51_badge (v : Badge Text) : seeBadge buf' (v.intoOwned buf) = seeBadge buf v := by
  cases v <;> simp [seeBadge, Badge.intoOwned, C51_subscriber, C51_badge_data]

theorem see_badges (l : List (Badge Text)) :
    (l.map (Badge.intoOwned buf)).map (seeBadge buf') = l.map (seeBadge buf) := by
  simp [Function.comp_def, C51_badge]

theorem C51_user (v : User Text) : seeUser buf' (v.intoOwned buf) = seeUser buf v := by
  simp [seeUser, User.intoOwned, C51_text]

theorem C51_action (v : Action Text) : seeAction buf' (v.intoOwned buf) = seeAction buf v := by
  cases v <;> simp [seeAction, Action.intoOwned, C51_text]

theorem C51_clear_chat (v : ClearChat Text) :
    seeClearChat buf' (v.intoOwned buf) = seeClearChat buf v := by
  simp [seeClearChat, ClearChat.intoOwned, C51_text, C51_action]

theorem C51_clear_msg (v : ClearMsg Text) :
    seeClearMsg buf' (v.intoOwned buf) = seeClearMsg buf v := by
  simp [seeClearMsg, ClearMsg.intoOwned, C51_text]

theorem C51_global_user_state (v : GlobalUserState Text) :
    seeGlobalUserState buf' (v.intoOwned buf) = seeGlobalUserState buf v := by
  simp only [seeGlobalUserState, GlobalUserState.intoOwned, C51_text, read_option, read_list,
    see_badges]

theorem C51_join (v : Join Text) : seeJoin buf' (v.intoOwned buf) = seeJoin buf v := by
  simp [seeJoin, Join.intoOwned, C51_text]

theorem C51_part (v : Part Text) : seePart buf' (v.intoOwned buf) = seePart buf v := by
  simp [seePart, Part.intoOwned, C51_text]

theorem C51_notice (v : Notice Text) : seeNotice buf' (v.intoOwned buf) = seeNotice buf v := by
  simp only [seeNotice, Notice.intoOwned, C51_text, read_option]

theorem C51_ping (v : Ping Text) : seePing buf' (v.intoOwned buf) = seePing buf v := by
  simp only [seePing, Ping.intoOwned, read_option]

theorem C51_pong (v : Pong Text) : seePong buf' (v.intoOwned buf) = seePong buf v := by
  simp only [seePong, Pong.intoOwned, read_option]

theorem C51_reply (v : Reply Text) : seeReply buf' (v.intoOwned buf) = seeReply buf v := by
  simp [seeReply, Reply.intoOwned, C51_text, C51_user]

theorem C51_pinned_chat (v : PinnedChat Text) :
    seePinnedChat buf' (v.intoOwned buf) = seePinnedChat buf v := by
  simp [seePinnedChat, PinnedChat.intoOwned, C51_text]

theorem C51_privmsg (v : Privmsg Text) : seePrivmsg buf' (v.intoOwned buf) = seePrivmsg buf v := by
  have h1 : (v.replyTo.map (Reply.intoOwned buf)).map (seeReply buf') = v.replyTo.map (seeReply buf) := by
    cases v.replyTo <;> simp [C51_reply]
  have h2 : (v.pinnedChat.map (PinnedChat.intoOwned buf)).map (seePinnedChat buf') =
      v.pinnedChat.map (seePinnedChat buf) := by
    cases v.pinnedChat <;> simp [C51_pinned_chat]
  simp only [seePrivmsg, Privmsg.intoOwned, C51_text, C51_user, read_option, see_badges, h1, h2]

theorem C51_room_state (v : RoomState Text) :
    seeRoomState buf' (v.intoOwned buf) = seeRoomState buf v := by
  simp [seeRoomState, RoomState.intoOwned, C51_text]

theorem C51_user_state (v : UserState Text) :
    seeUserState buf' (v.intoOwned buf) = seeUserState buf v := by
  simp only [seeUserState, UserState.intoOwned, C51_text, read_option, read_list, see_badges]

theorem C51_whisper (v : Whisper Text) : seeWhisper buf' (v.intoOwned buf) = seeWhisper buf v := by
  simp only [seeWhisper, Whisper.intoOwned, C51_text, C51_user, read_option, see_badges]

theorem C51_sub_gift_promo (v : SubGiftPromo Text) :
    seeSubGiftPromo buf' (v.intoOwned buf) = seeSubGiftPromo buf v := by
  simp [seeSubGiftPromo, SubGiftPromo.intoOwned, C51_text]

theorem see_promotion (o : Option (SubGiftPromo Text)) :
    (o.map (SubGiftPromo.intoOwned buf)).map (seeSubGiftPromo buf') = o.map (seeSubGiftPromo buf) := by
  cases o <;> simp [C51_sub_gift_promo]

theorem C51_event (v : Event Text) : seeEvent buf' (v.intoOwned buf) = seeEvent buf v := by
  cases v <;> simp only [seeEvent, Event.intoOwned, C51_text, C51_user, see_promotion]

theorem C51_user_notice (v : UserNotice Text) :
    seeUserNotice buf' (v.intoOwned buf) = seeUserNotice buf v := by
  have h1 : (v.sender.map (User.intoOwned buf)).map (seeUser buf') = v.sender.map (seeUser buf) := by
    cases v.sender <;> simp [C51_user]
  simp only [seeUserNotice, UserNotice.intoOwned, C51_text, read_option, see_badges, C51_event, h1]

/-- A message that borrows from its buffer: once the buffer is overwritten, the original no longer shows
what it did, but the copy does. -/
example :
    let m : Join Text := ⟨.borrowed 16 4, .borrowed 1 3⟩
    let buf := b!":foo!a@b.c JOIN #bar"
    let later := b!"PING :something else"
    seeJoin buf m = ⟨b!"#bar", b!"foo"⟩ ∧ seeJoin later m ≠ ⟨b!"#bar", b!"foo"⟩ ∧
      seeJoin later (m.intoOwned buf) = ⟨b!"#bar", b!"foo"⟩ := by
  decide

end Tmi.Props
