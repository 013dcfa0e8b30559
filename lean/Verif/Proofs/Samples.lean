/-
Helpers for the examples beside the theorems: that a literal line meets the usual hypotheses is decided by evaluation.
-/
import Verif.Model.Chars
import Verif.Model.Msg
import Verif.Spec.Reads
import Verif.Proofs.LineSpec

namespace Tmi.Proofs
open Tmi.Model Tmi.Spec

/-- The hypotheses `Utf8`, `Within` and `TagsTerminated`, decided. -/
def checkLine (s : Bytes) : Bool :=
  (decode s).flatMap String.utf8EncodeChar == s && decide (s.length < 4294967296) &&
    decide ((tagPairs s).length ≤ 128) &&
    (tagPairs s).all (fun kv => decide (kv.1.length < 65536 ∧ kv.2.length < 65536)) &&
    (match s with | c :: r => c != AT || r.contains SP | [] => true)

theorem checkLine_ok {s : Bytes} (h : checkLine s = true) : Utf8 s ∧ Within s ∧ ∀ b, TagsTerminated b s := by
  unfold checkLine at h
  simp only [Bool.and_eq_true, beq_iff_eq, decide_eq_true_eq, List.all_eq_true] at h
  obtain ⟨⟨⟨⟨h1, h2⟩, h3⟩, h4⟩, h5⟩ := h
  refine ⟨⟨_, h1.symm⟩, ⟨h2, h3, h4⟩, fun b _ r hr => ?_⟩
  subst hr
  simpa using h5

theorem utf8_of {s : Bytes} (h : checkLine s = true) : Utf8 s := (checkLine_ok h).1
theorem within_of {s : Bytes} (h : checkLine s = true) : Within s := (checkLine_ok h).2.1
theorem terminated_of {s : Bytes} (h : checkLine s = true) (b : Build) : TagsTerminated b s := (checkLine_ok h).2.2 b
theorem readable_of {s : Bytes} (h : checkLine s = true) (b : Build) : Readable b s :=
  ⟨utf8_of h, within_of h, terminated_of h b⟩

/-- What a computation returned, when it did. -/
def got {ε α : Type} : (r : Except ε α) → r.isOk = true → α
  | .ok a, _ => a

theorem got_eq {ε α : Type} : (r : Except ε α) → (h : r.isOk = true) → r = .ok (got r h)
  | .ok _, _ => rfl

/-- A computation returned something. -/
def gave {ε α : Type} : Except ε (Option α) → Bool
  | .ok (some _) => true
  | _ => false

/-- What it was. -/
def given {ε α : Type} : (r : Except ε (Option α)) → gave r = true → α
  | .ok (some a), _ => a

theorem given_eq {ε α : Type} : (r : Except ε (Option α)) → (h : gave r = true) → r = .ok (some (given r h))
  | .ok (some _), _ => rfl

/-- There is a command. -/
def hasLine (s : Bytes) : Bool := (line s).isSome

/-- The pieces of a line that has a command. -/
def lineOf (s : Bytes) (h : hasLine s = true) : Line := (line s).get h

theorem line_eq (s : Bytes) (h : hasLine s = true) : line s = some (lineOf s h) := (Option.some_get h).symm

/-! ### Lines -/

def samplePriv : Bytes :=
  b!"@badge-info=subscriber/22;badges=subscriber/12,vip/1;bits=100;color=#FF0000;display-name=A\\sB;emotes=;id=m1;reply-parent-display-name=C⸝D;reply-parent-msg-body=so\\sit\\:;reply-parent-msg-id=r1;reply-parent-user-id=8;reply-parent-user-login=c;reply-thread-parent-msg-id=r0;reply-thread-parent-user-login=d;room-id=9;tmi-sent-ts=1594545155039;user-id=7 :a!a@a.tmi.twitch.tv PRIVMSG #c :hi there"
def sampleTimeout : Bytes :=
  b!"@ban-duration=60;room-id=1;target-user-id=2;tmi-sent-ts=5 :tmi.twitch.tv CLEARCHAT #c :bob"
def sampleClearMsg : Bytes :=
  b!"@login=bob;room-id=1;target-msg-id=m;tmi-sent-ts=5 :tmi.twitch.tv CLEARMSG #c :hi"
def sampleGlobal : Bytes :=
  b!"@badge-info=;badges=moderator/1;color=;display-name=A\\sB;emote-sets=0,33;user-id=7 :tmi.twitch.tv GLOBALUSERSTATE"
def sampleUserState : Bytes :=
  b!"@badge-info=;badges=moderator/1;color=#fff;display-name=A\\sB;emote-sets=0,33 :tmi.twitch.tv USERSTATE #c"
def sampleRoomState : Bytes :=
  b!"@emote-only=0;followers-only=10;r9k=1;room-id=1;slow=5;subs-only=0 :tmi.twitch.tv ROOMSTATE #c"
def sampleRaid : Bytes :=
  b!"@badge-info=;badges=vip/1;color=;display-name=Bob;emotes=;id=i;login=bob;msg-id=raid;msg-param-profileImageURL=u;msg-param-viewerCount=5;room-id=1;system-msg=5\\sraiders;tmi-sent-ts=1;user-id=2 :tmi.twitch.tv USERNOTICE #c"
def sampleGift : Bytes :=
  b!"@display-name=Bob;id=i;login=bob;msg-id=subgift;msg-param-gift-months=3;msg-param-months=2;msg-param-recipient-display-name=Ann\\sX;msg-param-recipient-id=8;msg-param-recipient-user-name=ann;msg-param-sub-plan-name=Channel\\sSub;msg-param-sub-plan=1000;room-id=1;tmi-sent-ts=1;user-id=2 :tmi.twitch.tv USERNOTICE #c"
def sampleUnknown : Bytes :=
  b!"@display-name=Bob;id=i;login=bob;msg-id=viewermilestone;room-id=1;tmi-sent-ts=1;user-id=2 :tmi.twitch.tv USERNOTICE #c :hi"
def sampleUpgrade : Bytes :=
  b!"@display-name=Bob;id=i;login=bob;msg-id=giftpaidupgrade;msg-param-promo-gift-total=4;msg-param-promo-name=Subtember;msg-param-sender-login=ann;msg-param-sender-name=Ann;room-id=1;tmi-sent-ts=1;user-id=2 :tmi.twitch.tv USERNOTICE #c"
def sampleWhisper : Bytes :=
  b!"@badge-info=;badges=;color=#fff;display-name=A\\sB;emotes=;user-id=7 :a!a@a.tmi.twitch.tv WHISPER bob :hi :there"
def sampleJoin : Bytes :=
  b!":a!a@a.tmi.twitch.tv JOIN #c"
def samplePart : Bytes :=
  b!":a!a@a.tmi.twitch.tv PART #c"
def samplePing : Bytes :=
  b!"PING :tmi.twitch.tv"
def samplePong : Bytes :=
  b!":tmi.twitch.tv PONG tmi.twitch.tv :x"
def sampleNoticeLine : Bytes :=
  b!"@msg-id=slow_on :tmi.twitch.tv NOTICE #c :This room is now in slow mode."
def sampleReconnect : Bytes :=
  b!":tmi.twitch.tv RECONNECT"
def sampleNames : Bytes :=
  b!":justinfan.tmi.twitch.tv 353 justinfan = #c :a b"

theorem samplePriv_ok : checkLine samplePriv = true := by decide +kernel
theorem sampleTimeout_ok : checkLine sampleTimeout = true := by decide +kernel
theorem sampleClearMsg_ok : checkLine sampleClearMsg = true := by decide +kernel
theorem sampleGlobal_ok : checkLine sampleGlobal = true := by decide +kernel
theorem sampleUserState_ok : checkLine sampleUserState = true := by decide +kernel
theorem sampleRoomState_ok : checkLine sampleRoomState = true := by decide +kernel
theorem sampleRaid_ok : checkLine sampleRaid = true := by decide +kernel
theorem sampleGift_ok : checkLine sampleGift = true := by decide +kernel
theorem sampleUnknown_ok : checkLine sampleUnknown = true := by decide +kernel
theorem sampleUpgrade_ok : checkLine sampleUpgrade = true := by decide +kernel
theorem sampleWhisper_ok : checkLine sampleWhisper = true := by decide +kernel
theorem sampleJoin_ok : checkLine sampleJoin = true := by decide +kernel
theorem samplePart_ok : checkLine samplePart = true := by decide +kernel
theorem samplePing_ok : checkLine samplePing = true := by decide +kernel
theorem samplePong_ok : checkLine samplePong = true := by decide +kernel
theorem sampleNoticeLine_ok : checkLine sampleNoticeLine = true := by decide +kernel
theorem sampleReconnect_ok : checkLine sampleReconnect = true := by decide +kernel
theorem sampleNames_ok : checkLine sampleNames = true := by decide +kernel

theorem samplePriv_line : hasLine samplePriv = true := by decide +kernel
theorem sampleTimeout_line : hasLine sampleTimeout = true := by decide +kernel
theorem sampleClearMsg_line : hasLine sampleClearMsg = true := by decide +kernel
theorem sampleGlobal_line : hasLine sampleGlobal = true := by decide +kernel
theorem sampleUserState_line : hasLine sampleUserState = true := by decide +kernel
theorem sampleRoomState_line : hasLine sampleRoomState = true := by decide +kernel
theorem sampleRaid_line : hasLine sampleRaid = true := by decide +kernel
theorem sampleGift_line : hasLine sampleGift = true := by decide +kernel
theorem sampleUnknown_line : hasLine sampleUnknown = true := by decide +kernel
theorem sampleUpgrade_line : hasLine sampleUpgrade = true := by decide +kernel
theorem sampleWhisper_line : hasLine sampleWhisper = true := by decide +kernel
theorem sampleJoin_line : hasLine sampleJoin = true := by decide +kernel
theorem samplePart_line : hasLine samplePart = true := by decide +kernel
theorem samplePing_line : hasLine samplePing = true := by decide +kernel
theorem samplePong_line : hasLine samplePong = true := by decide +kernel
theorem sampleNoticeLine_line : hasLine sampleNoticeLine = true := by decide +kernel
theorem sampleReconnect_line : hasLine sampleReconnect = true := by decide +kernel
theorem sampleNames_line : hasLine sampleNames = true := by decide +kernel

theorem samplePriv_parsed : gave (parseAs Privmsg.parse ⟨.scalar, true⟩ samplePriv) = true := by decide +kernel
theorem sampleTimeout_parsed : gave (parseAs ClearChat.parse ⟨.scalar, true⟩ sampleTimeout) = true := by decide +kernel
theorem sampleClearMsg_parsed : gave (parseAs ClearMsg.parse ⟨.scalar, true⟩ sampleClearMsg) = true := by decide +kernel
theorem sampleGlobal_parsed : gave (parseAs GlobalUserState.parse ⟨.scalar, true⟩ sampleGlobal) = true := by decide +kernel
theorem sampleUserState_parsed : gave (parseAs UserState.parse ⟨.scalar, true⟩ sampleUserState) = true := by decide +kernel
theorem sampleRoomState_parsed : gave (parseAs RoomState.parse ⟨.scalar, true⟩ sampleRoomState) = true := by decide +kernel
theorem sampleRaid_parsed : gave (parseAs UserNotice.parse ⟨.scalar, true⟩ sampleRaid) = true := by decide +kernel
theorem sampleGift_parsed : gave (parseAs UserNotice.parse ⟨.scalar, true⟩ sampleGift) = true := by decide +kernel
theorem sampleUnknown_parsed : gave (parseAs UserNotice.parse ⟨.scalar, true⟩ sampleUnknown) = true := by decide +kernel
theorem sampleUpgrade_parsed : gave (parseAs UserNotice.parse ⟨.scalar, true⟩ sampleUpgrade) = true := by decide +kernel
theorem sampleWhisper_parsed : gave (parseAs Whisper.parse ⟨.scalar, true⟩ sampleWhisper) = true := by decide +kernel
theorem sampleJoin_parsed : gave (parseAs Model.Join.parse ⟨.scalar, true⟩ sampleJoin) = true := by decide +kernel
theorem samplePart_parsed : gave (parseAs Part.parse ⟨.scalar, true⟩ samplePart) = true := by decide +kernel
theorem samplePing_parsed : gave (parseAs Ping.parse ⟨.scalar, true⟩ samplePing) = true := by decide +kernel
theorem samplePong_parsed : gave (parseAs Pong.parse ⟨.scalar, true⟩ samplePong) = true := by decide +kernel
theorem sampleNoticeLine_parsed : gave (parseAs Notice.parse ⟨.scalar, true⟩ sampleNoticeLine) = true := by decide +kernel

theorem samplePriv_msg : gave (MsgRef.parse ⟨.scalar, true⟩ samplePriv) = true := by decide +kernel
theorem sampleTimeout_msg : gave (MsgRef.parse ⟨.scalar, true⟩ sampleTimeout) = true := by decide +kernel
theorem sampleClearMsg_msg : gave (MsgRef.parse ⟨.scalar, true⟩ sampleClearMsg) = true := by decide +kernel
theorem sampleGlobal_msg : gave (MsgRef.parse ⟨.scalar, true⟩ sampleGlobal) = true := by decide +kernel
theorem sampleUserState_msg : gave (MsgRef.parse ⟨.scalar, true⟩ sampleUserState) = true := by decide +kernel
theorem sampleRoomState_msg : gave (MsgRef.parse ⟨.scalar, true⟩ sampleRoomState) = true := by decide +kernel
theorem sampleRaid_msg : gave (MsgRef.parse ⟨.scalar, true⟩ sampleRaid) = true := by decide +kernel
theorem sampleGift_msg : gave (MsgRef.parse ⟨.scalar, true⟩ sampleGift) = true := by decide +kernel
theorem sampleUnknown_msg : gave (MsgRef.parse ⟨.scalar, true⟩ sampleUnknown) = true := by decide +kernel
theorem sampleUpgrade_msg : gave (MsgRef.parse ⟨.scalar, true⟩ sampleUpgrade) = true := by decide +kernel
theorem sampleWhisper_msg : gave (MsgRef.parse ⟨.scalar, true⟩ sampleWhisper) = true := by decide +kernel
theorem sampleJoin_msg : gave (MsgRef.parse ⟨.scalar, true⟩ sampleJoin) = true := by decide +kernel
theorem samplePart_msg : gave (MsgRef.parse ⟨.scalar, true⟩ samplePart) = true := by decide +kernel
theorem samplePing_msg : gave (MsgRef.parse ⟨.scalar, true⟩ samplePing) = true := by decide +kernel
theorem samplePong_msg : gave (MsgRef.parse ⟨.scalar, true⟩ samplePong) = true := by decide +kernel
theorem sampleNoticeLine_msg : gave (MsgRef.parse ⟨.scalar, true⟩ sampleNoticeLine) = true := by decide +kernel
theorem sampleReconnect_msg : gave (MsgRef.parse ⟨.scalar, true⟩ sampleReconnect) = true := by decide +kernel
theorem sampleNames_msg : gave (MsgRef.parse ⟨.scalar, true⟩ sampleNames) = true := by decide +kernel

end Tmi.Proofs
