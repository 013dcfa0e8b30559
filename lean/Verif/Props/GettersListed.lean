/-
C90 and C91 for lines with tags of any size: the tags are the ones that `tags()` lists.
-/
import Verif.Props.Getters
import Verif.Props.Listed
import Verif.Props.TagsRead

namespace Tmi.Props
open Model Spec Proofs

/-- C90 for whatever tags the message lists: each getter gives its part of the line, read with these tags. -/
theorem C90_listed (b : Build) (s : Bytes) (hu : Utf8 s) (hl : s.length < 4294967296) (m : MsgRef)
    (h : MsgRef.parse b s = .ok (some m)) (tags : List (Bytes × Bytes)) (hm : m.tags = .ok tags) :
    ∃ l, line s = some l ∧
      (∀ v, ClearChat.parse m = .ok (some v) → ClearChatGives { l with tags := tags } v) ∧
      (∀ v, ClearMsg.parse m = .ok (some v) → ClearMsgGives { l with tags := tags } v) ∧
      (∀ v, GlobalUserState.parse m = .ok (some v) → GlobalUserStateGives { l with tags := tags } v) ∧
      (∀ v, Model.Join.parse m = .ok (some v) → JoinGives { l with tags := tags } v) ∧
      (∀ v, Notice.parse m = .ok (some v) → NoticeGives { l with tags := tags } v) ∧
      (∀ v, Part.parse m = .ok (some v) → PartGives { l with tags := tags } v) ∧
      (∀ v, Ping.parse m = .ok (some v) → l.text = Getter.Ping.nonce v) ∧
      (∀ v, Pong.parse m = .ok (some v) → l.text = Getter.Pong.nonce v) ∧
      (∀ v, Privmsg.parse m = .ok (some v) → PrivmsgGives { l with tags := tags } v) ∧
      ((∀ v n, lookup (b!"followers-only") tags = some v → I64 v n → n ≤ 153722867280912930) →
        ∀ v, RoomState.parse m = .ok (some v) → RoomStateGives { l with tags := tags } v) ∧
      (∀ v, UserNotice.parse m = .ok (some v) → UserNoticeGives { l with tags := tags } v) ∧
      (∀ v, UserState.parse m = .ok (some v) → UserStateGives { l with tags := tags } v) ∧
      (∀ v, Whisper.parse m = .ok (some v) → WhisperGives { l with tags := tags } v) := by
  obtain ⟨l, hline, h1, h2, h3, h4, h5, h6, h7, h8, h9, h10, h11, h12, h13⟩ := C68_typed b s hu hl m h tags hm
  refine ⟨l, hline, fun v e => clear_chat_gives ((h1.2 v).1 e).2, fun v e => clear_msg_gives ((h2.2 v).1 e).2,
    fun v e => global_user_state_gives ((h3.2 v).1 e).2, fun v e => ?_, fun v e => ?_, fun v e => ?_, fun v e => ?_,
    fun v e => ?_, fun v e => privmsg_gives ((h9.2 v).1 e).2, fun ho v e => ?_, fun v e => user_notice_gives ((h11.2 v).1 e).2,
    fun v e => user_state_gives ((h12.2 v).1 e).2, fun v e => whisper_gives ((h13.2 v).1 e).2⟩
  · have := ((h4.2 v).1 e).2
    exact ⟨this.channel, this.user⟩
  · have := ((h5.2 v).1 e).2
    exact ⟨this.channel, this.text, this.id⟩
  · have := ((h6.2 v).1 e).2
    exact ⟨this.channel, this.user⟩
  · exact ((h7.2 v).1 e).2.nonce
  · exact ((h8.2 v).1 e).2.nonce
  · refine room_state_gives (((h10 ?_).2 v).1 e).2
    rintro ⟨x, n, hx, hn, hlt⟩
    have := ho x n hx hn
    unfold maxMinutes at hlt
    omega

example := C90_listed ⟨.scalar, true⟩ sampleRoomState (utf8_of sampleRoomState_ok) (within_of sampleRoomState_ok).len _
  (given_eq _ sampleRoomState_msg) _ (got_eq _ (by decide +kernel))

/-- C91 for whatever tags the messages list: messages with the same command, channel, params and nick, and the same values
of the tags that matter among those listed, give the same typed message, fail together or panic together. -/
theorem C91_listed (b : Build) (s s' : Bytes) (hu : Utf8 s) (hu' : Utf8 s') (hlen : s.length < 4294967296)
    (hlen' : s'.length < 4294967296) (m m' : MsgRef) (h : MsgRef.parse b s = .ok (some m))
    (h' : MsgRef.parse b s' = .ok (some m')) (tags tags' : List (Bytes × Bytes)) (hm : m.tags = .ok tags)
    (hm' : m'.tags = .ok tags') (l l' : Line) (hl : line s = some l) (hl' : line s' = some l')
    (ht : l.command ∈ typedCommands) (hsame : SameButTags { l with tags := tags } { l' with tags := tags' }) :
    Message.fromIrc m = Message.fromIrc m' := by
  obtain ⟨k, hk, hc, R⟩ := represents_listed hu hlen h hm
  obtain ⟨k', hk', hc', R'⟩ := represents_listed hu' hlen' h' hm'
  cases samePlace hl hk
  cases samePlace hl' hk'
  exact fromIrc_same R R' (hc.trans hc'.symm) hsame ht

example : ∃ m m', MsgRef.parse ⟨.scalar, true⟩ sampleTimeout = .ok (some m) ∧
    MsgRef.parse ⟨.scalar, true⟩ sampleTimeout' = .ok (some m') ∧ Message.fromIrc m = Message.fromIrc m' :=
  ⟨_, _, given_eq _ (by decide +kernel), given_eq _ (by decide +kernel),
    C91_listed ⟨.scalar, true⟩ sampleTimeout sampleTimeout' (utf8_of sampleTimeout_ok) (utf8_of sampleTimeout'_ok)
      (within_of sampleTimeout_ok).len (within_of sampleTimeout'_ok).len _ _ (given_eq _ (by decide +kernel))
      (given_eq _ (by decide +kernel)) _ _ (got_eq _ (by decide +kernel)) (got_eq _ (by decide +kernel)) _ _
      (line_eq _ sampleTimeout_line) (line_eq _ sampleTimeout'_line) (by decide +kernel)
      ⟨by decide +kernel, by decide +kernel, by decide +kernel, by decide +kernel, by decide +kernel⟩⟩

end Tmi.Props
