/-
Property C68: typed messages hold what the raw message exposes, whatever the sizes of its tags.
-/
import Verif.Props.Sizes
import Verif.Props.Msg

namespace Tmi.Props
open Tmi.Model Tmi.Spec Tmi.Proofs

/-- The call returns without a panic, and what it returns is described by `P`. -/
def ReturnsExactly {α : Type} (x : R (Option α)) (P : α → Prop) : Prop :=
  (∃ r, x = .ok r) ∧ ∀ v, x = .ok (some v) ↔ P v

theorem ReturnsExactly.of {α : Type} {x : R (Option α)} {P : α → Prop} (h : Exactly x P) :
    ReturnsExactly x P := ⟨h.fine, h.iff⟩

/-- A parsed message whose tags can be listed exposes the line, with the tags as listed. -/
theorem represents_listed {b : Build} {s : Bytes} (hu : Utf8 s) (hl : s.length < 4294967296) {m : MsgRef}
    (h : MsgRef.parse b s = .ok (some m)) {tags : List (Bytes × Bytes)} (hm : m.tags = .ok tags) :
    ∃ l, line s = some l ∧ m.checks = b.checks ∧ Represents m { l with tags := tags } := by
  have hr := returned_rest hu hl h
  split at hr
  · simp at hr
  · rename_i l hline
    obtain ⟨m', hm', _, hch, _, R⟩ := hr
    injection hm' with hm'
    subst hm'
    exact ⟨l, hline, hch, hm, fun t => tag_of_tags hm t, R.prefix?, R.command, R.rawChannel, R.params,
      R.text⟩

theorem other_command {m : MsgRef} {c : Command} (hc : m.command = .ok c) :
    (c ≠ .clearChat → ClearChat.parse m = .ok none) ∧ (c ≠ .clearMsg → ClearMsg.parse m = .ok none) ∧
    (c ≠ .globalUserState → GlobalUserState.parse m = .ok none) ∧ (c ≠ .join → Model.Join.parse m = .ok none) ∧
    (c ≠ .notice → Notice.parse m = .ok none) ∧ (c ≠ .part → Part.parse m = .ok none) ∧
    (c ≠ .ping → Ping.parse m = .ok none) ∧ (c ≠ .pong → Pong.parse m = .ok none) ∧
    (c ≠ .privmsg → Privmsg.parse m = .ok none) ∧ (c ≠ .roomState → RoomState.parse m = .ok none) ∧
    (c ≠ .userNotice → UserNotice.parse m = .ok none) ∧ (c ≠ .userState → UserState.parse m = .ok none) ∧
    (c ≠ .whisper → Whisper.parse m = .ok none) := by
  have hg : get' m.command = (pure c : OptionT R Command) := by
    rw [hc]; rfl
  refine ⟨?_, ?_, ?_, ?_, ?_, ?_, ?_, ?_, ?_, ?_, ?_, ?_, ?_⟩ <;> intro h
  · unfold ClearChat.parse
    rw [hg, pure_bind, if_pos h]; rfl
  · unfold ClearMsg.parse
    rw [hg, pure_bind, if_pos h]; rfl
  · unfold GlobalUserState.parse
    rw [hg, pure_bind, if_pos h]; rfl
  · unfold Model.Join.parse
    rw [hg, pure_bind, if_pos h]; rfl
  · unfold Notice.parse
    rw [hg, pure_bind, if_pos h]; rfl
  · unfold Part.parse
    rw [hg, pure_bind, if_pos h]; rfl
  · unfold Ping.parse
    rw [hg, pure_bind, if_pos h]; rfl
  · unfold Pong.parse
    rw [hg, pure_bind, if_pos h]; rfl
  · unfold Privmsg.parse
    rw [hg, pure_bind, if_pos h]; rfl
  · unfold RoomState.parse
    rw [hg, pure_bind, if_pos h]; rfl
  · unfold UserNotice.parse
    rw [hg, pure_bind, if_pos h]; rfl
  · unfold UserState.parse
    rw [hg, pure_bind, if_pos h]; rfl
  · unfold Whisper.parse
    rw [hg, pure_bind, if_pos h]; rfl

/-- C21, for every line below 4 GiB that is parsed, whatever the sizes of its tags: the variant is that of the command;
RECONNECT always gives `Reconnect`; every command without a typed form gives `Other`; for each typed command `Message`
gives what its parser gives, also when that rejects the line or panics; and each parser rejects all other commands. -/
theorem C21_parsed (b : Build) (s : Bytes) (hu : Utf8 s) (hl : s.length < 4294967296) (m : MsgRef)
    (h : MsgRef.parse b s = .ok (some m)) :
    ∃ l, line s = some l ∧
      (∀ M, Message.fromIrc m = .ok (some M) →
        match commandOfMessage M with
        | some c => l.command = c
        | none => l.command ∉ typedCommands) ∧
      (l.command = b!"RECONNECT" → Message.fromIrc m = .ok (some .reconnect)) ∧
      (l.command ∉ typedCommands → Message.fromIrc m = .ok (some (.other m))) ∧
      (l.command = b!"CLEARCHAT" → Message.fromIrc m = (ClearChat.parse m).map (Option.map .clearChat)) ∧
      (l.command ≠ b!"CLEARCHAT" → ClearChat.parse m = .ok none) ∧
      (l.command = b!"CLEARMSG" → Message.fromIrc m = (ClearMsg.parse m).map (Option.map .clearMsg)) ∧
      (l.command ≠ b!"CLEARMSG" → ClearMsg.parse m = .ok none) ∧
      (l.command = b!"GLOBALUSERSTATE" → Message.fromIrc m = (GlobalUserState.parse m).map (Option.map .globalUserState)) ∧
      (l.command ≠ b!"GLOBALUSERSTATE" → GlobalUserState.parse m = .ok none) ∧
      (l.command = b!"JOIN" → Message.fromIrc m = (Model.Join.parse m).map (Option.map .join)) ∧
      (l.command ≠ b!"JOIN" → Model.Join.parse m = .ok none) ∧
      (l.command = b!"NOTICE" → Message.fromIrc m = (Notice.parse m).map (Option.map .notice)) ∧
      (l.command ≠ b!"NOTICE" → Notice.parse m = .ok none) ∧
      (l.command = b!"PART" → Message.fromIrc m = (Part.parse m).map (Option.map .part)) ∧
      (l.command ≠ b!"PART" → Part.parse m = .ok none) ∧
      (l.command = b!"PING" → Message.fromIrc m = (Ping.parse m).map (Option.map .ping)) ∧
      (l.command ≠ b!"PING" → Ping.parse m = .ok none) ∧
      (l.command = b!"PONG" → Message.fromIrc m = (Pong.parse m).map (Option.map .pong)) ∧
      (l.command ≠ b!"PONG" → Pong.parse m = .ok none) ∧
      (l.command = b!"PRIVMSG" → Message.fromIrc m = (Privmsg.parse m).map (Option.map .privmsg)) ∧
      (l.command ≠ b!"PRIVMSG" → Privmsg.parse m = .ok none) ∧
      (l.command = b!"ROOMSTATE" → Message.fromIrc m = (RoomState.parse m).map (Option.map .roomState)) ∧
      (l.command ≠ b!"ROOMSTATE" → RoomState.parse m = .ok none) ∧
      (l.command = b!"USERNOTICE" → Message.fromIrc m = (UserNotice.parse m).map (Option.map .userNotice)) ∧
      (l.command ≠ b!"USERNOTICE" → UserNotice.parse m = .ok none) ∧
      (l.command = b!"USERSTATE" → Message.fromIrc m = (UserState.parse m).map (Option.map .userState)) ∧
      (l.command ≠ b!"USERSTATE" → UserState.parse m = .ok none) ∧
      (l.command = b!"WHISPER" → Message.fromIrc m = (Whisper.parse m).map (Option.map .whisper)) ∧
      (l.command ≠ b!"WHISPER" → Whisper.parse m = .ok none) := by
  obtain ⟨l, hline, hr⟩ := returned_some hu hl h
  have hI : ∀ {α : Type} (x : R (Option α)) (f : α → Message), into x f = x.map (Option.map f) := by
    intro α x f; cases x <;> rfl
  have hc : ∀ {c : Command}, commandOf l.command = c → m.command = .ok c := fun h => by rw [hr.command, h]
  obtain ⟨h1, h2, h3⟩ := dispatch_of hr.command
  refine ⟨l, hline, h1, h2, h3, ?_, ?_, ?_, ?_, ?_, ?_, ?_, ?_, ?_, ?_, ?_, ?_, ?_, ?_, ?_, ?_, ?_, ?_, ?_, ?_, ?_, ?_, ?_, ?_, ?_, ?_⟩
  · intro h
    unfold Message.fromIrc
    rw [hc (c := .clearChat) (by rw [h]; rfl), bind_ok, ← hI]
  · exact fun h => (other_command hr.command).1 fun h' => h ((commandOf_known (c := .clearChat) (by simp) _).1 h')
  · intro h
    unfold Message.fromIrc
    rw [hc (c := .clearMsg) (by rw [h]; rfl), bind_ok, ← hI]
  · exact fun h => (other_command hr.command).2.1 fun h' => h ((commandOf_known (c := .clearMsg) (by simp) _).1 h')
  · intro h
    unfold Message.fromIrc
    rw [hc (c := .globalUserState) (by rw [h]; rfl), bind_ok, ← hI]
  · exact fun h => (other_command hr.command).2.2.1 fun h' => h ((commandOf_known (c := .globalUserState) (by simp) _).1 h')
  · intro h
    unfold Message.fromIrc
    rw [hc (c := .join) (by rw [h]; rfl), bind_ok, ← hI]
  · exact fun h => (other_command hr.command).2.2.2.1 fun h' => h ((commandOf_known (c := .join) (by simp) _).1 h')
  · intro h
    unfold Message.fromIrc
    rw [hc (c := .notice) (by rw [h]; rfl), bind_ok, ← hI]
  · exact fun h => (other_command hr.command).2.2.2.2.1 fun h' => h ((commandOf_known (c := .notice) (by simp) _).1 h')
  · intro h
    unfold Message.fromIrc
    rw [hc (c := .part) (by rw [h]; rfl), bind_ok, ← hI]
  · exact fun h => (other_command hr.command).2.2.2.2.2.1 fun h' => h ((commandOf_known (c := .part) (by simp) _).1 h')
  · intro h
    unfold Message.fromIrc
    rw [hc (c := .ping) (by rw [h]; rfl), bind_ok, ← hI]
  · exact fun h => (other_command hr.command).2.2.2.2.2.2.1 fun h' => h ((commandOf_known (c := .ping) (by simp) _).1 h')
  · intro h
    unfold Message.fromIrc
    rw [hc (c := .pong) (by rw [h]; rfl), bind_ok, ← hI]
  · exact fun h => (other_command hr.command).2.2.2.2.2.2.2.1 fun h' => h ((commandOf_known (c := .pong) (by simp) _).1 h')
  · intro h
    unfold Message.fromIrc
    rw [hc (c := .privmsg) (by rw [h]; rfl), bind_ok, ← hI]
  · exact fun h => (other_command hr.command).2.2.2.2.2.2.2.2.1 fun h' => h ((commandOf_known (c := .privmsg) (by simp) _).1 h')
  · intro h
    unfold Message.fromIrc
    rw [hc (c := .roomState) (by rw [h]; rfl), bind_ok, ← hI]
  · exact fun h => (other_command hr.command).2.2.2.2.2.2.2.2.2.1 fun h' => h ((commandOf_known (c := .roomState) (by simp) _).1 h')
  · intro h
    unfold Message.fromIrc
    rw [hc (c := .userNotice) (by rw [h]; rfl), bind_ok, ← hI]
  · exact fun h => (other_command hr.command).2.2.2.2.2.2.2.2.2.2.1 fun h' => h ((commandOf_known (c := .userNotice) (by simp) _).1 h')
  · intro h
    unfold Message.fromIrc
    rw [hc (c := .userState) (by rw [h]; rfl), bind_ok, ← hI]
  · exact fun h => (other_command hr.command).2.2.2.2.2.2.2.2.2.2.2.1 fun h' => h ((commandOf_known (c := .userState) (by simp) _).1 h')
  · intro h
    unfold Message.fromIrc
    rw [hc (c := .whisper) (by rw [h]; rfl), bind_ok, ← hI]
  · exact fun h => (other_command hr.command).2.2.2.2.2.2.2.2.2.2.2.2 fun h' => h ((commandOf_known (c := .whisper) (by simp) _).1 h')

example := C21_parsed ⟨.scalar, true⟩ sampleRoomState (utf8_of sampleRoomState_ok) (within_of sampleRoomState_ok).len _
  (given_eq _ sampleRoomState_msg)

/-- C68: `Message::from` on a parsed message is the typed message of the line, read with the tags that the
message lists: it holds the values of that reading and no others, and it is refused exactly when there is
none.  The sizes of keys and values do not matter. -/
theorem C68_message (b : Build) (s : Bytes) (hu : Utf8 s) (hl : s.length < 4294967296) (m : MsgRef)
    (h : MsgRef.parse b s = .ok (some m)) (tags : List (Bytes × Bytes)) (hm : m.tags = .ok tags) :
    ∃ l, line s = some l ∧
      ((l.command = b!"ROOMSTATE" → ¬ FollowersOverflow { l with tags := tags }) →
        (∃ r, Message.fromIrc m = .ok r) ∧
        ∀ M, Message.fromIrc m = .ok (some M) ↔
          MessageOf { l with tags := tags } M ∧ ∀ m', M = .other m' → m' = m) := by
  obtain ⟨l, hline, _, R⟩ := represents_listed hu hl h hm
  exact ⟨l, hline, fun ho => fromIrc_exactly R ho⟩

example := C68_message ⟨.scalar, true⟩ sampleRoomState (utf8_of sampleRoomState_ok) (within_of sampleRoomState_ok).len _
  (given_eq _ sampleRoomState_msg) _ (got_eq _ (by decide +kernel))

/-- C68: on a parsed message whose tags can be listed, the conversion panics in one case only. -/
theorem C68_panics (b : Build) (s : Bytes) (hu : Utf8 s) (hl : s.length < 4294967296) (m : MsgRef)
    (h : MsgRef.parse b s = .ok (some m)) (tags : List (Bytes × Bytes)) (hm : m.tags = .ok tags) :
    (∃ e, Message.fromIrc m = .error e) ↔
      b.checks = true ∧ ∃ l, line s = some l ∧ l.command = b!"ROOMSTATE" ∧
        (∃ c, l.channel = some c) ∧ (∃ i, lookup (b!"room-id") tags = some i) ∧
        ∃ v n, lookup (b!"followers-only") tags = some v ∧ I64 v n ∧ 153722867280912930 < n := by
  obtain ⟨l, hline, hck, hr⟩ := represents_listed hu hl h hm
  rw [← hck]
  have := fromIrc_panics_iff hr
  rw [this]
  constructor
  · rintro ⟨h1, h2, h3, h4, h5⟩
    exact ⟨h1, l, hline, h2, h3, h4, h5⟩
  · rintro ⟨h1, l', hl', h2, h3, h4, h5⟩
    rw [hline] at hl'
    injection hl' with hl'
    subst hl'
    exact ⟨h1, h2, h3, h4, h5⟩

example := C68_panics ⟨.scalar, true⟩ sampleRoomState (utf8_of sampleRoomState_ok) (within_of sampleRoomState_ok).len _
  (given_eq _ sampleRoomState_msg) _ (got_eq _ (by decide +kernel))

/-- C68, one type at a time: `T::from_irc` returns the `T` of that reading, if the command is the one of `T`,
and it does not panic, except as in `C68_panics`. -/
theorem C68_typed (b : Build) (s : Bytes) (hu : Utf8 s) (hl : s.length < 4294967296) (m : MsgRef)
    (h : MsgRef.parse b s = .ok (some m)) (tags : List (Bytes × Bytes)) (hm : m.tags = .ok tags) :
    ∃ l, line s = some l ∧
      ReturnsExactly (ClearChat.parse m) (fun v => l.command = b!"CLEARCHAT" ∧ ClearChatOf { l with tags := tags } v) ∧
      ReturnsExactly (ClearMsg.parse m) (fun v => l.command = b!"CLEARMSG" ∧ ClearMsgOf { l with tags := tags } v) ∧
      ReturnsExactly (GlobalUserState.parse m)
        (fun v => l.command = b!"GLOBALUSERSTATE" ∧ GlobalUserStateOf { l with tags := tags } v) ∧
      ReturnsExactly (Model.Join.parse m) (fun v => l.command = b!"JOIN" ∧ JoinOf { l with tags := tags } v) ∧
      ReturnsExactly (Notice.parse m) (fun v => l.command = b!"NOTICE" ∧ NoticeOf { l with tags := tags } v) ∧
      ReturnsExactly (Part.parse m) (fun v => l.command = b!"PART" ∧ PartOf { l with tags := tags } v) ∧
      ReturnsExactly (Ping.parse m) (fun v => l.command = b!"PING" ∧ PingOf { l with tags := tags } v) ∧
      ReturnsExactly (Pong.parse m) (fun v => l.command = b!"PONG" ∧ PongOf { l with tags := tags } v) ∧
      ReturnsExactly (Privmsg.parse m) (fun v => l.command = b!"PRIVMSG" ∧ PrivmsgOf { l with tags := tags } v) ∧
      (¬ FollowersOverflow { l with tags := tags } →
        ReturnsExactly (RoomState.parse m)
          (fun v => l.command = b!"ROOMSTATE" ∧ RoomStateOf { l with tags := tags } v)) ∧
      ReturnsExactly (UserNotice.parse m)
        (fun v => l.command = b!"USERNOTICE" ∧ UserNoticeOf { l with tags := tags } v) ∧
      ReturnsExactly (UserState.parse m)
        (fun v => l.command = b!"USERSTATE" ∧ UserStateOf { l with tags := tags } v) ∧
      ReturnsExactly (Whisper.parse m) (fun v => l.command = b!"WHISPER" ∧ WhisperOf { l with tags := tags } v) := by
  obtain ⟨l, hline, _, R⟩ := represents_listed hu hl h hm
  exact ⟨l, hline, .of (clearChat_exactly R), .of (clearMsg_exactly R), .of (globalUserState_exactly R),
    .of (join_exactly R), .of (notice_exactly R), .of (part_exactly R), .of (ping_exactly R),
    .of (pong_exactly R), .of (privmsg_exactly R), fun ho => .of (roomState_exactly R ho),
    .of (userNotice_exactly R), .of (userState_exactly R), .of (whisper_exactly R)⟩

theorem pingLine_of {v : Bytes} (hv : SP ∉ v) {l : Line}
    (h : line ([AT] ++ b!"id" ++ [EQS] ++ v ++ [SP] ++ b!"PING") = some l) :
    l.command = b!"PING" ∧ l.params = none := by
  have hs : [AT] ++ b!"id" ++ [EQS] ++ v ++ [SP] ++ b!"PING"
      = AT :: ((b!"id" ++ EQS :: v) ++ SP :: b!"PING") := by simp
  rw [hs] at h
  unfold line at h
  rw [takeTags_space _ (by simp [hv]; decide)] at h
  simp only [] at h
  rw [if_neg (by decide)] at h
  injection h with h
  subst h
  exact ⟨rfl, rfl⟩

/-- Non-vacuity of C68: a PING whose `id` tag has 65536 bytes, outside the limits of C21, lists an empty `id`
and is converted. -/
example (b : Build) : ∃ m,
    MsgRef.parse b ([AT] ++ b!"id" ++ [EQS] ++ List.replicate 65536 0x61 ++ [SP] ++ b!"PING") = .ok (some m) ∧
    m.tags = .ok [(b!"id", [])] ∧ ∃ M, Message.fromIrc m = .ok (some (.ping M)) := by
  obtain ⟨m, hm⟩ := C17_negation_reachable b
  have ht := C17_negation_truncated b m hm
  refine ⟨m, hm, ht, ?_⟩
  have hu : Utf8 ([AT] ++ b!"id" ++ [EQS] ++ List.replicate 65536 0x61 ++ [SP] ++ b!"PING") := by
    refine .of_ascii fun x hx => ?_
    simp only [List.mem_append, List.mem_replicate] at hx
    rcases hx with ((((hx | hx) | hx) | ⟨-, rfl⟩) | hx) | hx
    all_goals first | decide | (revert hx; revert x; decide)
  have hl : ([AT] ++ b!"id" ++ [EQS] ++ List.replicate 65536 0x61 ++ [SP] ++ b!"PING").length
      < 4294967296 := by
    simp only [List.length_append, List.length_replicate]; decide
  obtain ⟨l, hline, -, -, -, -, -, -, hp, -⟩ := C68_typed b _ hu hl m hm _ ht
  have hcmd := pingLine_of (fun h => absurd (List.mem_replicate.1 h).2 (by decide)) hline
  generalize List.replicate 65536 (0x61 : UInt8) = v at *
  refine ⟨⟨none⟩, ?_⟩
  have := (hp.2 ⟨none⟩).2 ⟨hcmd.1, ⟨by unfold Line.text; rw [hcmd.2]; rfl⟩⟩
  obtain ⟨l', hl', h⟩ := C68_message b _ hu hl m hm _ ht
  rw [hline] at hl'
  injection hl' with hl'
  subst hl'
  refine ((h (fun hc => by rw [hcmd.1] at hc; exact absurd hc (by decide))).2 _).2 ⟨?_, by simp⟩
  exact (hp.2 ⟨none⟩).1 this

/-- Non-vacuity of `C68_panics`: the ROOMSTATE of C22. -/
example : ∃ m, MsgRef.parse ⟨.scalar, true⟩ sampleOverflow = .ok (some m) ∧ (∃ tags, m.tags = .ok tags) ∧
    Message.fromIrc m = .error .overflow := by
  have h : (match MsgRef.parse ⟨.scalar, true⟩ sampleOverflow with
    | .ok (some m) => decide (m.tags = .ok [(b!"followers-only", b!"153722867280912931"), (b!"room-id", b!"1")]) &&
        decide (Message.fromIrc m = .error .overflow)
    | _ => false) = true := by decide +kernel
  cases hp : MsgRef.parse ⟨.scalar, true⟩ sampleOverflow with
  | error e => rw [hp] at h; simp at h
  | ok r =>
    cases r with
    | none => rw [hp] at h; simp at h
    | some m =>
      rw [hp] at h
      simp only [Bool.and_eq_true, decide_eq_true_eq] at h
      exact ⟨m, rfl, ⟨_, h.1⟩, h.2⟩

end Tmi.Props
