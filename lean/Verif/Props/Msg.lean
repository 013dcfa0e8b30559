/-
Properties C21-C32 and C52: typed messages.

Throughout, `s` is a valid UTF-8 line within the limits of the tag representation (`Within`), on which
the tag parser of the build finds an end of the tag section (`TagsTerminated`, always true with SIMD).
-/
import Verif.Proofs.Dispatch
import Verif.Props.Line
import Verif.Proofs.Samples

namespace Tmi.Props
open Tmi.Model Tmi.Spec Tmi.Proofs

theorem parseAs_exact {b : Build} {s : Bytes} (hu : Utf8 s) (hw : Within s) (ht : TagsTerminated b s)
    {α : Type} {f : MsgRef → R (Option α)} {P : Line → α → Prop}
    (h : ∀ m l, line s = some l → Represents m l → Exactly (f m) (P l)) :
    (∃ r, parseAs f b s = .ok r) ∧
    ∀ p, parseAs f b s = .ok (some p) ↔ ∃ l, line s = some l ∧ P l p := by
  have hp := parse_refines b hu hw ht
  unfold parseAs
  cases hl : line s with
  | none =>
    rw [hl] at hp
    rw [hp, bind_ok]
    exact ⟨⟨none, rfl⟩, fun p => by simp [pure, Except.pure]⟩
  | some l =>
    rw [hl] at hp
    obtain ⟨m, hm, _, _, R⟩ := hp
    rw [hm, bind_ok]
    obtain ⟨h1, h2⟩ := h m l hl R
    refine ⟨h2, fun p => ?_⟩
    rw [h1]
    constructor
    · intro h; exact ⟨l, rfl, h⟩
    · rintro ⟨l', h, h'⟩; simp at h; subst h; exact h'

/-! ## C21: typed dispatch -/

theorem typed_known {tok : Bytes} (h : tok ∈ typedCommands) (t : Bytes) : commandOf tok ≠ .other t := by
  simp only [typedCommands, List.mem_cons, List.not_mem_nil, or_false] at h
  rcases h with rfl | rfl | rfl | rfl | rfl | rfl | rfl | rfl | rfl | rfl | rfl | rfl | rfl | rfl <;>
    exact fun h => nomatch h

/-- Only the command decides. -/
theorem dispatch_of {m : MsgRef} {tok : Bytes} (hr : m.command = .ok (commandOf tok)) :
    (∀ M, Message.fromIrc m = .ok (some M) →
      match commandOfMessage M with
      | some c => tok = c
      | none => tok ∉ typedCommands) ∧
    (tok = b!"RECONNECT" → Message.fromIrc m = .ok (some .reconnect)) ∧
    (tok ∉ typedCommands → Message.fromIrc m = .ok (some (.other m))) := by
  have hcmd := commandOf_asStr tok
  refine ⟨fun M h => ?_, fun h => ?_, fun h => ?_⟩
  · unfold Message.fromIrc at h
    rw [hr, bind_ok] at h
    have step : ∀ {α : Type} {x : R (Option α)} {c : Bytes},
        (f : α → Message) → into x f = .ok (some M) → (∀ v, commandOfMessage (f v) = some c) → tok = c →
        match commandOfMessage M with
        | some c => tok = c
        | none => tok ∉ typedCommands := by
      intro α x c f h h1 h2
      obtain ⟨v, _, rfl⟩ := into_iff.1 h
      rw [h1 v]; exact h2
    generalize hc : commandOf tok = c at h hcmd
    cases c <;> simp only [] at h
    case reconnect =>
      simp [pure, Except.pure] at h; subst h; exact hcmd.symm
    case clearChat => exact step .clearChat h (fun _ => rfl) hcmd.symm
    case clearMsg => exact step .clearMsg h (fun _ => rfl) hcmd.symm
    case globalUserState => exact step .globalUserState h (fun _ => rfl) hcmd.symm
    case join => exact step .join h (fun _ => rfl) hcmd.symm
    case notice => exact step .notice h (fun _ => rfl) hcmd.symm
    case part => exact step .part h (fun _ => rfl) hcmd.symm
    case ping => exact step .ping h (fun _ => rfl) hcmd.symm
    case pong => exact step .pong h (fun _ => rfl) hcmd.symm
    case privmsg => exact step .privmsg h (fun _ => rfl) hcmd.symm
    case roomState => exact step .roomState h (fun _ => rfl) hcmd.symm
    case userNotice => exact step .userNotice h (fun _ => rfl) hcmd.symm
    case userState => exact step .userState h (fun _ => rfl) hcmd.symm
    case whisper => exact step .whisper h (fun _ => rfl) hcmd.symm
    case other c =>
      simp [pure, Except.pure] at h; subst h
      simp only [commandOfMessage]
      intro hmem
      exact typed_known hmem c hc
    all_goals
      simp [pure, Except.pure] at h; subst h
      simp only [commandOfMessage]
      rw [← hcmd]; decide
  · unfold Message.fromIrc
    rw [hr, bind_ok, (commandOf_known (c := .reconnect) (by simp) _).2 h]
    rfl
  · exact typed_mem (by rw [hcmd]; exact h) m hr

/-- C21: the variant is that of the command; RECONNECT always gives `Reconnect`; every command without
a typed form gives `Other` with the parsed line. -/
theorem C21_dispatch (b : Build) (s : Bytes) (hu : Utf8 s) (hw : Within s) (ht : TagsTerminated b s)
    (l : Line) (hl : line s = some l) :
    (∀ M, Message.parse b s = .ok (some M) →
      match commandOfMessage M with
      | some c => l.command = c
      | none => l.command ∉ typedCommands) ∧
    (l.command = b!"RECONNECT" → Message.parse b s = .ok (some .reconnect)) ∧
    (l.command ∉ typedCommands → ∃ m, MsgRef.parse b s = .ok (some m) ∧
      Message.parse b s = .ok (some (.other m))) := by
  have hp := parse_refines b hu hw ht
  rw [hl] at hp
  obtain ⟨m, hm, _, _, hr⟩ := hp
  have hM : Message.parse b s = Message.fromIrc m := by
    unfold Message.parse; rw [hm, bind_ok]
  rw [hM]
  obtain ⟨h1, h2, h3⟩ := dispatch_of hr.command
  exact ⟨h1, h2, fun h => ⟨m, hm, h3 h⟩⟩

example := C21_dispatch ⟨.scalar, true⟩ samplePriv (utf8_of samplePriv_ok) (within_of samplePriv_ok)
  (terminated_of samplePriv_ok _) _ (line_eq _ samplePriv_line)

/-- C21: `as_typed` on the borrowed and on the owned form of a message is `Message::from_irc`. -/
theorem C21_as_typed (m : MsgRef) :
    m.asTyped = Message.fromIrc m ∧ m.intoOwned.asTyped = Message.fromIrc m := ⟨rfl, rfl⟩

/-- C21: on a line with a typed command, `Message` gives what the parser of that type gives, also when that rejects the
line or panics. -/
theorem C21_agrees (b : Build) (s : Bytes) (hu : Utf8 s) (hw : Within s) (ht : TagsTerminated b s)
    (l : Line) (hl : line s = some l) :
    (l.command = b!"CLEARCHAT" → Message.parse b s = (parseAs ClearChat.parse b s).map (Option.map .clearChat)) ∧
    (l.command = b!"CLEARMSG" → Message.parse b s = (parseAs ClearMsg.parse b s).map (Option.map .clearMsg)) ∧
    (l.command = b!"GLOBALUSERSTATE" → Message.parse b s = (parseAs GlobalUserState.parse b s).map (Option.map .globalUserState)) ∧
    (l.command = b!"JOIN" → Message.parse b s = (parseAs Model.Join.parse b s).map (Option.map .join)) ∧
    (l.command = b!"NOTICE" → Message.parse b s = (parseAs Notice.parse b s).map (Option.map .notice)) ∧
    (l.command = b!"PART" → Message.parse b s = (parseAs Part.parse b s).map (Option.map .part)) ∧
    (l.command = b!"PING" → Message.parse b s = (parseAs Ping.parse b s).map (Option.map .ping)) ∧
    (l.command = b!"PONG" → Message.parse b s = (parseAs Pong.parse b s).map (Option.map .pong)) ∧
    (l.command = b!"PRIVMSG" → Message.parse b s = (parseAs Privmsg.parse b s).map (Option.map .privmsg)) ∧
    (l.command = b!"ROOMSTATE" → Message.parse b s = (parseAs RoomState.parse b s).map (Option.map .roomState)) ∧
    (l.command = b!"USERNOTICE" → Message.parse b s = (parseAs UserNotice.parse b s).map (Option.map .userNotice)) ∧
    (l.command = b!"USERSTATE" → Message.parse b s = (parseAs UserState.parse b s).map (Option.map .userState)) ∧
    (l.command = b!"WHISPER" → Message.parse b s = (parseAs Whisper.parse b s).map (Option.map .whisper)) := by
  have hp := parse_refines b hu hw ht
  rw [hl] at hp
  obtain ⟨m, hm, _, _, hr⟩ := hp
  have hM : Message.parse b s = Message.fromIrc m := by
    unfold Message.parse; rw [hm, bind_ok]
  have hT : ∀ {α : Type} (f : MsgRef → R (Option α)), parseAs f b s = f m := by
    intro α f; unfold parseAs; rw [hm, bind_ok]
  have hI : ∀ {α : Type} (x : R (Option α)) (f : α → Message), into x f = x.map (Option.map f) := by
    intro α x f; cases x <;> rfl
  have hc : ∀ {c : Command}, commandOf l.command = c → m.command = .ok c := fun h => by rw [hr.command, h]
  simp only [hM, hT]
  refine ⟨?_, ?_, ?_, ?_, ?_, ?_, ?_, ?_, ?_, ?_, ?_, ?_, ?_⟩ <;> intro h <;> rw [h] at hc <;> unfold Message.fromIrc <;>
    rw [hc rfl, bind_ok, ← hI] <;> rfl

/-- Non-vacuity: a chat message, and a line of a command that its parser rejects. -/
example := (C21_agrees ⟨.scalar, true⟩ samplePriv (utf8_of samplePriv_ok) (within_of samplePriv_ok)
  (terminated_of samplePriv_ok _) _ (line_eq _ samplePriv_line)).2.2.2.2.2.2.2.2.1 (by decide +kernel)
example : Message.parse ⟨.scalar, true⟩ (b!"PRIVMSG #a :no tags") = .ok none ∧
    parseAs Privmsg.parse ⟨.scalar, true⟩ (b!"PRIVMSG #a :no tags") = .ok none := by decide +kernel

/-- C21: each typed parser rejects the lines of every other command. -/
theorem C21_reject (b : Build) (s : Bytes) (hu : Utf8 s) (hw : Within s) (ht : TagsTerminated b s)
    (l : Line) (hl : line s = some l) :
    (l.command ≠ b!"CLEARCHAT" → parseAs ClearChat.parse b s = .ok none) ∧
    (l.command ≠ b!"CLEARMSG" → parseAs ClearMsg.parse b s = .ok none) ∧
    (l.command ≠ b!"GLOBALUSERSTATE" → parseAs GlobalUserState.parse b s = .ok none) ∧
    (l.command ≠ b!"JOIN" → parseAs Model.Join.parse b s = .ok none) ∧
    (l.command ≠ b!"NOTICE" → parseAs Notice.parse b s = .ok none) ∧
    (l.command ≠ b!"PART" → parseAs Part.parse b s = .ok none) ∧
    (l.command ≠ b!"PING" → parseAs Ping.parse b s = .ok none) ∧
    (l.command ≠ b!"PONG" → parseAs Pong.parse b s = .ok none) ∧
    (l.command ≠ b!"PRIVMSG" → parseAs Privmsg.parse b s = .ok none) ∧
    (l.command ≠ b!"ROOMSTATE" → parseAs RoomState.parse b s = .ok none) ∧
    (l.command ≠ b!"USERNOTICE" → parseAs UserNotice.parse b s = .ok none) ∧
    (l.command ≠ b!"USERSTATE" → parseAs UserState.parse b s = .ok none) ∧
    (l.command ≠ b!"WHISPER" → parseAs Whisper.parse b s = .ok none) := by
  have hp := parse_refines b hu hw ht
  rw [hl] at hp
  obtain ⟨m, hm, _, _, hr⟩ := hp
  have hP : ∀ {α : Type} (f : MsgRef → R (Option α)), parseAs f b s = f m := by
    intro α f; unfold parseAs; rw [hm, bind_ok]
  simp only [hP]
  exact ⟨fun h => (clearChat_exactly hr).reject fun _ h' => h h'.1,
    fun h => (clearMsg_exactly hr).reject fun _ h' => h h'.1,
    fun h => (globalUserState_exactly hr).reject fun _ h' => h h'.1,
    fun h => (join_exactly hr).reject fun _ h' => h h'.1,
    fun h => (notice_exactly hr).reject fun _ h' => h h'.1,
    fun h => (part_exactly hr).reject fun _ h' => h h'.1,
    fun h => (ping_exactly hr).reject fun _ h' => h h'.1,
    fun h => (pong_exactly hr).reject fun _ h' => h h'.1,
    fun h => (privmsg_exactly hr).reject fun _ h' => h h'.1,
    fun h => roomState_missing hr (.inl h),
    fun h => (userNotice_exactly hr).reject fun _ h' => h h'.1,
    fun h => (userState_exactly hr).reject fun _ h' => h h'.1,
    fun h => (whisper_exactly hr).reject fun _ h' => h h'.1⟩

example := C21_reject ⟨.simd .avx2 1, false⟩ samplePriv (utf8_of samplePriv_ok) (within_of samplePriv_ok)
  (terminated_of samplePriv_ok _) _ (line_eq _ samplePriv_line)

/-- C21: `Message::parse` as a whole returns exactly the typed message that the specification gives
to the line.  (The excluded ROOMSTATE lines are those of `C22_exact`.) -/
theorem C21_message (b : Build) (s : Bytes) (hu : Utf8 s) (hw : Within s) (ht : TagsTerminated b s)
    (ho : ∀ l, line s = some l → l.command = b!"ROOMSTATE" → ¬ FollowersOverflow l) (M : Message) :
    Message.parse b s = .ok (some M) ↔
      ∃ l, line s = some l ∧ MessageOf l M ∧ ∀ m, M = .other m → MsgRef.parse b s = .ok (some m) := by
  have hp := parse_refines b hu hw ht
  unfold Message.parse
  cases hl : line s with
  | none =>
    rw [hl] at hp
    rw [hp, bind_ok]
    simp [pure, Except.pure]
  | some l =>
    rw [hl] at hp
    obtain ⟨m, hm, _, _, hr⟩ := hp
    rw [hm, bind_ok]
    rw [(fromIrc_exactly hr (ho l hl)).2 M]
    constructor
    · rintro ⟨h1, h2⟩
      exact ⟨l, rfl, h1, fun m' h => by rw [h2 m' h]⟩
    · rintro ⟨l', h, h1, h2⟩
      simp at h; subst h
      refine ⟨h1, fun m' h => ?_⟩
      have := h2 m' h
      simpa using this.symm

example := C21_message ⟨.scalar, true⟩ samplePriv (utf8_of samplePriv_ok) (within_of samplePriv_ok)
  (terminated_of samplePriv_ok _) (fun l hl hc => by
    have : (line samplePriv).map (·.command) = some (b!"PRIVMSG") := by decide +kernel
    rw [hl, Option.map_some, hc] at this
    exact absurd this (by decide))

/-- A PRIVMSG with a reply, a hype chat, badges and an action. -/
def samplePrivmsg : Bytes :=
  b!"@badge-info=subscriber/22;badges=subscriber/12,vip/1,partner;bits=100;color=#FF0000;display-name=A\\sB;emotes=;id=m1;pinned-chat-paid-amount=200;pinned-chat-paid-currency=USD;pinned-chat-paid-exponent=2;pinned-chat-paid-level=TWO;pinned-chat-paid-is-system-message=0;reply-parent-msg-id=r1;room-id=9;tmi-sent-ts=1594545155039;user-id=7 :a!a@a.tmi.twitch.tv PRIVMSG #c :" ++
    0x01 :: b!"ACTION hi there" ++ [0x01]

theorem samplePrivmsg_ok : Utf8 samplePrivmsg ∧ Within samplePrivmsg ∧
    (∀ b, TagsTerminated b samplePrivmsg) :=
  ⟨.of_ascii (by decide +kernel), ⟨by decide +kernel, by decide +kernel, by decide +kernel⟩,
    fun _ _ r hr => by
      have : r = samplePrivmsg.tail := by rw [hr]; rfl
      rw [this]; decide +kernel⟩

/-- What the sample parses to, evaluated. -/
def samplePrivmsgValue : Privmsg := {
  channel := b!"#c", channelId := b!"9", msgId := none, id := b!"m1"
  sender := ⟨b!"7", b!"a", b!"A\\sB"⟩, replyTo := none
  pinnedChat := some ⟨200, b!"USD", 2, .two, false⟩
  text := b!"hi there", isAction := true
  badges := [.subscriber ⟨b!"12", b!"22", 22⟩, .other ⟨b!"vip", b!"1", none⟩]
  color := some (b!"#FF0000"), customRewardId := none, bits := some 100, emotes := []
  timestamp := .ofMillis 1594545155039 }

/-- Non-vacuity of C21-C26: a PRIVMSG line meets the hypotheses and is parsed. -/
theorem samplePrivmsg_parse :
    Message.parse ⟨.scalar, true⟩ samplePrivmsg = .ok (some (.privmsg samplePrivmsgValue)) := by
  decide +kernel

/-! ## C22: typed parsing never panics -/

/-- When `Message::from` panics on a message that exposes a line. -/
theorem fromIrc_panics_iff {m : MsgRef} {l : Line} (hr : Represents m l) :
    (∃ e, Message.fromIrc m = .error e) ↔
      m.checks = true ∧ l.command = b!"ROOMSTATE" ∧
        (∃ c, l.channel = some c) ∧ (∃ i, l.tag (b!"room-id") = some i) ∧
        ∃ v n, l.tag (b!"followers-only") = some v ∧ I64 v n ∧ 153722867280912930 < n := by
  have fine : Fine (Message.fromIrc m) → ¬ ∃ e, Message.fromIrc m = .error e := by
    rintro ⟨r, h⟩ ⟨e, h'⟩; rw [h] at h'; simp at h'
  by_cases hc : l.command = b!"ROOMSTATE"
  · have e : commandOf l.command = .roomState := (commandOf_known (by simp) _).2 hc
    have hroom : Message.fromIrc m = into (RoomState.parse m) .roomState := by
      unfold Message.fromIrc; rw [hr.command, e, bind_ok]
    by_cases ho : FollowersOverflow l
    · by_cases hmiss : l.channel = none ∨ l.tag (b!"room-id") = none
      · have := roomState_missing hr (.inr hmiss)
        constructor
        · intro h
          exact absurd h (fine (by rw [hroom, this]; exact ⟨_, rfl⟩))
        · rintro ⟨_, _, ⟨c, h1⟩, ⟨i, h2⟩, _⟩
          rcases hmiss with h' | h'
          · rw [h'] at h1; simp at h1
          · rw [h'] at h2; simp at h2
      · obtain ⟨v, n, hv, hn, hlt⟩ := ho
        cases hch : l.channel with
        | none => exact absurd (.inl hch) hmiss
        | some c =>
          cases hi : l.tag (b!"room-id") with
          | none => exact absurd (.inr hi) hmiss
          | some i =>
            obtain ⟨h1, h2⟩ := roomState_overflow hr hv hn hlt hc hch hi
            constructor
            · intro h
              cases hb : m.checks with
              | true => exact ⟨rfl, hc, ⟨c, rfl⟩, ⟨i, rfl⟩, v, n, hv, hn, hlt⟩
              | false =>
                obtain ⟨p, hp, _⟩ := h2 hb
                exact absurd h (fine (by rw [hroom, hp]; exact ⟨_, rfl⟩))
            · rintro ⟨hb, _⟩
              refine ⟨.overflow, ?_⟩
              rw [hroom, h1 hb]; rfl
    · have := fromIrc_exactly hr (fun _ => ho)
      constructor
      · intro h; exact absurd h (fine this.1)
      · rintro ⟨_, _, _, _, v, n, h1, h2, h3⟩
        exact absurd ⟨v, n, h1, h2, h3⟩ ho
  · have := fromIrc_exactly hr (fun h => absurd h hc)
    constructor
    · intro h; exact absurd h (fine this.1)
    · rintro ⟨_, h', _⟩
      exact absurd h' hc

/-- C22, exactly when typed parsing panics (within the limits): a build with overflow checks, on a
ROOMSTATE with channel and room id whose `followers-only` minutes overflow when turned into seconds. -/
theorem C22_exact (b : Build) (s : Bytes) (hu : Utf8 s) (hw : Within s) (ht : TagsTerminated b s) :
    (∃ e, Message.parse b s = .error e) ↔
      b.checks = true ∧ ∃ l, line s = some l ∧ l.command = b!"ROOMSTATE" ∧
        (∃ c, l.channel = some c) ∧ (∃ i, l.tag (b!"room-id") = some i) ∧
        ∃ v n, l.tag (b!"followers-only") = some v ∧ I64 v n ∧ 153722867280912930 < n := by
  have hp := parse_refines b hu hw ht
  unfold Message.parse
  cases hl : line s with
  | none =>
    rw [hl] at hp
    rw [hp, bind_ok]
    simp [pure, Except.pure]
  | some l =>
    rw [hl] at hp
    obtain ⟨m, hm, _, hck, hr⟩ := hp
    rw [hm, bind_ok, ← hck]
    refine (fromIrc_panics_iff hr).trans ⟨fun ⟨h1, h2⟩ => ⟨h1, l, rfl, h2⟩, ?_⟩
    rintro ⟨h1, l', h, h2⟩
    simp at h; subst h
    exact ⟨h1, h2⟩

example := C22_exact ⟨.scalar, true⟩ sampleRoomState (utf8_of sampleRoomState_ok) (within_of sampleRoomState_ok)
  (terminated_of sampleRoomState_ok _)

/-- The line that refutes C22 and C30. -/
def sampleOverflow : Bytes :=
  b!"@followers-only=153722867280912931;room-id=1 :tmi.twitch.tv ROOMSTATE #c"

/-- C22 is false: a `followers-only` of 2^63/60 minutes panics in a build with overflow checks. -/
theorem C22_negation : Message.parse ⟨.scalar, true⟩ sampleOverflow = .error .overflow := by
  decide +kernel

/-- C22, the part that holds: no panic when overflow checks are off, and none for lines other than
ROOMSTATE lines with an overflowing `followers-only`.
Missing: those lines in builds with checks (`C22_negation`), and lines that `parse` itself rejects with
a panic (`C01_negation_129_tags`, `C01_negation_scalar`). -/
theorem C22_no_panic_partial (b : Build) (s : Bytes) (hu : Utf8 s) (hw : Within s)
    (ht : TagsTerminated b s)
    (ho : b.checks = false ∨ ∀ l, line s = some l → l.command = b!"ROOMSTATE" →
      ∀ v n, l.tag (b!"followers-only") = some v → I64 v n → n ≤ 153722867280912930) :
    ∃ r, Message.parse b s = .ok r := by
  cases h : Message.parse b s with
  | ok r => exact ⟨r, rfl⟩
  | error e =>
    obtain ⟨hb, l, hl, hc, _, _, v, n, h1, h2, h3⟩ := (C22_exact b s hu hw ht).1 ⟨e, h⟩
    rcases ho with ho | ho
    · rw [hb] at ho; simp at ho
    · exact absurd (ho l hl hc v n h1 h2) (by omega)

example : ∃ b s, Utf8 s ∧ Within s ∧ TagsTerminated b s ∧ b.checks = true ∧
    ∃ l, line s = some l ∧ l.command = b!"PRIVMSG" :=
  ⟨⟨.scalar, true⟩, samplePrivmsg, samplePrivmsg_ok.1, samplePrivmsg_ok.2.1, samplePrivmsg_ok.2.2 _, rfl,
    by decide +kernel⟩

/-! ## C23, C24, C25: PRIVMSG -/

/-- C23: a line parses as a `Privmsg` exactly when it is one, with every field from its place. -/
theorem C23_privmsg (b : Build) (s : Bytes) (hu : Utf8 s) (hw : Within s) (ht : TagsTerminated b s) :
    (∃ r, parseAs Privmsg.parse b s = .ok r) ∧
    ∀ p, parseAs Privmsg.parse b s = .ok (some p) ↔
      ∃ l, line s = some l ∧ l.command = b!"PRIVMSG" ∧ PrivmsgOf l p :=
  parseAs_exact hu hw ht fun _ _ _ hr => privmsg_exactly hr

example := C23_privmsg ⟨.simd .sse2 0, true⟩ samplePriv (utf8_of samplePriv_ok) (within_of samplePriv_ok)
  (terminated_of samplePriv_ok _)

/-- C23: a PRIVMSG line parses iff text, channel, `room-id`, `id`, `user-id`, `display-name`, a nick
and a valid `tmi-sent-ts` are present: nothing else can make it fail. -/
theorem C23_privmsg_required (b : Build) (s : Bytes) (hu : Utf8 s) (hw : Within s)
    (ht : TagsTerminated b s) (l : Line) (hl : line s = some l) (hc : l.command = b!"PRIVMSG") :
    (∃ p, parseAs Privmsg.parse b s = .ok (some p)) ↔
      l.text ≠ none ∧ l.channel ≠ none ∧ l.tag (b!"room-id") ≠ none ∧ l.tag (b!"id") ≠ none ∧
      l.tag (b!"user-id") ≠ none ∧ l.tag (b!"display-name") ≠ none ∧ l.nick ≠ none ∧
      ∃ t, TimestampOf l t := by
  have hp := parse_refines b hu hw ht
  rw [hl] at hp
  obtain ⟨m, hm, _, _, hr⟩ := hp
  constructor
  · rintro ⟨p, h⟩
    obtain ⟨l', hl', _, h⟩ := ((C23_privmsg b s hu hw ht).2 p).1 h
    rw [hl] at hl'; simp at hl'; subst hl'
    obtain ⟨t, h1, _⟩ := h.text
    simp [h1, h.channel, h.channelId, h.id, h.senderId, h.senderName, h.senderLogin]
    exact ⟨_, h.timestamp⟩
  · rintro ⟨h1, h2, h3, h4, h5, h6, h7, t, h8⟩
    obtain ⟨txt, h1⟩ := Option.ne_none_iff_exists'.1 h1
    obtain ⟨ch, h2⟩ := Option.ne_none_iff_exists'.1 h2
    obtain ⟨ri, h3⟩ := Option.ne_none_iff_exists'.1 h3
    obtain ⟨i, h4⟩ := Option.ne_none_iff_exists'.1 h4
    obtain ⟨ui, h5⟩ := Option.ne_none_iff_exists'.1 h5
    obtain ⟨dn, h6⟩ := Option.ne_none_iff_exists'.1 h6
    obtain ⟨ni, h7⟩ := Option.ne_none_iff_exists'.1 h7
    obtain ⟨bs, hb1, hb2⟩ := badgesOf_iff hr
    obtain ⟨hr1, rep, hrep⟩ := reply_exactly hr
    obtain ⟨hp1, pin, hpin⟩ := pinned_exactly hr
    rw [hrep] at hr1
    rw [hpin] at hp1
    simp only [Except.ok.injEq] at hr1 hp1
    let p : Privmsg := {
      channel := ch, channelId := ri, msgId := l.tag (b!"msg-id"), id := i, sender := ⟨ui, ni, dn⟩
      replyTo := rep, pinnedChat := pin, text := (parseMessageText txt).1
      isAction := (parseMessageText txt).2, badges := bs, color := nonEmpty (l.tag (b!"color"))
      customRewardId := nonEmpty (l.tag (b!"custom-reward-id"))
      bits := (l.tag (b!"bits")).bind parseU64, emotes := (l.tag (b!"emotes")).getD [], timestamp := t }
    refine ⟨p, ((C23_privmsg b s hu hw ht).2 p).2 ⟨l, hl, hc, ?_⟩⟩
    exact {
      text := ⟨txt, h1, (text_iff _ _ _).1 rfl⟩, channel := h2, channelId := h3, msgId := rfl
      id := h4, senderId := h5, senderLogin := h7, senderName := h6, replyTo := hr1
      pinnedChat := hp1, badges := (hb2 _).1 rfl, color := (optText_iff _ _).1 rfl
      customRewardId := (optText_iff _ _).1 rfl, bits := optU64 _, emotes := rfl, timestamp := h8 }

example := C23_privmsg_required ⟨.scalar, true⟩ samplePriv (utf8_of samplePriv_ok) (within_of samplePriv_ok)
  (terminated_of samplePriv_ok _) _ (line_eq _ samplePriv_line) (by decide +kernel)

/-- C24: `reply_to` is there iff all seven reply tags are; `pinned_chat` iff all five pinned-chat tags
are, with numeric amount and exponent and a known level.  (That they never make the message fail is
`C23_privmsg_required`, which does not mention them.) -/
theorem C24_optional (b : Build) (s : Bytes) (hu : Utf8 s) (hw : Within s) (ht : TagsTerminated b s)
    (l : Line) (hl : line s = some l) (p : Privmsg)
    (h : parseAs Privmsg.parse b s = .ok (some p)) :
    (p.replyTo ≠ none ↔ ∀ t ∈ [b!"reply-parent-msg-id", b!"reply-thread-parent-msg-id",
      b!"reply-thread-parent-user-login", b!"reply-parent-user-id", b!"reply-parent-user-login",
      b!"reply-parent-display-name", b!"reply-parent-msg-body"], l.tag t ≠ none) ∧
    (∀ r, p.replyTo = some r → ReplyOf l r) ∧
    (p.pinnedChat ≠ none ↔
      (∃ v n, l.tag (b!"pinned-chat-paid-amount") = some v ∧ I64 v n) ∧
      l.tag (b!"pinned-chat-paid-currency") ≠ none ∧
      (∃ v n, l.tag (b!"pinned-chat-paid-exponent") = some v ∧ I64 v n) ∧
      (∃ v ∈ [b!"ONE", b!"TWO", b!"THREE", b!"FOUR", b!"FIVE", b!"SIX", b!"SEVEN", b!"EIGHT", b!"NINE",
        b!"TEN"], l.tag (b!"pinned-chat-paid-level") = some v) ∧
      l.tag (b!"pinned-chat-paid-is-system-message") ≠ none) ∧
    (∀ r, p.pinnedChat = some r → PinnedOf l r) := by
  obtain ⟨l', hl', _, h⟩ := ((C23_privmsg b s hu hw ht).2 p).1 h
  rw [hl] at hl'; simp at hl'; subst hl'
  refine ⟨?_, fun r => (h.replyTo r).1, ?_, fun r => (h.pinnedChat r).1⟩
  · rw [Option.ne_none_iff_exists']
    simp only [List.forall_mem_cons, List.not_mem_nil, false_imp_iff, implies_true, and_true,
      Option.ne_none_iff_exists']
    constructor
    · rintro ⟨r, hr⟩
      have := (h.replyTo r).1 hr
      exact ⟨⟨_, this.messageId⟩, ⟨_, this.threadParentMessageId⟩, ⟨_, this.threadParentUserLogin⟩,
        ⟨_, this.senderId⟩, ⟨_, this.senderLogin⟩, ⟨_, this.senderName⟩, ⟨_, this.text⟩⟩
    · rintro ⟨⟨a, h1⟩, ⟨b, h2⟩, ⟨c, h3⟩, ⟨d, h4⟩, ⟨e, h5⟩, ⟨f, h6⟩, ⟨g, h7⟩⟩
      exact ⟨⟨b, c, a, ⟨d, e, f⟩, g⟩, (h.replyTo _).2 ⟨h1, h2, h3, h4, h5, h6, h7⟩⟩
  · rw [Option.ne_none_iff_exists']
    have lv : ∀ v, v ∈ [b!"ONE", b!"TWO", b!"THREE", b!"FOUR", b!"FIVE", b!"SIX", b!"SEVEN", b!"EIGHT",
        b!"NINE", b!"TEN"] ↔ ∃ x, levelName x = v := by
      intro v
      simp only [List.mem_cons, List.not_mem_nil, or_false]
      constructor
      · rintro (rfl | rfl | rfl | rfl | rfl | rfl | rfl | rfl | rfl | rfl)
        · exact ⟨.one, rfl⟩
        · exact ⟨.two, rfl⟩
        · exact ⟨.three, rfl⟩
        · exact ⟨.four, rfl⟩
        · exact ⟨.five, rfl⟩
        · exact ⟨.six, rfl⟩
        · exact ⟨.seven, rfl⟩
        · exact ⟨.eight, rfl⟩
        · exact ⟨.nine, rfl⟩
        · exact ⟨.ten, rfl⟩
      · rintro ⟨x, rfl⟩; cases x <;> simp [levelName]
    constructor
    · rintro ⟨r, hr⟩
      obtain ⟨⟨v1, h1, h1'⟩, h2, ⟨v3, h3, h3'⟩, h4, ⟨v5, h5, _⟩⟩ := (h.pinnedChat r).1 hr
      exact ⟨⟨v1, _, h1, h1'⟩, by rw [h2]; simp, ⟨v3, _, h3, h3'⟩, ⟨_, (lv _).2 ⟨_, rfl⟩, h4⟩,
        by rw [h5]; simp⟩
    · rintro ⟨⟨v1, n1, h1, h1'⟩, h2, ⟨v3, n3, h3, h3'⟩, ⟨v4, h4, h4'⟩, h5⟩
      obtain ⟨v2, h2⟩ := Option.ne_none_iff_exists'.1 h2
      obtain ⟨v5, h5⟩ := Option.ne_none_iff_exists'.1 h5
      obtain ⟨x, rfl⟩ := (lv _).1 h4
      exact ⟨⟨n1, v2, n3, x, parseBool v5⟩, (h.pinnedChat _).2
        ⟨⟨v1, h1, h1'⟩, h2, ⟨v3, h3, h3'⟩, h4', ⟨v5, h5, C33_bool v5⟩⟩⟩

example := C24_optional ⟨.scalar, true⟩ samplePriv (utf8_of samplePriv_ok) (within_of samplePriv_ok)
  (terminated_of samplePriv_ok _) _ (line_eq _ samplePriv_line) _ (given_eq _ samplePriv_parsed)

/-- C25: `is_action` and `text` for every text of a PRIVMSG or CLEARMSG. -/
theorem C25_action (input : Bytes) :
    (∀ body, input = 0x01 :: b!"ACTION " ++ body ++ [0x01] → parseMessageText input = (body, true)) ∧
    ((¬ ∃ body, input = 0x01 :: b!"ACTION " ++ body ++ [0x01]) →
      parseMessageText input = (input, false)) :=
  ⟨fun _ h => (text_iff _ _ _).2 (.inl ⟨rfl, h⟩), fun h => (text_iff _ _ _).2 (.inr ⟨rfl, rfl, h⟩)⟩

/-- C25 on whole lines: what `text` and `is_action` of a parsed PRIVMSG and CLEARMSG are. -/
theorem C25_action_lines (b : Build) (s : Bytes) (hu : Utf8 s) (hw : Within s)
    (ht : TagsTerminated b s) (l : Line) (hl : line s = some l) (t : Bytes) (hx : l.text = some t) :
    (∀ p, parseAs Privmsg.parse b s = .ok (some p) → TextOf t p.text p.isAction) ∧
    (∀ p, parseAs ClearMsg.parse b s = .ok (some p) → TextOf t p.text p.isAction) := by
  constructor
  · intro p h
    obtain ⟨l', hl', _, h⟩ := ((C23_privmsg b s hu hw ht).2 p).1 h
    rw [hl] at hl'; simp at hl'; subst hl'
    obtain ⟨t', h1, h2⟩ := h.text
    rw [hx] at h1; simp at h1; rw [h1]; exact h2
  · intro p h
    obtain ⟨l', hl', _, h⟩ := ((parseAs_exact hu hw ht fun _ _ _ hr => clearMsg_exactly hr).2 p).1 h
    rw [hl] at hl'; simp at hl'; subst hl'
    obtain ⟨t', h1, h2⟩ := h.text
    rw [hx] at h1; simp at h1; rw [h1]; exact h2

example : parseMessageText (0x01 :: b!"ACTION " ++ [0x01]) = ([], true) ∧
    parseMessageText (0x01 :: b!"ACTION" ++ [0x01]) = (0x01 :: b!"ACTION" ++ [0x01], false) := by decide

/-! ## C26, C27: badges -/

/-- C26: for every pair of tag values. -/
theorem C26_badges (badges info : Bytes) :
    BadgesOf (some badges) (some info) (parseBadges badges info) ∧
    ∀ r, BadgesOf (some badges) (some info) r → r = parseBadges badges info := by
  have key : BadgesOf (some badges) (some info) (parseBadges badges info) := by
    refine ⟨fun h => by simp at h, fun b i hb hi => ?_⟩
    simp at hb hi; subst hb; subst hi
    rw [parseBadges_eq]
    refine ⟨by simp, fun k n v hk => ?_⟩
    refine ⟨_, ?_, (badgeOf_iff _ _ _ _).1 rfl⟩
    rw [List.getElem?_map, hk]; rfl
  refine ⟨key, fun r hr => ?_⟩
  obtain ⟨h1, h2⟩ := hr.present _ _ rfl rfl
  obtain ⟨h3, h4⟩ := key.present _ _ rfl rfl
  apply List.ext_getElem?
  intro k
  cases he : (entries badges)[k]? with
  | none =>
    rw [List.getElem?_eq_none_iff] at he
    rw [List.getElem?_eq_none (by omega), List.getElem?_eq_none (by omega)]
  | some nv =>
    obtain ⟨x, hx, hb⟩ := h2 k nv.1 nv.2 he
    obtain ⟨y, hy, hb'⟩ := h4 k nv.1 nv.2 he
    rw [hx, hy, ← (badgeOf_iff _ _ _ _).2 hb, ← (badgeOf_iff _ _ _ _).2 hb']

/-- C26: the comma-separated fields of the specification are the unique way to write a string as a
comma-joined list of strings without commas. -/
theorem C26_fields (s : Bytes) :
    joinWith COMMA (fields COMMA s) = s ∧ (∀ p ∈ fields COMMA s, COMMA ∉ p) ∧
    ∀ ps, ps ≠ [] → (∀ p ∈ ps, COMMA ∉ p) → joinWith COMMA ps = s → ps = fields COMMA s := by
  have := joinWith_fields COMMA s.length s (Nat.le_refl _)
  refine ⟨this.1, this.2, fun ps h1 h2 h3 => ?_⟩
  rw [← h3, fields_joinWith COMMA ps h1 h2]

/-- C26 in the other direction: any list of names and versions, written as a `badges` tag, comes back
as the badges of those names and versions. -/
theorem C26_badges_roundtrip (nvs : List (Bytes × Bytes)) (info : Bytes)
    (h : ∀ nv ∈ nvs, SLASH ∉ nv.1 ∧ COMMA ∉ nv.1 ∧ COMMA ∉ nv.2) :
    parseBadges (joinWith COMMA (nvs.map fun nv => nv.1 ++ SLASH :: nv.2)) info =
      nvs.map fun nv => (BadgeData.mk nv.1 nv.2 (lookup nv.1 (entries info))).toBadge := by
  rw [parseBadges_eq]
  congr 1
  unfold entries
  cases nvs with
  | nil => rw [List.map_nil, joinWith, fields_none (by simp)]; rfl
  | cons a nvs =>
    rw [fields_joinWith COMMA _ (by simp)]
    · generalize a :: nvs = l at h
      induction l with
      | nil => rfl
      | cons nv l ih =>
        rw [List.map_cons, List.filterMap_cons_some (cut_append _ (h nv (by simp)).1),
          ih (fun x hx => h x (List.mem_cons_of_mem _ hx))]
    · intro p hp
      obtain ⟨nv, hnv, rfl⟩ := List.mem_map.1 hp
      have := h nv hnv
      simp only [List.mem_append, List.mem_cons, not_or]
      exact ⟨this.2.1, by decide, this.2.2⟩

example : ∀ nv ∈ [(b!"subscriber", b!"12"), (b!"vip", b!"1"), (b!"a", [])],
    SLASH ∉ nv.1 ∧ COMMA ∉ nv.1 ∧ COMMA ∉ nv.2 := by decide

/-- C27: a badge built from data, converted to data and back, is the same badge. -/
theorem C27_badge_roundtrip (d : BadgeData) :
    d.toBadge.toData.toBadge = d.toBadge ∧ d.toBadge.toData.name = d.name := by
  by_cases h1 : d.name = b!"staff"
  · have : d.toBadge = .staff := by unfold BadgeData.toBadge; rw [if_pos h1]
    rw [this, h1]; decide
  by_cases h2 : d.name = b!"turbo"
  · have : d.toBadge = .turbo := by unfold BadgeData.toBadge; rw [if_neg h1, if_pos h2]
    rw [this, h2]; decide
  by_cases h3 : d.name = b!"broadcaster"
  · have : d.toBadge = .broadcaster := by
      unfold BadgeData.toBadge; rw [if_neg h1, if_neg h2, if_pos h3]
    rw [this, h3]; decide
  by_cases h4 : d.name = b!"moderator"
  · have : d.toBadge = .moderator := by
      unfold BadgeData.toBadge; rw [if_neg h1, if_neg h2, if_neg h3, if_pos h4]
    rw [this, h4]; decide
  by_cases h5 : d.name = b!"subscriber"
  · obtain ⟨n, v, e⟩ := d
    simp only at h5
    subst h5
    refine ⟨?_, rfl⟩
    cases e with
    | some e => rfl
    | none =>
      have : (parseU64 (b!"1")).getD 1 = 1 := by decide
      show Badge.subscriber ⟨v, b!"1", (parseU64 (b!"1")).getD 1⟩ = Badge.subscriber ⟨v, b!"1", 1⟩
      rw [this]
  · have : d.toBadge = .other d := by
      unfold BadgeData.toBadge
      rw [if_neg h1, if_neg h2, if_neg h3, if_neg h4, if_neg h5]
    rw [this]
    exact ⟨this, rfl⟩

/-- C27 for the badges of any parsed tag. -/
theorem C27_parsed (badges info : Bytes) : ∀ x ∈ parseBadges badges info,
    x.toData.toBadge = x ∧ ∃ nv ∈ entries badges, x.toData.name = nv.1 := by
  intro x hx
  rw [parseBadges_eq, List.mem_map] at hx
  obtain ⟨nv, hnv, rfl⟩ := hx
  have := C27_badge_roundtrip ⟨nv.1, nv.2, lookup nv.1 (entries info)⟩
  exact ⟨this.1, nv, hnv, this.2⟩

/-- C27: for a subscriber, `months()` is the numeric badge-info or 1, and the version is kept. -/
theorem C27_months (version : Bytes) (extra : Option Bytes) :
    ∃ m, (BadgeData.mk (b!"subscriber") version extra).toBadge =
      .subscriber ⟨version, extra.getD (b!"1"), m⟩ ∧ MonthsOf extra m :=
  ⟨_, rfl, (monthsOf_iff _ _).1 rfl⟩

/-- C27: what `as_badge_data` reports of a badge built from data.  The four badges without a payload
always report version 1 and no extra; a subscriber keeps its version and reports its months, 1 if
there are none; every other badge reports exactly what it was built from. -/
theorem C27_data (d : BadgeData) :
    (d.name ∈ [b!"staff", b!"turbo", b!"broadcaster", b!"moderator"] →
      d.toBadge.toData = ⟨d.name, b!"1", none⟩) ∧
    (d.name = b!"subscriber" →
      d.toBadge.toData = ⟨d.name, d.version, some (d.extra.getD (b!"1"))⟩) ∧
    (d.name ∉ [b!"staff", b!"turbo", b!"broadcaster", b!"moderator", b!"subscriber"] →
      d.toBadge.toData = d) := by
  obtain ⟨n, v, e⟩ := d
  refine ⟨fun h => ?_, fun h => ?_, fun h => ?_⟩
  · simp only [List.mem_cons, List.not_mem_nil, or_false] at h
    rcases h with rfl | rfl | rfl | rfl <;> rfl
  · simp only at h
    subst h
    rfl
  · simp only [List.mem_cons, List.not_mem_nil, or_false, not_or] at h
    unfold BadgeData.toBadge
    rw [if_neg h.1, if_neg h.2.1, if_neg h.2.2.1, if_neg h.2.2.2.1, if_neg h.2.2.2.2]
    rfl

/-- C27, what is not preserved: the version of a moderator badge is reported as "1". -/
theorem C27_version_lost : (BadgeData.mk (b!"moderator") (b!"2") none).toBadge.toData =
    ⟨b!"moderator", b!"1", none⟩ := by decide

example : b!"vip" ∉ [b!"staff", b!"turbo", b!"broadcaster", b!"moderator", b!"subscriber"] ∧
    b!"turbo" ∈ [b!"staff", b!"turbo", b!"broadcaster", b!"moderator"] := by decide

example : (parseBadges (b!"subscriber/12,x,vip/1") (b!"subscriber/22,subscriber/9")).length = 2 := by decide

/-! ## C28: CLEARCHAT -/

/-- C28: a line parses as a `ClearChat` exactly when the specification says so. -/
theorem C28_clear_chat (b : Build) (s : Bytes) (hu : Utf8 s) (hw : Within s)
    (ht : TagsTerminated b s) :
    (∃ r, parseAs ClearChat.parse b s = .ok r) ∧
    ∀ p, parseAs ClearChat.parse b s = .ok (some p) ↔
      ∃ l, line s = some l ∧ l.command = b!"CLEARCHAT" ∧ ClearChatOf l p :=
  parseAs_exact hu hw ht fun _ _ _ hr => clearChat_exactly hr

example := C28_clear_chat ⟨.scalar, true⟩ sampleTimeout (utf8_of sampleTimeout_ok) (within_of sampleTimeout_ok)
  (terminated_of sampleTimeout_ok _)

theorem action_of {l : Line} {p : ClearChat} (h : ClearChatOf l p) :
    (p.action.isClear = true ↔ l.text = none) ∧
    (p.action.isTimeOut = true ↔ l.text ≠ none ∧ ∃ d, l.num (b!"ban-duration") d) ∧
    (p.action.isBan = true ↔ l.text ≠ none ∧ ¬ ∃ d, l.num (b!"ban-duration") d) ∧
    p.target = l.text := by
  have ha := h.action
  have num : ∀ r, OptSecs (l.tag (b!"ban-duration")) r → ((∃ d, l.num (b!"ban-duration") d) ↔ r ≠ none) := by
    intro r hr
    rw [Option.ne_none_iff_exists']
    constructor
    · rintro ⟨d, v, h1, h2, h3⟩
      exact ⟨_, (hr _).2 ⟨v, d, h1, h2, h3, rfl⟩⟩
    · rintro ⟨d, hd⟩
      obtain ⟨v, n, h1, h2, h3, _⟩ := (hr d).1 hd
      exact ⟨n, v, h1, h2, h3⟩
  unfold ClearChat.target
  cases hp : p.action with
  | clear => rw [hp] at ha; simp only at ha; simp [ha, Action.isClear, Action.isBan, Action.isTimeOut]
  | ban u i =>
    rw [hp] at ha; simp only at ha
    have := num _ ha.2.2
    simp only [this]
    simp [ha.1, Action.isClear, Action.isBan, Action.isTimeOut]
  | timeOut u i d =>
    rw [hp] at ha; simp only at ha
    have := num _ ha.2.2
    simp only [this]
    simp [ha.1, Action.isClear, Action.isBan, Action.isTimeOut]

/-- C28: the three kinds of action, the target, and what is required. -/
theorem C28_classify (b : Build) (s : Bytes) (hu : Utf8 s) (hw : Within s) (ht : TagsTerminated b s)
    (l : Line) (hl : line s = some l) (p : ClearChat)
    (h : parseAs ClearChat.parse b s = .ok (some p)) :
    (p.action.isClear = true ↔ l.text = none) ∧
    (p.action.isTimeOut = true ↔ l.text ≠ none ∧ ∃ d, l.num (b!"ban-duration") d) ∧
    (p.action.isBan = true ↔ l.text ≠ none ∧ ¬ ∃ d, l.num (b!"ban-duration") d) ∧
    p.target = l.text := by
  obtain ⟨l', hl', _, h⟩ := ((C28_clear_chat b s hu hw ht).2 p).1 h
  rw [hl] at hl'; simp at hl'; subst hl'
  exact action_of h

example := C28_classify ⟨.scalar, true⟩ sampleTimeout (utf8_of sampleTimeout_ok) (within_of sampleTimeout_ok)
  (terminated_of sampleTimeout_ok _) _ (line_eq _ sampleTimeout_line) _ (given_eq _ sampleTimeout_parsed)

/-- C28: a CLEARCHAT line parses iff channel, `room-id`, a valid timestamp and, with a text,
`target-user-id` are present. -/
theorem C28_required (b : Build) (s : Bytes) (hu : Utf8 s) (hw : Within s) (ht : TagsTerminated b s)
    (l : Line) (hl : line s = some l) (hc : l.command = b!"CLEARCHAT") :
    (∃ p, parseAs ClearChat.parse b s = .ok (some p)) ↔
      l.channel ≠ none ∧ l.tag (b!"room-id") ≠ none ∧ (∃ t, TimestampOf l t) ∧
      (l.text ≠ none → l.tag (b!"target-user-id") ≠ none) := by
  constructor
  · rintro ⟨p, h⟩
    obtain ⟨l', hl', _, h⟩ := ((C28_clear_chat b s hu hw ht).2 p).1 h
    rw [hl] at hl'; simp at hl'; subst hl'
    refine ⟨by rw [h.channel]; simp, by rw [h.channelId]; simp, ⟨_, h.timestamp⟩, fun hx => ?_⟩
    have ha := h.action
    split at ha
    · exact absurd ha hx
    · rw [ha.2.1]; simp
    · rw [ha.2.1]; simp
  · rintro ⟨h1, h2, ⟨t, h3⟩, h4⟩
    obtain ⟨c, h1⟩ := Option.ne_none_iff_exists'.1 h1
    obtain ⟨i, h2⟩ := Option.ne_none_iff_exists'.1 h2
    cases hx : l.text with
    | none =>
      exact ⟨⟨c, i, .clear, t⟩, ((C28_clear_chat b s hu hw ht).2 _).2 ⟨l, hl, hc, h1, h2, hx, h3⟩⟩
    | some u =>
      obtain ⟨ui, h4⟩ := Option.ne_none_iff_exists'.1 (h4 (by rw [hx]; simp))
      have hd := optSecs (l.tag (b!"ban-duration"))
      cases hdu : ((l.tag (b!"ban-duration")).bind parseU64).map fromSecs with
      | none =>
        rw [hdu] at hd
        exact ⟨⟨c, i, .ban u ui, t⟩,
          ((C28_clear_chat b s hu hw ht).2 _).2 ⟨l, hl, hc, h1, h2, ⟨hx, h4, hd⟩, h3⟩⟩
      | some d =>
        rw [hdu] at hd
        exact ⟨⟨c, i, .timeOut u ui d, t⟩,
          ((C28_clear_chat b s hu hw ht).2 _).2 ⟨l, hl, hc, h1, h2, ⟨hx, h4, hd⟩, h3⟩⟩

example := C28_required ⟨.scalar, true⟩ sampleTimeout (utf8_of sampleTimeout_ok) (within_of sampleTimeout_ok)
  (terminated_of sampleTimeout_ok _) _ (line_eq _ sampleTimeout_line) (by decide +kernel)

example : parseAs ClearChat.parse ⟨.scalar, true⟩
    (b!"@ban-duration=60;room-id=1;target-user-id=2;tmi-sent-ts=5 :tmi.twitch.tv CLEARCHAT #c :bob")
    = .ok (some ⟨b!"#c", b!"1", .timeOut (b!"bob") (b!"2") 60000000000, .ofMillis 5⟩) := by decide +kernel

/-! ## C29: USERNOTICE -/

/-- C29: a line parses as a `UserNotice` exactly when the specification says so. -/
theorem C29_user_notice (b : Build) (s : Bytes) (hu : Utf8 s) (hw : Within s)
    (ht : TagsTerminated b s) :
    (∃ r, parseAs UserNotice.parse b s = .ok r) ∧
    ∀ p, parseAs UserNotice.parse b s = .ok (some p) ↔
      ∃ l, line s = some l ∧ l.command = b!"USERNOTICE" ∧ UserNoticeOf l p :=
  parseAs_exact hu hw ht fun _ _ _ hr => userNotice_exactly hr

example := C29_user_notice ⟨.scalar, true⟩ sampleRaid (utf8_of sampleRaid_ok) (within_of sampleRaid_ok)
  (terminated_of sampleRaid_ok _)

theorem sender_of {l : Line} {p : UserNotice} (h : UserNoticeOf l p) :
    (p.sender = none ↔
      p.eventId ∈ [b!"anonsubgift", b!"anonsubmysterygift", b!"anongiftpaidupgrade"] ∨
      (p.eventId ∈ [b!"subgift", b!"submysterygift"] ∧
        l.tag (b!"user-id") = some (b!"274598607")) ∨
      p.eventId ∉ eventIds) ∧
    (∀ u, p.sender = some u → l.tag (b!"user-id") = some u.id ∧ l.tag (b!"login") = some u.login ∧
      l.tag (b!"display-name") = some u.name) := by
  obtain ⟨anon, hev, hs⟩ := h.event
  constructor
  · have e1 : p.sender = none ↔ anon = true := by
      cases hps : p.sender with
      | none => rw [hps] at hs; simp [hs]
      | some u => rw [hps] at hs; simp [hs.1]
    rw [e1]
    have hn : ∀ id, id ∈ eventIds → id ∉ [b!"anonsubgift", b!"anonsubmysterygift", b!"anongiftpaidupgrade"] →
        id ∉ [b!"subgift", b!"submysterygift"] → ¬ (id ∈ [b!"anonsubgift", b!"anonsubmysterygift",
        b!"anongiftpaidupgrade"] ∨ (id ∈ [b!"subgift", b!"submysterygift"] ∧
        l.tag (b!"user-id") = some (b!"274598607")) ∨ id ∉ eventIds) := by
      rintro id h1 h2 h3 (h | ⟨h, _⟩ | h)
      · exact h2 h
      · exact h3 h
      · exact h h1
    generalize p.eventId = id at hev ⊢
    generalize p.event = ev at hev
    cases hev with
    | subOrResub hid =>
      refine ⟨fun h => by simp at h, fun h => absurd h ?_⟩
      rcases hid with ⟨_, rfl⟩ | ⟨_, rfl⟩ <;> exact hn _ (by decide) (by decide) (by decide)
    | raid =>
      exact ⟨fun h => by simp at h, fun h => absurd h (hn _ (by decide) (by decide) (by decide))⟩
    | subGift hid _ _ _ _ _ _ _ h8 =>
      rw [h8]
      rcases hid with rfl | rfl
      · constructor
        · rintro (h | h)
          · exact absurd h (by decide)
          · exact .inr (.inl ⟨by decide, h⟩)
        · rintro (h | h | h)
          · exact absurd h (by decide)
          · exact .inr h.2
          · exact absurd (by decide) h
      · exact ⟨fun _ => .inl (by decide), fun _ => .inl rfl⟩
    | anonSubMysteryGift hid =>
      refine ⟨fun _ => ?_, fun _ => rfl⟩
      rcases hid with rfl | ⟨rfl, h⟩
      · exact .inl (by decide)
      · exact .inr (.inl ⟨by decide, h⟩)
    | subMysteryGift hu' =>
      refine ⟨fun h => by simp at h, ?_⟩
      rintro (h | ⟨_, h⟩ | h)
      · exact absurd h (by decide)
      · exact absurd h hu'
      · exact absurd (by decide) h
    | giftPaidUpgrade =>
      exact ⟨fun h => by simp at h, fun h => absurd h (hn _ (by decide) (by decide) (by decide))⟩
    | anonGiftPaidUpgrade => exact ⟨fun _ => .inl (by decide), fun _ => rfl⟩
    | ritual =>
      exact ⟨fun h => by simp at h, fun h => absurd h (hn _ (by decide) (by decide) (by decide))⟩
    | bitsBadgeTier =>
      exact ⟨fun h => by simp at h, fun h => absurd h (hn _ (by decide) (by decide) (by decide))⟩
    | announcement =>
      exact ⟨fun h => by simp at h, fun h => absurd h (hn _ (by decide) (by decide) (by decide))⟩
    | unknown h => exact ⟨fun _ => .inr (.inr h), fun _ => rfl⟩
  · intro u hu'
    rw [hu'] at hs; exact hs.2

/-- C29: when the sender is absent. -/
theorem C29_sender (b : Build) (s : Bytes) (hu : Utf8 s) (hw : Within s) (ht : TagsTerminated b s)
    (l : Line) (hl : line s = some l) (p : UserNotice)
    (h : parseAs UserNotice.parse b s = .ok (some p)) :
    (p.sender = none ↔
      p.eventId ∈ [b!"anonsubgift", b!"anonsubmysterygift", b!"anongiftpaidupgrade"] ∨
      (p.eventId ∈ [b!"subgift", b!"submysterygift"] ∧
        l.tag (b!"user-id") = some (b!"274598607")) ∨
      p.eventId ∉ eventIds) ∧
    (∀ u, p.sender = some u → l.tag (b!"user-id") = some u.id ∧ l.tag (b!"login") = some u.login ∧
      l.tag (b!"display-name") = some u.name) := by
  obtain ⟨l', hl', _, h⟩ := ((C29_user_notice b s hu hw ht).2 p).1 h
  rw [hl] at hl'; simp at hl'; subst hl'
  exact sender_of h

example := C29_sender ⟨.scalar, true⟩ sampleGift (utf8_of sampleGift_ok) (within_of sampleGift_ok)
  (terminated_of sampleGift_ok _) _ (line_eq _ sampleGift_line) _ (given_eq _ sampleGift_parsed)

/-- C29: with an unknown `msg-id`, a line parses iff channel, `room-id`, `id` and a valid timestamp are
present; none of the event's tags is needed. -/
theorem C29_unknown (b : Build) (s : Bytes) (hu : Utf8 s) (hw : Within s) (ht : TagsTerminated b s)
    (l : Line) (hl : line s = some l) (hc : l.command = b!"USERNOTICE") (id : Bytes)
    (hid : l.tag (b!"msg-id") = some id) (hn : id ∉ eventIds) :
    (∃ p, parseAs UserNotice.parse b s = .ok (some p) ∧ p.event = .unknown) ↔
      l.channel ≠ none ∧ l.tag (b!"room-id") ≠ none ∧ l.tag (b!"id") ≠ none ∧
      ∃ t, TimestampOf l t := by
  have hp := parse_refines b hu hw ht
  rw [hl] at hp
  obtain ⟨m, hm, _, _, hr⟩ := hp
  constructor
  · rintro ⟨p, h, _⟩
    obtain ⟨l', hl', _, h⟩ := ((C29_user_notice b s hu hw ht).2 p).1 h
    rw [hl] at hl'; simp at hl'; subst hl'
    exact ⟨by rw [h.channel]; simp, by rw [h.channelId]; simp, by rw [h.messageId]; simp,
      ⟨_, h.timestamp⟩⟩
  · rintro ⟨h1, h2, h3, t, h4⟩
    obtain ⟨c, h1⟩ := Option.ne_none_iff_exists'.1 h1
    obtain ⟨i, h2⟩ := Option.ne_none_iff_exists'.1 h2
    obtain ⟨mi, h3⟩ := Option.ne_none_iff_exists'.1 h3
    obtain ⟨bs, hb1, hb2⟩ := badgesOf_iff hr
    let p : UserNotice := {
      channel := c, channelId := i, sender := none, text := l.text
      systemMessage := nonEmpty (l.tag (b!"system-msg")), event := .unknown, eventId := id
      badges := bs, emotes := (l.tag (b!"emotes")).getD [], color := nonEmpty (l.tag (b!"color"))
      messageId := mi, timestamp := t }
    refine ⟨p, ((C29_user_notice b s hu hw ht).2 p).2 ⟨l, hl, hc, ?_⟩, rfl⟩
    exact {
      channel := h1, channelId := h2, event := ⟨true, .unknown hn, rfl⟩, text := rfl
      systemMessage := (optText_iff _ _).1 rfl, eventId := hid, badges := (hb2 _).1 rfl, emotes := rfl
      color := (optText_iff _ _).1 rfl, messageId := h3, timestamp := h4 }

example := C29_unknown ⟨.scalar, true⟩ sampleUnknown (utf8_of sampleUnknown_ok) (within_of sampleUnknown_ok)
  (terminated_of sampleUnknown_ok _) _ (line_eq _ sampleUnknown_line) (by decide +kernel) (b!"viewermilestone")
  (by decide +kernel) (by decide)

example : (parseAs UserNotice.parse ⟨.scalar, true⟩
    (b!"@id=m;login=l;display-name=L;msg-id=subgift;msg-param-months=3;msg-param-recipient-id=4;msg-param-recipient-user-name=r;msg-param-recipient-display-name=R;msg-param-sub-plan=1000;msg-param-sub-plan-name=x;msg-param-gift-months=2;room-id=1;tmi-sent-ts=5;user-id=274598607 :tmi.twitch.tv USERNOTICE #c")
    ).map (·.map fun p => (p.sender, p.event)) =
      .ok (some (none, .subGift 3 ⟨b!"4", b!"r", b!"R"⟩ (b!"1000") (b!"x") 2)) := by decide +kernel

/-! ## C30: ROOMSTATE -/

/-- C30, the part that holds: every ROOMSTATE line whose `followers-only` is at most 2^63/60 minutes.
Missing: larger values, for which the claim is false (`C30_negation`). -/
theorem C30_room_state_partial (b : Build) (s : Bytes) (hu : Utf8 s) (hw : Within s)
    (ht : TagsTerminated b s)
    (ho : ∀ l v n, line s = some l → l.tag (b!"followers-only") = some v → I64 v n →
      n ≤ 153722867280912930) :
    (∃ r, parseAs RoomState.parse b s = .ok r) ∧
    ∀ p, parseAs RoomState.parse b s = .ok (some p) ↔
      ∃ l, line s = some l ∧ l.command = b!"ROOMSTATE" ∧ RoomStateOf l p :=
  parseAs_exact hu hw ht fun _ l hl hr => roomState_exactly hr (by
    rintro ⟨v, n, h1, h2, h3⟩
    have := ho l v n hl h1 h2
    unfold maxMinutes at h3
    omega)

example := C30_room_state_partial ⟨.scalar, true⟩ sampleRoomState (utf8_of sampleRoomState_ok)
  (within_of sampleRoomState_ok) (terminated_of sampleRoomState_ok _) (fun l v n hl hv hn => by
    rw [line_eq _ sampleRoomState_line, Option.some.injEq] at hl
    rw [← hl, show (lineOf _ sampleRoomState_line).tag (b!"followers-only") = some (b!"10") by decide +kernel,
      Option.some.injEq] at hv
    rw [← hv] at hn
    have := (C33_i64 (b!"10") n).2 hn
    rw [show parseI64 (b!"10") = some 10 by decide +kernel, Option.some.injEq] at this
    omega)

/-- C30: without overflow checks, an overflowing `followers-only` gives a duration reduced modulo
2^64 seconds; with checks it panics. -/
theorem C30_overflow (b : Build) (s : Bytes) (hu : Utf8 s) (hw : Within s) (ht : TagsTerminated b s)
    (l : Line) (hl : line s = some l) (hc : l.command = b!"ROOMSTATE") (c i v : Bytes) (n : Int)
    (hch : l.channel = some c) (hi : l.tag (b!"room-id") = some i)
    (hv : l.tag (b!"followers-only") = some v) (hn : I64 v n) (hlt : 153722867280912930 < n) :
    (b.checks = true → parseAs RoomState.parse b s = .error .overflow) ∧
    (b.checks = false → ∃ p, parseAs RoomState.parse b s = .ok (some p) ∧
      p.followersOnly = some (.enabled (some ((n * 60 % 2 ^ 64).toNat * 1000000000)))) := by
  have hp := parse_refines b hu hw ht
  rw [hl] at hp
  obtain ⟨m, hm, _, hck, hr⟩ := hp
  unfold parseAs
  rw [hm, bind_ok, ← hck]
  exact roomState_overflow hr hv hn hlt hc hch hi

example := C30_overflow ⟨.scalar, true⟩ (b!"@followers-only=307445734561825861;room-id=1 :tmi.twitch.tv ROOMSTATE #c")
  (utf8_of (by decide +kernel)) (within_of (by decide +kernel)) (terminated_of (by decide +kernel) _) _
  (line_eq _ (by decide +kernel)) (by decide +kernel) (b!"#c") (b!"1") (b!"307445734561825861") 307445734561825861
  (by decide +kernel) (by decide +kernel) (by decide +kernel) ((C33_i64 _ _).1 (by decide +kernel)) (by decide)

/-- C30 is false: 153722867280912931 minutes are reported as about 9.2 * 10^18 seconds, which is
right, but 307445734561825861 minutes are reported as 44 seconds. -/
theorem C30_negation : (parseAs RoomState.parse ⟨.scalar, false⟩
      (b!"@followers-only=307445734561825861;room-id=1 :tmi.twitch.tv ROOMSTATE #c")).map
        (·.map (·.followersOnly)) = .ok (some (some (.enabled (some 44000000000)))) := by decide +kernel

example : parseAs RoomState.parse ⟨.scalar, true⟩
    (b!"@emote-only=0;followers-only=10;r9k=1;room-id=1;slow=x;subs-only=256 :tmi.twitch.tv ROOMSTATE #c")
    = .ok (some ⟨b!"#c", b!"1", some false, some (.enabled (some 600000000000)), some true, none, some false⟩) := by
  decide +kernel

/-! ## C31: USERSTATE and GLOBALUSERSTATE -/

/-- C31 for GLOBALUSERSTATE. -/
theorem C31_global_user_state (b : Build) (s : Bytes) (hu : Utf8 s) (hw : Within s)
    (ht : TagsTerminated b s) :
    (∃ r, parseAs GlobalUserState.parse b s = .ok r) ∧
    ∀ p, parseAs GlobalUserState.parse b s = .ok (some p) ↔
      ∃ l, line s = some l ∧ l.command = b!"GLOBALUSERSTATE" ∧ GlobalUserStateOf l p :=
  parseAs_exact hu hw ht fun _ _ _ hr => globalUserState_exactly hr

example := C31_global_user_state ⟨.scalar, true⟩ sampleGlobal (utf8_of sampleGlobal_ok) (within_of sampleGlobal_ok)
  (terminated_of sampleGlobal_ok _)

/-- C31 for USERSTATE. -/
theorem C31_user_state (b : Build) (s : Bytes) (hu : Utf8 s) (hw : Within s)
    (ht : TagsTerminated b s) :
    (∃ r, parseAs UserState.parse b s = .ok r) ∧
    ∀ p, parseAs UserState.parse b s = .ok (some p) ↔
      ∃ l, line s = some l ∧ l.command = b!"USERSTATE" ∧ UserStateOf l p :=
  parseAs_exact hu hw ht fun _ _ _ hr => userState_exactly hr

example := C31_user_state ⟨.scalar, true⟩ sampleUserState (utf8_of sampleUserState_ok) (within_of sampleUserState_ok)
  (terminated_of sampleUserState_ok _)

/-- C31: joining the emote sets gives the tag back, and no set contains a comma. -/
theorem C31_emote_sets (l : Line) (r : List Bytes) (h : EmoteSetsOf l r) :
    match l.tag (b!"emote-sets") with
    | none => r = []
    | some v => joinWith COMMA r = v ∧ r ≠ [] ∧ ∀ p ∈ r, COMMA ∉ p := by
  unfold EmoteSetsOf at h
  split at h
  · rename_i e; rw [e]; exact h
  · rename_i v e
    rw [e]
    subst h
    have := C26_fields v
    exact ⟨this.1, fields_ne_nil _ _, this.2.1⟩

example : parseAs UserState.parse ⟨.scalar, true⟩
    (b!"@badges=;badge-info=;color=;display-name=x;emote-sets=0,1,,2 :tmi.twitch.tv USERSTATE #c")
    = .ok (some ⟨b!"#c", b!"x", [], [b!"0", b!"1", [], b!"2"], none⟩) := by decide +kernel

/-! ## C32: small messages -/

/-- C32: JOIN. -/
theorem C32_join (b : Build) (s : Bytes) (hu : Utf8 s) (hw : Within s) (ht : TagsTerminated b s) :
    (∃ r, parseAs Model.Join.parse b s = .ok r) ∧
    ∀ p, parseAs Model.Join.parse b s = .ok (some p) ↔
      ∃ l, line s = some l ∧ l.command = b!"JOIN" ∧ JoinOf l p :=
  parseAs_exact hu hw ht fun _ _ _ hr => join_exactly hr

example := C32_join ⟨.scalar, true⟩ sampleJoin (utf8_of sampleJoin_ok) (within_of sampleJoin_ok)
  (terminated_of sampleJoin_ok _)

/-- C32: PART. -/
theorem C32_part (b : Build) (s : Bytes) (hu : Utf8 s) (hw : Within s) (ht : TagsTerminated b s) :
    (∃ r, parseAs Part.parse b s = .ok r) ∧
    ∀ p, parseAs Part.parse b s = .ok (some p) ↔
      ∃ l, line s = some l ∧ l.command = b!"PART" ∧ PartOf l p :=
  parseAs_exact hu hw ht fun _ _ _ hr => part_exactly hr

example := C32_part ⟨.scalar, true⟩ samplePart (utf8_of samplePart_ok) (within_of samplePart_ok)
  (terminated_of samplePart_ok _)

/-- C32: PING. -/
theorem C32_ping (b : Build) (s : Bytes) (hu : Utf8 s) (hw : Within s) (ht : TagsTerminated b s) :
    (∃ r, parseAs Ping.parse b s = .ok r) ∧
    ∀ p, parseAs Ping.parse b s = .ok (some p) ↔
      ∃ l, line s = some l ∧ l.command = b!"PING" ∧ PingOf l p :=
  parseAs_exact hu hw ht fun _ _ _ hr => ping_exactly hr

example := C32_ping ⟨.scalar, true⟩ samplePing (utf8_of samplePing_ok) (within_of samplePing_ok)
  (terminated_of samplePing_ok _)

/-- C32: PONG. -/
theorem C32_pong (b : Build) (s : Bytes) (hu : Utf8 s) (hw : Within s) (ht : TagsTerminated b s) :
    (∃ r, parseAs Pong.parse b s = .ok r) ∧
    ∀ p, parseAs Pong.parse b s = .ok (some p) ↔
      ∃ l, line s = some l ∧ l.command = b!"PONG" ∧ PongOf l p :=
  parseAs_exact hu hw ht fun _ _ _ hr => pong_exactly hr

example := C32_pong ⟨.scalar, true⟩ samplePong (utf8_of samplePong_ok) (within_of samplePong_ok)
  (terminated_of samplePong_ok _)

/-- C32: NOTICE. -/
theorem C32_notice (b : Build) (s : Bytes) (hu : Utf8 s) (hw : Within s) (ht : TagsTerminated b s) :
    (∃ r, parseAs Notice.parse b s = .ok r) ∧
    ∀ p, parseAs Notice.parse b s = .ok (some p) ↔
      ∃ l, line s = some l ∧ l.command = b!"NOTICE" ∧ NoticeOf l p :=
  parseAs_exact hu hw ht fun _ _ _ hr => notice_exactly hr

example := C32_notice ⟨.scalar, true⟩ sampleNoticeLine (utf8_of sampleNoticeLine_ok) (within_of sampleNoticeLine_ok)
  (terminated_of sampleNoticeLine_ok _)

/-- C32: WHISPER. -/
theorem C32_whisper (b : Build) (s : Bytes) (hu : Utf8 s) (hw : Within s) (ht : TagsTerminated b s) :
    (∃ r, parseAs Whisper.parse b s = .ok r) ∧
    ∀ p, parseAs Whisper.parse b s = .ok (some p) ↔
      ∃ l, line s = some l ∧ l.command = b!"WHISPER" ∧ WhisperOf l p :=
  parseAs_exact hu hw ht fun _ _ _ hr => whisper_exactly hr

example := C32_whisper ⟨.scalar, true⟩ sampleWhisper (utf8_of sampleWhisper_ok) (within_of sampleWhisper_ok)
  (terminated_of sampleWhisper_ok _)

/-- C32: CLEARMSG. -/
theorem C32_clear_msg (b : Build) (s : Bytes) (hu : Utf8 s) (hw : Within s) (ht : TagsTerminated b s) :
    (∃ r, parseAs ClearMsg.parse b s = .ok r) ∧
    ∀ p, parseAs ClearMsg.parse b s = .ok (some p) ↔
      ∃ l, line s = some l ∧ l.command = b!"CLEARMSG" ∧ ClearMsgOf l p :=
  parseAs_exact hu hw ht fun _ _ _ hr => clearMsg_exactly hr

example := C32_clear_msg ⟨.scalar, true⟩ sampleClearMsg (utf8_of sampleClearMsg_ok) (within_of sampleClearMsg_ok)
  (terminated_of sampleClearMsg_ok _)

example : parseAs Whisper.parse ⟨.scalar, true⟩
    (b!"@user-id=1;display-name=A;color=#fff;emotes=e :a!a@a.tmi.twitch.tv WHISPER bob :hi :there")
    = .ok (some ⟨b!"bob", ⟨b!"1", b!"a", b!"A"⟩, b!"hi :there", [], b!"e", some (b!"#fff")⟩) ∧
  parseAs Ping.parse ⟨.scalar, true⟩ (b!"PING") = .ok (some ⟨none⟩) ∧
  parseAs Model.Join.parse ⟨.scalar, true⟩ (b!":a!a@a JOIN #c") = .ok (some ⟨b!"#c", b!"a"⟩) ∧
  parseAs Notice.parse ⟨.scalar, true⟩ (b!"@msg-id=x :tmi.twitch.tv NOTICE * :t")
    = .ok (some ⟨none, b!"t", some (b!"x")⟩) ∧
  parseAs ClearMsg.parse ⟨.scalar, true⟩
    (b!"@login=l;room-id=1;target-msg-id=2;tmi-sent-ts=3 :tmi.twitch.tv CLEARMSG #c :t")
    = .ok (some ⟨b!"#c", b!"1", b!"l", b!"2", b!"t", false, .ofMillis 3⟩) := by decide +kernel

/-! ## C52: PinnedChatLevel -/

/-- C52: `try_from` accepts exactly 0 to 9, never transmutes an invalid byte, and inverts `u8::from`. -/
theorem C52_try_from (v : UInt8) :
    (v ≤ 9 → ∃ l, PinnedChatLevel.tryFrom v = .ok (some l) ∧ l.toU8 = v) ∧
    (¬ v ≤ 9 → PinnedChatLevel.tryFrom v = .ok none) := by
  have h : ∀ n : Fin 256, if UInt8.ofNat n ≤ 9 then
      (PinnedChatLevel.tryFrom (UInt8.ofNat n)).map (·.map (·.toU8)) = .ok (some (UInt8.ofNat n))
      else PinnedChatLevel.tryFrom (UInt8.ofNat n) = .ok none := by decide +kernel
  have h := h ⟨v.toNat, v.toNat_lt⟩
  simp only [UInt8.ofNat_toNat] at h
  by_cases hv : v ≤ 9
  · rw [if_pos hv] at h
    refine ⟨fun _ => ?_, fun h => absurd hv h⟩
    match ht : PinnedChatLevel.tryFrom v with
    | .error e => rw [ht] at h; simp [Except.map] at h
    | .ok none => rw [ht] at h; simp [Except.map] at h
    | .ok (some l) => rw [ht] at h; simp [Except.map] at h; exact ⟨l, rfl, h⟩
  · rw [if_neg hv] at h
    exact ⟨fun h => absurd h hv, fun _ => h⟩

/-- C52: the number of a level converts back to the level, and the levels are numbered in order. -/
theorem C52_from_u8 (l : PinnedChatLevel) : PinnedChatLevel.tryFrom l.toU8 = .ok (some l) ∧
    [b!"ONE", b!"TWO", b!"THREE", b!"FOUR", b!"FIVE", b!"SIX", b!"SEVEN", b!"EIGHT", b!"NINE",
      b!"TEN"][l.toU8.toNat]? = some l.asStr := by
  cases l <;> decide

/-- C52: `from_str` accepts exactly the ten names, and inverts `as_str`. -/
theorem C52_from_str (s : Bytes) (l : PinnedChatLevel) :
    (PinnedChatLevel.fromStr s = some l ↔ s = levelName l) ∧ l.asStr = levelName l := by
  refine ⟨level_iff s l, ?_⟩
  cases l <;> rfl

end Tmi.Props
