/-
Properties C69-C72: what `{:?}` and `{:#?}` print.

`esc` says which characters outside ASCII `Debug` of `str` escapes (a Unicode table); `alternate` is
`false` for `{:?}` and `true` for `{:#?}`.
-/
import Verif.Proofs.DebugMsg
import Verif.Proofs.DebugDate
import Verif.Props.Sizes

namespace Tmi.Props
open Tmi.Model Tmi.Spec Tmi.Proofs

theorem bind_map {α β : Type} (x : R α) (f : α → β) : (do return f (← x) : R β) = x.map f := by
  cases x <;> rfl

theorem print_ok {esc : Nat → Bool} {alt : Bool} {m : MsgRef} {t : Bytes} :
    m.print esc alt = .ok t ↔ ∃ d, m.debug = .ok d ∧ d.text esc alt = t := by
  unfold MsgRef.print
  rw [bind_map]
  cases m.debug <;> simp [Except.map]

theorem message_print_ok {esc : Nat → Bool} {alt : Bool} {m : Message} {t : Bytes} :
    m.print esc alt = .ok t ↔ ∃ d, m.dbg = .ok d ∧ d.text esc alt = t := by
  unfold Message.print
  rw [bind_map]
  cases m.dbg <;> simp [Except.map]

theorem good_raw {m : MsgRef} (hu : Utf8 m.src) {d : Dbg} (h : m.debug = .ok d) : Dbg.Good d :=
  good_of_shaped d (shaped_raw (by decide) h) (valid_raw hu h)

theorem good_message {b : Build} {s : Bytes} (hu : Utf8 s) {M : Message} (h : Message.parse b s = .ok (some M)) {d : Dbg}
    (hd : M.dbg = .ok d) : Dbg.Good d := by
  obtain ⟨m, hm, hM⟩ := fromIrc_of_parse h
  exact good_of_shaped d (shaped_message hd) (valid_fromIrc (by rw [parse_src hm]; exact hu) hM hd)

/-! ## C69: raw messages -/

/-- C69: printing a parsed message panics exactly when its tags cannot be listed, that is when a tag, cut as in
`C17_exact`, is not a string. -/
theorem C69_panics (b : Build) (s : Bytes) (hu : Utf8 s) (hl : s.length < 4294967296) (m : MsgRef)
    (h : MsgRef.parse b s = .ok (some m)) (esc : Nat → Bool) (alternate : Bool) :
    (∃ e, m.print esc alternate = .error e) ↔ ∃ kv ∈ shortTagsOf s, kv.1 = none ∨ kv.2 = none := by
  obtain ⟨⟨p, hp⟩, ⟨c, hc⟩, ⟨ch, hch⟩, ⟨ps, hps⟩, -, ht⟩ := C01_accessors_exact b s hu hl m h
  rw [← ht]
  unfold MsgRef.print MsgRef.debug MsgRef.dbg
  rw [hp, hc, hch, hps]
  cases m.tags with
  | error e => simp [bind, Except.bind]
  | ok l => simp [bind, Except.bind, pure, Except.pure]

example := C69_panics ⟨.scalar, true⟩ sampleRoomState (utf8_of sampleRoomState_ok) (within_of sampleRoomState_ok).len _
  (given_eq _ sampleRoomState_msg)

/-- C69, the part that holds of "printing never panics": every message of a line within the limits is printed. -/
theorem C69_total_partial (b : Build) (s : Bytes) (hu : Utf8 s) (hw : Within s)
    (ht : b.tagParser = .scalar → s.head? = some AT → SP ∈ s) (m : MsgRef)
    (h : MsgRef.parse b s = .ok (some m)) (esc : Nat → Bool) (alternate : Bool) :
    ∃ t, m.print esc alternate = .ok t := by
  obtain ⟨r, hr, hall⟩ := C01_never_panics_partial b s hu hw ht
  obtain ⟨⟨l, hl⟩, -, ⟨p, hp⟩, ⟨c, hc⟩, ⟨ch, hch⟩, ⟨ps, hps⟩, -⟩ := hall m (by rw [h] at hr; injection hr with hr; exact hr.symm)
  unfold MsgRef.print MsgRef.debug MsgRef.dbg
  rw [hl, hp, hc, hch, hps]
  exact ⟨_, rfl⟩

example := C69_total_partial ⟨.scalar, true⟩ sampleRoomState (utf8_of sampleRoomState_ok) (within_of sampleRoomState_ok)
  (fun _ _ => by decide +kernel) _ (given_eq _ sampleRoomState_msg)

/-- C69: two parsed messages are printed as the same text exactly when they have the same tags, prefix, command, channel
and parameters: the text leaves nothing out and adds nothing. -/
theorem C69_same (b b' : Build) (s s' : Bytes) (hu : Utf8 s) (hu' : Utf8 s') (m m' : MsgRef)
    (h : MsgRef.parse b s = .ok (some m)) (h' : MsgRef.parse b' s' = .ok (some m'))
    (esc : Nat → Bool) (alternate : Bool) (t : Bytes) (ht : m.print esc alternate = .ok t) :
    m'.print esc alternate = .ok t ↔ SameView m m' := by
  constructor
  · intro ht'
    obtain ⟨d, hd, e⟩ := print_ok.1 ht
    obtain ⟨d', hd', e'⟩ := print_ok.1 ht'
    obtain rfl := text_inj esc alternate (good_raw (by rw [parse_src h]; exact hu) hd)
      (good_raw (by rw [parse_src h']; exact hu') hd') (e.trans e'.symm)
    exact raw_dbg hd hd'
  · intro hv
    rw [← ht]
    unfold MsgRef.print MsgRef.debug
    rw [raw_dbg_same hv]

/-- Two lines that are printed alike: an unfinished tag is not shown. -/
example := C69_same ⟨.scalar, true⟩ ⟨.scalar, true⟩ (b!"@a=b;c PING") (b!"@a=b PING") (utf8_of (by decide +kernel))
  (utf8_of (by decide +kernel)) _ _ (given_eq _ (by decide +kernel)) (given_eq _ (by decide +kernel))
  (fun _ => false) false _ (got_eq _ (by decide +kernel))

theorem struct_text (esc : Nat → Bool) (alt : Bool) (a n : Bytes) (p : Bytes × Dbg) (l : List (Bytes × Dbg)) :
    (Dbg.struct (a ++ n) (p :: l)).text esc alt = a ++ (Dbg.struct n (p :: l)).text esc alt := by
  obtain ⟨k, v⟩ := p
  cases alt <;> simp [Dbg.text, Dbg.struct, Items.ofFields, Dbg.compact, Dbg.pretty]

/-- C69: an owned message prints as the borrowed one but for the name: `IrcMessage` and `Message`. -/
theorem C69_owned (m : MsgRef) (esc : Nat → Bool) (alternate : Bool) :
    m.intoOwned.print esc alternate = (m.print esc alternate).map (b!"Irc" ++ ·) := by
  have e : m.intoOwned.asRef = m := rfl
  unfold MsgOwned.print MsgRef.print MsgOwned.debug MsgRef.debug MsgRef.dbg
  rw [e]
  have hn : b!"IrcMessage" = b!"Irc" ++ b!"Message" := rfl
  rw [hn]
  cases m.tags with
  | error e => rfl
  | ok tags =>
    cases m.prefix? with
    | error e => rfl
    | ok p =>
      cases m.command with
      | error e => rfl
      | ok c =>
        cases m.channel with
        | error e => rfl
        | ok ch =>
          cases m.params with
          | error e => rfl
          | ok ps =>
            show Except.ok (Dbg.text esc alternate (.struct (b!"Irc" ++ b!"Message") _)) = Except.ok _
            rw [struct_text]

/-- Parses a line and prints the message. -/
def shown (alternate : Bool) (s : Bytes) : R (Option Bytes) := do
  match ← MsgRef.parse ⟨.scalar, true⟩ s with
  | none => return none
  | some m => return some (← m.print (fun _ => false) alternate)

/-- Non-vacuity of C69: a line whose message is printed, in both forms. -/
example : shown false (b!"@id=1;m=x\\sy :nick!user@host PRIVMSG #chan :hi \"you\"") = .ok (some (
    b!"Message { tags: [(\"id\", \"1\"), (\"m\", \"x\\\\sy\")], " ++
    b!"prefix: Some(Prefix { nick: Some(\"nick\"), user: Some(\"user\"), host: \"host\" }), " ++
    b!"command: Privmsg, channel: Some(\"#chan\"), params: Some(\":hi \\\"you\\\"\") }")) := by decide +kernel

example : shown true (b!"@id=1 PING") = .ok (some (
    b!"Message {\n    tags: [\n        (\n            \"id\",\n            \"1\",\n        ),\n    ],\n" ++
    b!"    prefix: None,\n    command: Ping,\n    channel: None,\n    params: None,\n}")) := by decide +kernel

/-- Two lines whose messages are printed alike: an empty list of tags is as none. -/
example : shown false (b!"@ PING") = shown false (b!"PING") ∧ b!"@ PING" ≠ b!"PING" := by decide +kernel

/-- The condition of `C69_panics` is met by the line of `C17_negation_panics`. -/
theorem C69_negation_prints (b : Build) (m : MsgRef)
    (hm : MsgRef.parse b ([AT] ++ b!"id" ++ [EQS] ++ longValue ++ [SP] ++ b!"PING") = .ok (some m))
    (esc : Nat → Bool) (alternate : Bool) : m.print esc alternate = .error .slice := by
  unfold MsgRef.print MsgRef.debug MsgRef.dbg
  rw [C17_negation_panics b m hm]
  rfl

/-! ## C70: typed messages -/

/-- C70: two typed messages parsed from text are printed as the same text exactly when they are equal, or both are raw
messages of another command with the same tags, prefix, command, channel and parameters. -/
theorem C70_same (b b' : Build) (s s' : Bytes) (hu : Utf8 s) (hu' : Utf8 s') (M M' : Message)
    (h : Message.parse b s = .ok (some M)) (h' : Message.parse b' s' = .ok (some M'))
    (esc : Nat → Bool) (alternate : Bool) (t : Bytes) (ht : M.print esc alternate = .ok t) :
    M'.print esc alternate = .ok t ↔
      M = M' ∨ ∃ m m', M = .other m ∧ M' = .other m' ∧ SameView m m' := by
  constructor
  · intro ht'
    obtain ⟨d, hd, e⟩ := message_print_ok.1 ht
    obtain ⟨d', hd', e'⟩ := message_print_ok.1 ht'
    obtain rfl := text_inj esc alternate (good_message hu h hd) (good_message hu' h' hd') (e.trans e'.symm)
    exact message_dbg hd hd'
  · rintro (rfl | ⟨m, m', rfl, rfl, hv⟩)
    · exact ht
    · rw [← ht]
      unfold Message.print
      have e : (Message.other m').dbg = (Message.other m).dbg := by
        show (do return .tuple (b!"Other") [← m'.debug] : R Dbg) = (do return .tuple (b!"Other") [← m.debug])
        unfold MsgRef.debug
        rw [raw_dbg_same hv]
      rw [e]

example := C70_same ⟨.scalar, true⟩ ⟨.scalar, true⟩ sampleJoin samplePart (utf8_of sampleJoin_ok)
  (utf8_of samplePart_ok) _ _ (given_eq _ (by decide +kernel)) (given_eq _ (by decide +kernel))
  (fun _ => false) true _ (got_eq _ (by decide +kernel))

/-- C70: printing a typed message never panics, unless it is the raw message of another command. -/
theorem C70_total (M : Message) (hM : ∀ m, M ≠ .other m) (esc : Nat → Bool) (alternate : Bool) :
    ∃ t, M.print esc alternate = .ok t := by
  cases M <;> first
    | exact absurd rfl (hM _)
    | exact ⟨_, rfl⟩

example := C70_total (.join ⟨b!"#c", b!"a"⟩) nofun

/-- The text of a value says which value it is. -/
def Faithful {α : Type} (dbg : α → Dbg) : Prop :=
  ∀ (v w : α), (∀ s ∈ (dbg v).strings, Utf8 s) → (∀ s ∈ (dbg w).strings, Utf8 s) →
    ∀ (esc : Nat → Bool) (alternate : Bool), (dbg v).text esc alternate = (dbg w).text esc alternate → v = w

theorem Faithful.of {α : Type} {dbg : α → Dbg} (hs : ∀ v, Dbg.Shaped (dbg v)) (hi : ∀ v w, dbg v = dbg w ↔ v = w) :
    Faithful dbg := fun v w hv hw esc alt e =>
  (hi v w).1 (text_inj esc alt (good_of_shaped _ (hs v) hv) (good_of_shaped _ (hs w) hw) e)

/-- C70: the same for the types of messages and of their parts, for all values (parsed or built by other means) whose
strings are strings: equal texts are texts of equal values. -/
theorem C70_types :
    Faithful ClearChat.dbg ∧ Faithful ClearMsg.dbg ∧ Faithful GlobalUserState.dbg ∧ Faithful Join.dbg ∧
    Faithful Notice.dbg ∧ Faithful Part.dbg ∧ Faithful Ping.dbg ∧ Faithful Pong.dbg ∧ Faithful Privmsg.dbg ∧
    Faithful RoomState.dbg ∧ Faithful UserNotice.dbg ∧ Faithful UserState.dbg ∧ Faithful Whisper.dbg ∧
    Faithful Badge.dbg ∧ Faithful BadgeData.dbg ∧ Faithful Subscriber.dbg ∧ Faithful User.dbg ∧ Faithful Reply.dbg ∧
    Faithful PinnedChat.dbg ∧ Faithful Action.dbg ∧ Faithful FollowersOnly.dbg ∧ Faithful Event.dbg ∧
    Faithful SubGiftPromo.dbg ∧ Faithful Prefix.dbg ∧ Faithful Command.dbg :=
  ⟨.of shaped_clearChat clearChat_dbg, .of shaped_clearMsg clearMsg_dbg,
    .of shaped_globalUserState globalUserState_dbg, .of shaped_join join_dbg, .of shaped_notice notice_dbg,
    .of shaped_part part_dbg, .of shaped_ping ping_dbg, .of shaped_pong pong_dbg, .of shaped_privmsg privmsg_dbg,
    .of shaped_roomState roomState_dbg, .of shaped_userNotice userNotice_dbg, .of shaped_userState userState_dbg,
    .of shaped_whisper whisper_dbg, .of shaped_badge badge_dbg, .of shaped_badgeData badgeData_dbg,
    .of shaped_subscriber subscriber_dbg, .of shaped_user user_dbg, .of shaped_reply reply_dbg,
    .of shaped_pinnedChat pinnedChat_dbg, .of shaped_action action_dbg, .of shaped_followersOnly followersOnly_dbg,
    .of shaped_event event_dbg, .of shaped_promo promo_dbg, .of shaped_prefix prefix_dbg,
    .of shaped_command command_dbg⟩

/-- Parses a line as a typed message and prints it. -/
def shownTyped (alternate : Bool) (s : Bytes) : R (Option Bytes) := do
  match ← Message.parse ⟨.scalar, true⟩ s with
  | none => return none
  | some m => return some (← m.print (fun _ => false) alternate)

/-- Non-vacuity of C70. -/
example : shownTyped false (b!":a!b@c JOIN #d") = .ok (some (
    b!"Join(Join { channel: \"#d\", user: \"a\" })")) := by decide +kernel

example : shownTyped false (b!"001 x :hi") = .ok (some (
    b!"Other(Message { tags: [], prefix: None, command: RplWelcome, channel: None, params: Some(\"x :hi\") })")) := by
  decide +kernel

/-! ## C71: timestamps -/

/-- C71: a timestamp is printed as its date and time in UTC, in the Gregorian calendar. -/
theorem C71_shows (t : Timestamp) (esc : Nat → Bool) (alternate : Bool) :
    ShowsTime t ((dbgTime t).text esc alternate) := by
  have e : (dbgTime t).text esc alternate = timestampText t := by cases alternate <;> simp [Dbg.text, dbgTime, Dbg.compact, Dbg.pretty]
  rw [e]
  exact timestampText_shows t

theorem secs_unique {day day' : Int} {h h' m m' s s' : Nat} (a1 : h < 24) (a2 : m < 60) (a3 : s < 60)
    (b1 : h' < 24) (b2 : m' < 60) (b3 : s' < 60)
    (e : day * 86400 + h * 3600 + m * 60 + s = day' * 86400 + h' * 3600 + m' * 60 + s') :
    day = day' ∧ h = h' ∧ m = m' ∧ s = s' := by omega

/-- C71: there is one such text for each point in time. -/
theorem C71_unique (t : Timestamp) (x y : Bytes) (hx : ShowsTime t x) (hy : ShowsTime t y) : x = y := by
  cases hx with
  | mk day year month dom hour min sec hd hh hm hs hn ht =>
    cases hy with
    | mk day' year' month' dom' hour' min' sec' hd' hh' hm' hs' hn' ht' =>
      obtain ⟨rfl, rfl, rfl, rfl⟩ := secs_unique hh hm hs hh' hm' hs' (ht.symm.trans ht')
      obtain ⟨rfl, rfl, rfl⟩ := date_unique hd hd'
      rfl
    | leap _ _ _ _ _ _ _ _ _ _ _ hl _ => omega
  | leap day year month dom hour min nanos hd hh hm hn hl ht =>
    cases hy with
    | mk _ _ _ _ _ _ _ _ _ _ _ hn' _ => omega
    | leap day' year' month' dom' hour' min' nanos' hd' hh' hm' hn' hl' ht' =>
      obtain ⟨rfl, rfl, rfl, _⟩ := secs_unique (s := 59) (s' := 59) hh hm (by decide) hh' hm' (by decide) (ht.symm.trans ht')
      obtain ⟨rfl, rfl, rfl⟩ := date_unique hd hd'
      have : nanos = nanos' := by omega
      rw [this]

/-- C71: and the text says which point in time it is. -/
theorem C71_injective (t t' : Timestamp) (x : Bytes) (h : ShowsTime t x) (h' : ShowsTime t' x) : t = t' := by
  have e := C71_unique t x _ h (timestampText_shows t)
  have e' := C71_unique t' x _ h' (timestampText_shows t')
  exact timestampText_inj (e.symm.trans e')

/-- Non-vacuity of C71: the timestamp of a chat message, a leap day, and years that are not written with four
digits; and, from deserialisation, a microsecond and a leap second. -/
example : (dbgTime (.ofMillis 1594556275123)).text (fun _ => false) false = b!"2020-07-12T12:17:55.123Z" ∧
    (dbgTime (.ofMillis 951782400000)).text (fun _ => false) false = b!"2000-02-29T00:00:00Z" ∧
    (dbgTime (.ofMillis (-62167219200001))).text (fun _ => false) false = b!"-0001-12-31T23:59:59.999Z" ∧
    (dbgTime (.ofMillis 253402300800000)).text (fun _ => false) false = b!"+10000-01-01T00:00:00Z" ∧
    (dbgTime ⟨951782400, 120045000, by decide⟩).text (fun _ => false) false = b!"2000-02-29T00:00:00.120045Z" ∧
    (dbgTime ⟨1483228799, 1000000007, by decide⟩).text (fun _ => false) false = b!"2016-12-31T23:59:60.000000007Z" := by
  decide +kernel

/-! ## C72: a printed message stays on its line -/

/-- Contains no ASCII control character, so in particular no end of line and no escape character. -/
def NoControl (t : Bytes) : Prop := ∀ x ∈ t, 0x20 ≤ x ∧ x ≠ 0x7F

/-- As `NoControl`, but for ends of lines. -/
def OnlyNewlines (t : Bytes) : Prop := ∀ x ∈ t, x = 0x0A ∨ (0x20 ≤ x ∧ x ≠ 0x7F)

theorem plain_iff {x : UInt8} : plainByte x = true ↔ 0x20 ≤ x ∧ x ≠ 0x7F := by
  unfold plainByte
  rw [Bool.and_eq_true, decide_eq_true_eq, bne_iff_ne]

theorem noControl_of {d : Dbg} (h : Dbg.Shaped d) (esc : Nat → Bool) : NoControl (d.text esc false) :=
  fun x hx => plain_iff.1 (compact_plain esc d h x hx)

theorem onlyNewlines_of {d : Dbg} (h : Dbg.Shaped d) (esc : Nat → Bool) : OnlyNewlines (d.text esc true) := by
  intro x hx
  rcases pretty_lines esc d h x hx with h | h
  · exact .inl h
  · exact .inr (plain_iff.1 h)

/-- C72: whatever bytes a message was made of, `{:?}` prints it on one line without control characters, and the only
control characters `{:#?}` prints are ends of lines. -/
theorem C72_raw (m : MsgRef) (esc : Nat → Bool) (t : Bytes) :
    (m.print esc false = .ok t → NoControl t) ∧ (m.print esc true = .ok t → OnlyNewlines t) := by
  constructor
  · intro h
    obtain ⟨d, hd, rfl⟩ := print_ok.1 h
    exact noControl_of (shaped_raw (by decide) hd) esc
  · intro h
    obtain ⟨d, hd, rfl⟩ := print_ok.1 h
    exact onlyNewlines_of (shaped_raw (by decide) hd) esc

/-- C72: the same for typed messages. -/
theorem C72_typed (M : Message) (esc : Nat → Bool) (t : Bytes) :
    (M.print esc false = .ok t → NoControl t) ∧ (M.print esc true = .ok t → OnlyNewlines t) := by
  constructor
  · intro h
    obtain ⟨d, hd, rfl⟩ := message_print_ok.1 h
    exact noControl_of (shaped_message hd) esc
  · intro h
    obtain ⟨d, hd, rfl⟩ := message_print_ok.1 h
    exact onlyNewlines_of (shaped_message hd) esc

/-- Non-vacuity of C72: a message with control characters in its text. -/
example : shown false (b!"PING :\x1b[2J\r\x07") = .ok (some (
    b!"Message { tags: [], prefix: None, command: Ping, channel: None, params: Some(\":\\u{1b}[2J\\r\\u{7}\") }")) := by
  decide +kernel

end Tmi.Props
