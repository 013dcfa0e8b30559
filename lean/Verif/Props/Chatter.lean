/-
Property C95: chatters control nothing but their own words.
-/
import Verif.Proofs.Chatter
import Verif.Props.Unescape

namespace Tmi.Props
open Tmi.Model Tmi.Spec Tmi.Proofs

/-! ## C95: chatters control nothing but their own words -/

/-! ### The text -/

/-- C95: whatever the text is, the tags, the prefix, the command and the channel of the message are those that the server
put in front of it, and the text is the text. -/
theorem C95_frame (b : Build) (f : Frame) (hf : f.Ok) (hc : f.target.head? = some HASH)
    (hn : f.command ≠ b!"353" ∧ f.command ≠ b!"366") (t : Bytes) (hr : Readable b (f.line t)) :
    ∃ m, MsgRef.parse b (f.line t) = .ok (some m) ∧ m.tags = .ok f.tags ∧
      (∀ k : Tag, m.tag k = .ok (lookup k.asStr f.tags)) ∧
      m.prefix? = .ok (some ⟨nickOf f.pfx, userOf f.pfx, hostOf f.pfx⟩) ∧
      (∃ c, m.command = .ok c ∧ c.asStr = f.command) ∧
      m.channel = .ok (some f.target) ∧ m.params = .ok (some (COLON :: t)) ∧ m.text = .ok (some t) := by
  obtain ⟨m, h1, -, h3⟩ := parse_line (frame_channel hf hc t) hr.1 hr.2.1 hr.2.2
  refine ⟨m, h1, h3.tags, h3.tag, h3.prefix?, ⟨_, h3.command, commandOf_asStr _⟩, ?_, h3.params, ?_⟩
  · unfold MsgRef.channel
    rw [h3.command, bind_ok]
    split
    · rename_i hc
      have := commandOf_asStr f.command
      rw [hc] at this
      exact absurd this.symm hn.1
    · rename_i hc
      have := commandOf_asStr f.command
      rw [hc] at this
      exact absurd this.symm hn.2
    · exact h3.rawChannel
  · rw [h3.text]; simp [textOf_colon]

/-- The frame of a chat message. -/
def sampleFrame : Frame :=
  ⟨[(b!"badges", b!"vip/1"), (b!"badge-info", b!""), (b!"display-name", b!"Bob"), (b!"id", b!"m1"), (b!"room-id", b!"1"),
    (b!"tmi-sent-ts", b!"5"), (b!"user-id", b!"7")], b!"bob!bob@bob.tmi.twitch.tv", b!"PRIVMSG", b!"#c"⟩

theorem sampleFrame_ok : sampleFrame.Ok :=
  ⟨by decide +kernel, by decide +kernel, by decide +kernel, by decide +kernel, by decide +kernel⟩

/-- A text that looks like a line of its own. -/
def sampleEvil : Bytes := b!"@mod=1;id=m2 :eve!eve@eve PRIVMSG #d :hi"

theorem sampleEvil_ok : checkLine (sampleFrame.line sampleEvil) = true := by decide +kernel
theorem sampleHi_ok : checkLine (sampleFrame.line (b!"hi")) = true := by decide +kernel

example := C95_frame ⟨.simd .avx2 3, true⟩ sampleFrame sampleFrame_ok (by decide) (by decide) sampleEvil
  (readable_of sampleEvil_ok _)

/-- C95: another text makes no difference to a chat message but to its text. -/
theorem C95_privmsg_text (b : Build) (f : Frame) (hf : f.Ok) (hc : f.target.head? = some HASH) (t t' : Bytes)
    (hr : Readable b (f.line t)) (hr' : Readable b (f.line t')) (p : Privmsg)
    (hp : parseAs Privmsg.parse b (f.line t) = .ok (some p)) :
    ∃ text isAction, TextOf t' text isAction ∧
      parseAs Privmsg.parse b (f.line t') = .ok (some { p with text := text, isAction := isAction }) := by
  obtain ⟨l, hl, h1, P⟩ := ((C23_privmsg b _ hr.1 hr.2.1 hr.2.2).2 p).1 hp
  rw [frame_channel hf hc] at hl
  cases hl
  have hx := (text_iff t' _ _).1 rfl
  refine ⟨_, _, hx, ((C23_privmsg b _ hr'.1 hr'.2.1 hr'.2.2).2 _).2 ⟨_, frame_channel hf hc t', h1, ?_⟩⟩
  exact privmsgOf_free P (fun _ _ => rfl) rfl rfl rfl ⟨t', by simp [Line.text, textOf_colon], hx⟩ P.senderName
    (fun r => (P.replyTo r).trans (by apply replyOf_other; exact fun _ _ => rfl))

theorem sampleHi_parsed : gave (parseAs Privmsg.parse ⟨.scalar, true⟩ (sampleFrame.line (b!"hi"))) = true := by
  decide +kernel

example := C95_privmsg_text ⟨.scalar, true⟩ sampleFrame sampleFrame_ok (by decide) (b!"hi") sampleEvil
  (readable_of sampleHi_ok _) (readable_of sampleEvil_ok _) _ (given_eq _ sampleHi_parsed)

/-- C95: the same for the message that comes with a subscription, a raid or an announcement. -/
theorem C95_user_notice_text (b : Build) (f : Frame) (hf : f.Ok) (hc : f.target.head? = some HASH) (t t' : Bytes)
    (hr : Readable b (f.line t)) (hr' : Readable b (f.line t')) (p : UserNotice)
    (hp : parseAs UserNotice.parse b (f.line t) = .ok (some p)) :
    parseAs UserNotice.parse b (f.line t') = .ok (some { p with text := some t' }) := by
  obtain ⟨l, hl, h1, P⟩ := ((C29_user_notice b _ hr.1 hr.2.1 hr.2.2).2 p).1 hp
  rw [frame_channel hf hc] at hl
  cases hl
  refine ((C29_user_notice b _ hr'.1 hr'.2.1 hr'.2.2).2 _).2 ⟨_, frame_channel hf hc t', h1, ?_⟩
  refine userNoticeOf_free P (fun _ _ _ => rfl) rfl (by simp [Line.text, textOf_colon]) rfl (fun u hu => ?_) id
    P.systemMessage
  obtain ⟨anon, -, he⟩ := P.event
  rw [hu] at he
  exact ⟨u.name, he.2.2.2, hu⟩

/-- The frame of an announcement. -/
def sampleNotice : Frame :=
  ⟨[(b!"badges", b!"vip/1"), (b!"badge-info", b!""), (b!"display-name", b!"Bob"), (b!"id", b!"m1"),
    (b!"login", b!"bob"), (b!"msg-id", b!"announcement"), (b!"room-id", b!"1"), (b!"system-msg", b!"x"),
    (b!"tmi-sent-ts", b!"5"), (b!"user-id", b!"7")], b!"tmi.twitch.tv", b!"USERNOTICE", b!"#c"⟩

theorem sampleNotice_ok : sampleNotice.Ok :=
  ⟨by decide +kernel, by decide +kernel, by decide +kernel, by decide +kernel, by decide +kernel⟩
theorem sampleNotice_hi : checkLine (sampleNotice.line (b!"hi")) = true := by decide +kernel
theorem sampleNotice_evil : checkLine (sampleNotice.line sampleEvil) = true := by decide +kernel
theorem sampleNotice_parsed :
    gave (parseAs UserNotice.parse ⟨.scalar, true⟩ (sampleNotice.line (b!"hi"))) = true := by decide +kernel

example := C95_user_notice_text ⟨.scalar, true⟩ sampleNotice sampleNotice_ok (by decide +kernel) (b!"hi")
  sampleEvil (readable_of sampleNotice_hi _) (readable_of sampleNotice_evil _) _ (given_eq _ sampleNotice_parsed)

/-- C95: the same for the notice that a message was deleted, which quotes it. -/
theorem C95_clear_msg_text (b : Build) (f : Frame) (hf : f.Ok) (hc : f.target.head? = some HASH) (t t' : Bytes)
    (hr : Readable b (f.line t)) (hr' : Readable b (f.line t')) (p : ClearMsg)
    (hp : parseAs ClearMsg.parse b (f.line t) = .ok (some p)) :
    ∃ text isAction, TextOf t' text isAction ∧
      parseAs ClearMsg.parse b (f.line t') = .ok (some { p with text := text, isAction := isAction }) := by
  obtain ⟨l, hl, h1, P⟩ := ((C32_clear_msg b _ hr.1 hr.2.1 hr.2.2).2 p).1 hp
  rw [frame_channel hf hc] at hl
  cases hl
  have hx := (text_iff t' _ _).1 rfl
  refine ⟨_, _, hx, ((C32_clear_msg b _ hr'.1 hr'.2.1 hr'.2.2).2 _).2 ⟨_, frame_channel hf hc t', h1, ?_⟩⟩
  exact { P with text := ⟨t', by simp [Line.text, textOf_colon], hx⟩ }

/-- The frame of a deletion. -/
def sampleDeletion : Frame :=
  ⟨[(b!"login", b!"bob"), (b!"room-id", b!"1"), (b!"target-msg-id", b!"m1"), (b!"tmi-sent-ts", b!"5")],
    b!"tmi.twitch.tv", b!"CLEARMSG", b!"#c"⟩

theorem sampleDeletion_ok : sampleDeletion.Ok :=
  ⟨by decide +kernel, by decide +kernel, by decide +kernel, by decide +kernel, by decide +kernel⟩
theorem sampleDeletion_hi : checkLine (sampleDeletion.line (b!"hi")) = true := by decide +kernel
theorem sampleDeletion_evil : checkLine (sampleDeletion.line sampleEvil) = true := by decide +kernel
theorem sampleDeletion_parsed : gave (parseAs ClearMsg.parse ⟨.scalar, true⟩ (sampleDeletion.line (b!"hi"))) = true := by
  decide +kernel

example := C95_clear_msg_text ⟨.scalar, true⟩ sampleDeletion sampleDeletion_ok (by decide) (b!"hi") sampleEvil
  (readable_of sampleDeletion_hi _) (readable_of sampleDeletion_evil _) _ (given_eq _ sampleDeletion_parsed)

/-- C95: the same for a whisper; the recipient is the one that the server put in front of the text. -/
theorem C95_whisper_text (b : Build) (f : Frame) (hf : f.Ok) (hc : f.target.head? ≠ some HASH) (t t' : Bytes)
    (hr : Readable b (f.line t)) (hr' : Readable b (f.line t')) (p : Whisper)
    (hp : parseAs Whisper.parse b (f.line t) = .ok (some p)) :
    p.recipient = f.target ∧ p.text = t ∧
      parseAs Whisper.parse b (f.line t') = .ok (some { p with text := t' }) := by
  obtain ⟨l, hl, h1, P⟩ := ((C32_whisper b _ hr.1 hr.2.1 hr.2.2).2 p).1 hp
  rw [frame_other hf hc] at hl
  cases hl
  obtain ⟨e1, e2⟩ := first_space (Option.some.inj P.params) hf.target P.first
  refine ⟨e1.symm, e2.symm, ((C32_whisper b _ hr'.1 hr'.2.1 hr'.2.2).2 _).2 ⟨_, frame_other hf hc t', h1, ?_⟩⟩
  exact { P with
    params := by simp [e1]
    first := by
      simp only []
      rw [← e1]
      exact fun a b h => first_of_space hf.target h }

/-- The frame of a whisper. -/
def sampleSecret : Frame :=
  ⟨[(b!"display-name", b!"Bob"), (b!"user-id", b!"7")], b!"bob!bob@bob.tmi.twitch.tv", b!"WHISPER", b!"ann"⟩

theorem sampleSecret_ok : sampleSecret.Ok :=
  ⟨by decide +kernel, by decide +kernel, by decide +kernel, by decide +kernel, by decide +kernel⟩
theorem sampleSecret_hi : checkLine (sampleSecret.line (b!"hi")) = true := by decide +kernel
theorem sampleSecret_evil : checkLine (sampleSecret.line sampleEvil) = true := by decide +kernel
theorem sampleSecret_parsed :
    gave (parseAs Whisper.parse ⟨.scalar, true⟩ (sampleSecret.line (b!"hi"))) = true := by decide +kernel

example := C95_whisper_text ⟨.scalar, true⟩ sampleSecret sampleSecret_ok (by decide +kernel) (b!"hi")
  sampleEvil (readable_of sampleSecret_hi _) (readable_of sampleSecret_evil _) _ (given_eq _ sampleSecret_parsed)

/-! ### Names and quoted texts -/

/-- C95: whatever text is chosen for a tag, all other tags, the prefix, the command, the channel and the text are those
that the server put there, and the text that was chosen is in its tag and nowhere else. -/
theorem C95_gap (b : Build) (g : Gap) (hg : g.Ok) (hc : g.target.head? = some HASH)
    (hn : g.command ≠ b!"353" ∧ g.command ≠ b!"366") (n : List Char) (t : Bytes) (hr : Readable b ((g.fill n).line t)) :
    ∃ m, MsgRef.parse b ((g.fill n).line t) = .ok (some m) ∧
      m.tags = .ok (g.before ++ (g.key, enc (escape n)) :: g.after) ∧
      (∀ k : Tag, k.asStr ≠ g.key → m.tag k = .ok (lookup k.asStr (g.before ++ g.after))) ∧
      m.prefix? = .ok (some ⟨nickOf g.pfx, userOf g.pfx, hostOf g.pfx⟩) ∧
      (∃ c, m.command = .ok c ∧ c.asStr = g.command) ∧ m.channel = .ok (some g.target) ∧ m.text = .ok (some t) := by
  obtain ⟨m, h1, h2, h3, h4, h5, h6, -, h8⟩ := C95_frame b (g.fill n) (gap_ok hg n) hc hn t hr
  refine ⟨m, h1, h2, fun k hk => ?_, h4, h5, h6, h8⟩
  rw [h3, Gap.fill, lookup_append, lookup_append]
  simp [lookup, Ne.symm hk]

/-- A chat message that is a reply, with a gap for one of the texts. -/
def sampleGap (key : Bytes) : Gap :=
  let tags := [(b!"badges", b!"vip/1"), (b!"badge-info", b!""), (b!"display-name", b!"Bob"), (b!"id", b!"m1"),
    (b!"reply-parent-display-name", b!"Ann"), (b!"reply-parent-msg-body", b!"so\\sit\\sis"), (b!"reply-parent-msg-id", b!"m0"),
    (b!"reply-parent-user-id", b!"8"), (b!"reply-parent-user-login", b!"ann"), (b!"reply-thread-parent-msg-id", b!"m0"),
    (b!"reply-thread-parent-user-login", b!"ann"), (b!"room-id", b!"1"), (b!"tmi-sent-ts", b!"5"), (b!"user-id", b!"7")]
  ⟨tags.takeWhile (·.1 ≠ key), key, (tags.dropWhile (·.1 ≠ key)).tail, b!"bob!bob@bob.tmi.twitch.tv", b!"PRIVMSG", b!"#c"⟩

/-- A text that looks like more tags. -/
def sampleTrick : List Char := "Eve;mod=1;id=m2 :x\\".toList

/-- The conditions on frames, decided. -/
def Frame.check (f : Frame) : Bool :=
  f.tags.all (fun p => !p.1.contains EQS && !p.1.contains SP && !p.2.contains SEMI && !p.2.contains SP) &&
    !f.pfx.contains SP && !f.command.contains SP && !f.command.isEmpty && !f.target.contains SP

theorem Frame.check_ok {f : Frame} (h : Frame.check f = true) : f.Ok := by
  simp [Frame.check] at h
  obtain ⟨⟨⟨⟨h1, h2⟩, h3⟩, h4⟩, h5⟩ := h
  exact ⟨fun p hp => ⟨(h1 _ _ hp).1.1.1, (h1 _ _ hp).1.1.2⟩, fun p hp => ⟨(h1 _ _ hp).1.2, (h1 _ _ hp).2⟩, h2, ⟨h3, h4⟩, h5⟩

/-- The conditions on gaps, decided. -/
def Gap.check (g : Gap) : Bool := Frame.check (g.fill []) && !(g.before.map (·.1)).contains g.key

theorem Gap.check_ok {g : Gap} (h : Gap.check g = true) : g.Ok := by
  simp only [Gap.check, Bool.and_eq_true] at h
  exact ⟨Frame.check_ok h.1, by simpa using h.2⟩

theorem sampleGap_name : Gap.check (sampleGap (b!"display-name")) = true := by decide +kernel
theorem sampleGap_author : Gap.check (sampleGap (b!"reply-parent-display-name")) = true := by decide +kernel
theorem sampleGap_body : Gap.check (sampleGap (b!"reply-parent-msg-body")) = true := by decide +kernel

/-- The lines with the gap filled. -/
def sampleFilled (key : Bytes) (n : List Char) : Bytes := ((sampleGap key).fill n).line (b!"hi")

theorem sampleFilled_name : checkLine (sampleFilled (b!"display-name") sampleTrick) = true := by decide +kernel
theorem sampleFilled_name' : checkLine (sampleFilled (b!"display-name") ['B']) = true := by decide +kernel
theorem sampleFilled_author : checkLine (sampleFilled (b!"reply-parent-display-name") sampleTrick) = true := by
  decide +kernel
theorem sampleFilled_author' : checkLine (sampleFilled (b!"reply-parent-display-name") ['B']) = true := by decide +kernel
theorem sampleFilled_body : checkLine (sampleFilled (b!"reply-parent-msg-body") sampleTrick) = true := by decide +kernel
theorem sampleFilled_body' : checkLine (sampleFilled (b!"reply-parent-msg-body") ['B']) = true := by decide +kernel

example := C95_gap ⟨.scalar, true⟩ (sampleGap (b!"display-name")) (Gap.check_ok sampleGap_name) (by decide) (by decide)
  sampleTrick (b!"hi") (readable_of sampleFilled_name _)

/-- C95: another display name makes no difference to a chat message but to the name of its sender. -/
theorem C95_privmsg_name (b : Build) (g : Gap) (hg : g.Ok) (hc : g.target.head? = some HASH) (hk : g.key = b!"display-name")
    (n n' : List Char) (t : Bytes) (hr : Readable b ((g.fill n).line t)) (hr' : Readable b ((g.fill n').line t))
    (p : Privmsg) (hp : parseAs Privmsg.parse b ((g.fill n).line t) = .ok (some p)) :
    parseAs Privmsg.parse b ((g.fill n').line t) =
      .ok (some { p with sender := { p.sender with name := enc (escape n') } }) := by
  obtain ⟨l, hl, h1, P⟩ := ((C23_privmsg b _ hr.1 hr.2.1 hr.2.2).2 p).1 hp
  rw [frame_channel (gap_ok hg n) hc] at hl
  cases hl
  refine ((C23_privmsg b _ hr'.1 hr'.2.1 hr'.2.2).2 _).2 ⟨_, frame_channel (gap_ok hg n') hc t, h1, ?_⟩
  have ho : ∀ k, k ≠ b!"display-name" → lookup k (g.fill n').tags = lookup k (g.fill n).tags :=
    fun k h => gap_other n' n (hk ▸ h)
  refine privmsgOf_free P (fun k h => ho k fun e => h (by rw [e]; decide)) rfl rfl rfl P.text (hk ▸ gap_tag hg n')
    (fun r => (P.replyTo r).trans (by apply replyOf_other; exact fun k h => ho k fun e => h (by rw [e]; decide)))

theorem sampleFilled_name_parsed :
    gave (parseAs Privmsg.parse ⟨.scalar, true⟩ (sampleFilled (b!"display-name") ['B'])) = true := by decide +kernel

example := C95_privmsg_name ⟨.scalar, true⟩ (sampleGap (b!"display-name")) (Gap.check_ok sampleGap_name) (by decide) rfl
  ['B'] sampleTrick (b!"hi") (readable_of sampleFilled_name' _) (readable_of sampleFilled_name _) _
  (given_eq _ sampleFilled_name_parsed)

/-- C95: another text of the message that is replied to makes no difference but to the text in the reply. -/
theorem C95_privmsg_reply_text (b : Build) (g : Gap) (hg : g.Ok) (hc : g.target.head? = some HASH)
    (hk : g.key = b!"reply-parent-msg-body") (n n' : List Char) (t : Bytes) (hr : Readable b ((g.fill n).line t))
    (hr' : Readable b ((g.fill n').line t)) (p : Privmsg)
    (hp : parseAs Privmsg.parse b ((g.fill n).line t) = .ok (some p)) :
    parseAs Privmsg.parse b ((g.fill n').line t) =
      .ok (some { p with replyTo := p.replyTo.map fun r => { r with text := enc (escape n') } }) := by
  obtain ⟨l, hl, h1, P⟩ := ((C23_privmsg b _ hr.1 hr.2.1 hr.2.2).2 p).1 hp
  rw [frame_channel (gap_ok hg n) hc] at hl
  cases hl
  refine ((C23_privmsg b _ hr'.1 hr'.2.1 hr'.2.2).2 _).2 ⟨_, frame_channel (gap_ok hg n') hc t, h1, ?_⟩
  have ho : ∀ k, k ≠ b!"reply-parent-msg-body" → lookup k (g.fill n').tags = lookup k (g.fill n).tags :=
    fun k h => gap_other n' n (hk ▸ h)
  refine privmsgOf_free P (fun k h => ho k fun e => h (by rw [e]; decide)) rfl rfl rfl P.text
    ((ho _ (by decide)).trans P.senderName) (fun r => by
      apply replyOf_text (v := enc (escape n)) ?_ ?_ ?_ P.replyTo
      · exact ho
      · exact hk ▸ gap_tag hg n
      · exact hk ▸ gap_tag hg n')

theorem sampleFilled_body_parsed :
    gave (parseAs Privmsg.parse ⟨.scalar, true⟩ (sampleFilled (b!"reply-parent-msg-body") ['B'])) = true := by
  decide +kernel
example : ((parseAs Privmsg.parse ⟨.scalar, true⟩ (sampleFilled (b!"reply-parent-msg-body") ['B'])).map
    (·.map (·.replyTo.isSome))) = .ok (some true) := by decide +kernel

example := C95_privmsg_reply_text ⟨.scalar, true⟩ (sampleGap (b!"reply-parent-msg-body")) (Gap.check_ok sampleGap_body)
  (by decide) rfl ['B'] sampleTrick (b!"hi") (readable_of sampleFilled_body' _) (readable_of sampleFilled_body _) _
  (given_eq _ sampleFilled_body_parsed)

/-- C95: another name of the author of the message that is replied to makes no difference but to that name. -/
theorem C95_privmsg_reply_name (b : Build) (g : Gap) (hg : g.Ok) (hc : g.target.head? = some HASH)
    (hk : g.key = b!"reply-parent-display-name") (n n' : List Char) (t : Bytes) (hr : Readable b ((g.fill n).line t))
    (hr' : Readable b ((g.fill n').line t)) (p : Privmsg)
    (hp : parseAs Privmsg.parse b ((g.fill n).line t) = .ok (some p)) :
    parseAs Privmsg.parse b ((g.fill n').line t) =
      .ok (some { p with replyTo := p.replyTo.map fun r => { r with sender := { r.sender with name := enc (escape n') } } }) := by
  obtain ⟨l, hl, h1, P⟩ := ((C23_privmsg b _ hr.1 hr.2.1 hr.2.2).2 p).1 hp
  rw [frame_channel (gap_ok hg n) hc] at hl
  cases hl
  refine ((C23_privmsg b _ hr'.1 hr'.2.1 hr'.2.2).2 _).2 ⟨_, frame_channel (gap_ok hg n') hc t, h1, ?_⟩
  have ho : ∀ k, k ≠ b!"reply-parent-display-name" → lookup k (g.fill n').tags = lookup k (g.fill n).tags :=
    fun k h => gap_other n' n (hk ▸ h)
  refine privmsgOf_free P (fun k h => ho k fun e => h (by rw [e]; decide)) rfl rfl rfl P.text
    ((ho _ (by decide)).trans P.senderName) (fun r => by
      apply replyOf_name (v := enc (escape n)) ?_ ?_ ?_ P.replyTo
      · exact ho
      · exact hk ▸ gap_tag hg n
      · exact hk ▸ gap_tag hg n')

theorem sampleFilled_author_parsed :
    gave (parseAs Privmsg.parse ⟨.scalar, true⟩ (sampleFilled (b!"reply-parent-display-name") ['B'])) = true := by
  decide +kernel

example := C95_privmsg_reply_name ⟨.scalar, true⟩ (sampleGap (b!"reply-parent-display-name"))
  (Gap.check_ok sampleGap_author) (by decide) rfl ['B'] sampleTrick (b!"hi") (readable_of sampleFilled_author' _)
  (readable_of sampleFilled_author _) _ (given_eq _ sampleFilled_author_parsed)

/-- C95: another display name makes no difference to a user notice but to the name of its sender. -/
theorem C95_user_notice_name (b : Build) (g : Gap) (hg : g.Ok) (hc : g.target.head? = some HASH)
    (hk : g.key = b!"display-name") (n n' : List Char) (t : Bytes) (hr : Readable b ((g.fill n).line t))
    (hr' : Readable b ((g.fill n').line t)) (p : UserNotice)
    (hp : parseAs UserNotice.parse b ((g.fill n).line t) = .ok (some p)) :
    parseAs UserNotice.parse b ((g.fill n').line t) =
      .ok (some { p with sender := p.sender.map fun u => { u with name := enc (escape n') } }) := by
  obtain ⟨l, hl, h1, P⟩ := ((C29_user_notice b _ hr.1 hr.2.1 hr.2.2).2 p).1 hp
  rw [frame_channel (gap_ok hg n) hc] at hl
  cases hl
  refine ((C29_user_notice b _ hr'.1 hr'.2.1 hr'.2.2).2 _).2 ⟨_, frame_channel (gap_ok hg n') hc t, h1, ?_⟩
  have ho : ∀ k, k ≠ b!"display-name" → lookup k (g.fill n').tags = lookup k (g.fill n).tags :=
    fun k h => gap_other n' n (hk ▸ h)
  refine userNoticeOf_free P (fun k h _ => ho k h) rfl P.text rfl (fun u hu => ⟨_, hk ▸ gap_tag hg n', by simp [hu]⟩)
    (fun h => by simp [h]) ?_
  have := P.systemMessage
  rw [Line.tag, ← ho _ (by decide)] at this
  exact this

/-- C95: another system message makes no difference to a user notice but to its system message. -/
theorem C95_user_notice_system_message (b : Build) (g : Gap) (hg : g.Ok) (hc : g.target.head? = some HASH)
    (hk : g.key = b!"system-msg") (n n' : List Char) (t : Bytes) (hr : Readable b ((g.fill n).line t))
    (hr' : Readable b ((g.fill n').line t)) (p : UserNotice)
    (hp : parseAs UserNotice.parse b ((g.fill n).line t) = .ok (some p)) :
    parseAs UserNotice.parse b ((g.fill n').line t) =
      .ok (some { p with systemMessage := if n' = [] then none else some (enc (escape n')) }) := by
  obtain ⟨l, hl, h1, P⟩ := ((C29_user_notice b _ hr.1 hr.2.1 hr.2.2).2 p).1 hp
  rw [frame_channel (gap_ok hg n) hc] at hl
  cases hl
  refine ((C29_user_notice b _ hr'.1 hr'.2.1 hr'.2.2).2 _).2 ⟨_, frame_channel (gap_ok hg n') hc t, h1, ?_⟩
  have ho : ∀ k, k ≠ b!"system-msg" → lookup k (g.fill n').tags = lookup k (g.fill n).tags :=
    fun k h => gap_other n' n (hk ▸ h)
  refine userNoticeOf_free P (fun k _ h => ho k h) rfl P.text rfl (fun u hu => ?_) id ?_
  · obtain ⟨anon, -, he⟩ := P.event
    rw [hu] at he
    exact ⟨u.name, (ho _ (by decide)).trans he.2.2.2, hu⟩
  · intro c
    rw [show Line.tag _ (b!"system-msg") = some (enc (escape n')) from hk ▸ gap_tag hg n']
    have he := enc_escape_nil n'
    split
    · rename_i h
      rw [he.2 h]
      simp only [Option.some.injEq, reduceCtorEq, false_iff, not_and, Classical.not_not]
      exact Eq.symm
    · rename_i h
      simp only [Option.some.injEq]
      exact ⟨fun e => ⟨e, fun e' => h (he.1 (e.trans e'))⟩, And.left⟩

/-- An announcement with a gap for one of the texts. -/
def sampleNoticeGap (key : Bytes) : Gap :=
  ⟨sampleNotice.tags.takeWhile (·.1 ≠ key), key, (sampleNotice.tags.dropWhile (·.1 ≠ key)).tail, b!"tmi.twitch.tv",
    b!"USERNOTICE", b!"#c"⟩

theorem sampleNoticeGap_name : Gap.check (sampleNoticeGap (b!"display-name")) = true := by decide +kernel
theorem sampleNoticeGap_system : Gap.check (sampleNoticeGap (b!"system-msg")) = true := by decide +kernel

/-- The lines with the gap filled. -/
def sampleNoticeFilled (key : Bytes) (n : List Char) : Bytes := ((sampleNoticeGap key).fill n).line (b!"hi")

theorem sampleNoticeFilled_name : checkLine (sampleNoticeFilled (b!"display-name") sampleTrick) = true := by decide +kernel
theorem sampleNoticeFilled_name' : checkLine (sampleNoticeFilled (b!"display-name") ['B']) = true := by decide +kernel
theorem sampleNoticeFilled_system : checkLine (sampleNoticeFilled (b!"system-msg") sampleTrick) = true := by decide +kernel
theorem sampleNoticeFilled_system' : checkLine (sampleNoticeFilled (b!"system-msg") ['B']) = true := by decide +kernel
theorem sampleNoticeFilled_name_parsed :
    gave (parseAs UserNotice.parse ⟨.scalar, true⟩ (sampleNoticeFilled (b!"display-name") ['B'])) = true := by
  decide +kernel
theorem sampleNoticeFilled_system_parsed :
    gave (parseAs UserNotice.parse ⟨.scalar, true⟩ (sampleNoticeFilled (b!"system-msg") ['B'])) = true := by decide +kernel

example := C95_user_notice_name ⟨.scalar, true⟩ (sampleNoticeGap (b!"display-name")) (Gap.check_ok sampleNoticeGap_name)
  (by decide) rfl ['B'] sampleTrick (b!"hi") (readable_of sampleNoticeFilled_name' _)
  (readable_of sampleNoticeFilled_name _) _ (given_eq _ sampleNoticeFilled_name_parsed)

example := C95_user_notice_system_message ⟨.scalar, true⟩ (sampleNoticeGap (b!"system-msg"))
  (Gap.check_ok sampleNoticeGap_system) (by decide) rfl ['B'] sampleTrick (b!"hi")
  (readable_of sampleNoticeFilled_system' _) (readable_of sampleNoticeFilled_system _) _
  (given_eq _ sampleNoticeFilled_system_parsed)

/-- C95: another display name makes no difference to a whisper but to the name of its sender. -/
theorem C95_whisper_name (b : Build) (g : Gap) (hg : g.Ok) (hc : g.target.head? ≠ some HASH)
    (hk : g.key = b!"display-name") (n n' : List Char) (t : Bytes) (hr : Readable b ((g.fill n).line t))
    (hr' : Readable b ((g.fill n').line t)) (p : Whisper)
    (hp : parseAs Whisper.parse b ((g.fill n).line t) = .ok (some p)) :
    parseAs Whisper.parse b ((g.fill n').line t) =
      .ok (some { p with sender := { p.sender with name := enc (escape n') } }) := by
  obtain ⟨l, hl, h1, P⟩ := ((C32_whisper b _ hr.1 hr.2.1 hr.2.2).2 p).1 hp
  rw [frame_other (gap_ok hg n) hc] at hl
  cases hl
  refine ((C32_whisper b _ hr'.1 hr'.2.1 hr'.2.2).2 _).2 ⟨_, frame_other (gap_ok hg n') hc t, h1, ?_⟩
  have ho : ∀ k, k ≠ b!"display-name" → lookup k (g.fill n').tags = lookup k (g.fill n).tags :=
    fun k h => gap_other n' n (hk ▸ h)
  refine ⟨P.params, P.first, (ho _ (by decide)).trans P.senderId, P.senderLogin, hk ▸ gap_tag hg n', ?_, ?_, ?_⟩
  · have := P.badges
    rw [Line.tag, Line.tag, ← ho _ (by decide), ← ho _ (by decide)] at this
    exact this
  · have := P.emotes
    rw [Line.tag, ← ho _ (by decide)] at this
    exact this
  · have := P.color
    rw [Line.tag, ← ho _ (by decide)] at this
    exact this

/-- A whisper with a gap for the name. -/
def sampleSecretGap : Gap :=
  ⟨[(b!"color", b!"#fff")], b!"display-name", [(b!"user-id", b!"7")], b!"bob!bob@bob.tmi.twitch.tv", b!"WHISPER", b!"ann"⟩

theorem sampleSecretGap_ok : Gap.check sampleSecretGap = true := by decide +kernel
theorem sampleSecretFilled : checkLine ((sampleSecretGap.fill sampleTrick).line (b!"hi")) = true := by decide +kernel
theorem sampleSecretFilled' : checkLine ((sampleSecretGap.fill ['B']).line (b!"hi")) = true := by decide +kernel
theorem sampleSecretFilled_parsed :
    gave (parseAs Whisper.parse ⟨.scalar, true⟩ ((sampleSecretGap.fill ['B']).line (b!"hi"))) = true := by decide +kernel

example := C95_whisper_name ⟨.scalar, true⟩ sampleSecretGap (Gap.check_ok sampleSecretGap_ok) (by decide) rfl ['B']
  sampleTrick (b!"hi") (readable_of sampleSecretFilled' _) (readable_of sampleSecretFilled _) _
  (given_eq _ sampleSecretFilled_parsed)

end Tmi.Props
