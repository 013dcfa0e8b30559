/-
Property C96: what the server says is what a program is told.
-/
import Verif.Proofs.Serve
import Verif.Props.Getters
import Verif.Props.Lines

namespace Tmi.Props
open Tmi.Model Tmi.Spec Tmi.Proofs

/-! ## C96: what the server says is what a program is told -/

/-- The line of a chat message, read by the grammar. -/
theorem chat_line {c : Chat} (h : c.Ok) : line c.line = some
    ⟨c.tags, some (c.login ++ [BANG] ++ c.login ++ [AT] ++ c.login ++ b!".tmi.twitch.tv"), b!"PRIVMSG", some (HASH :: c.channel),
      some (COLON :: (if c.action then 0x01 :: b!"ACTION " ++ c.text ++ [0x01] else c.text))⟩ :=
  frame_channel (chat_frame h) rfl _

/-- C96: every chat message that the server sends parses, and every getter gives back what the server had. -/
theorem C96_chat (b : Build) (c : Chat) (hc : c.Ok) (hr : Readable b c.line) :
    ∃ p, parseAs Privmsg.parse b c.line = .ok (some p) ∧ ChatRead c p := by
  have hl := chat_line hc
  generalize hline : (⟨c.tags, _, _, _, _⟩ : Line) = l at hl
  have htags : l.tags = c.tags := by rw [← hline]
  have hcmd : l.command = b!"PRIVMSG" := by rw [← hline]
  have htext : l.text = some (if c.action then 0x01 :: b!"ACTION " ++ c.text ++ [0x01] else c.text) := by
    rw [← hline]; simp [Line.text, textOf_colon]
  have hchan : l.channel = some (HASH :: c.channel) := by rw [← hline]
  have hnick : l.nick = some c.login := by
    rw [← hline]
    simp only [Line.nick, Option.bind_some]
    rw [show c.login ++ [BANG] ++ c.login ++ [AT] ++ c.login ++ b!".tmi.twitch.tv" =
      c.login ++ BANG :: (c.login ++ [AT] ++ c.login ++ b!".tmi.twitch.tv") by simp]
    apply nick_login
    have := hc.login.2.1
    simp [this]; decide
  have htag : ∀ k, l.tag k = lookup k c.tags := fun k => by rw [Line.tag, htags]
  have hin := fun (k : Bytes) (o : Option Bytes) (h : (k, o) ∈ _) =>
    (htag k).trans (lookup_presentTags (k := k) (o := o) (by simp only [List.map_cons, List.map_nil]; decide) h)
  have tinfo := hin (b!"badge-info") (some (renderEntries c.badgeInfo)) (by simp)
  have tbadges := hin (b!"badges") (some (renderEntries c.badges)) (by simp)
  have tbits := hin (b!"bits") (c.bits.map showNat) (by simp)
  have tcolor := hin (b!"color") (some (c.color.getD [])) (by simp)
  have treward := hin (b!"custom-reward-id") c.rewardId (by simp)
  have tname := hin (b!"display-name") (some (enc (escape c.name))) (by simp)
  have temotes := hin (b!"emotes") (some c.emotes) (by simp)
  have tid := hin (b!"id") (some c.id) (by simp)
  have tmsg := hin (b!"msg-id") c.msgId (by simp)
  have rname := hin (b!"reply-parent-display-name") (c.reply.map fun q => enc (escape q.name)) (by simp)
  have rbody := hin (b!"reply-parent-msg-body") (c.reply.map fun q => enc (escape q.text)) (by simp)
  have rid := hin (b!"reply-parent-msg-id") (c.reply.map (·.id)) (by simp)
  have ruser := hin (b!"reply-parent-user-id") (c.reply.map (·.userId)) (by simp)
  have rlogin := hin (b!"reply-parent-user-login") (c.reply.map (·.login)) (by simp)
  have rthread := hin (b!"reply-thread-parent-msg-id") (c.reply.map (·.threadId)) (by simp)
  have rthreadLogin := hin (b!"reply-thread-parent-user-login") (c.reply.map (·.threadLogin)) (by simp)
  have troom := hin (b!"room-id") (some c.channelId) (by simp)
  have ttime := hin (b!"tmi-sent-ts") (some (showNat c.time)) (by simp)
  have tuser := hin (b!"user-id") (some c.userId) (by simp)
  have tpinned : l.tag (b!"pinned-chat-paid-amount") = none :=
    (htag _).trans (lookup_presentTags_none (by simp only [List.map_cons, List.map_nil]; decide))
  clear hin
  obtain ⟨p, hp⟩ := (C23_privmsg_required b c.line hr.1 hr.2.1 hr.2.2 l hl hcmd).2
    ⟨by simp [htext], by simp [hchan], by simp [troom], by simp [tid], by simp [tuser], by simp [tname], by simp [hnick],
      ⟨c.time / 1000, (c.time % 1000) * 1000000, .inl (by omega)⟩, showNat c.time, c.time, ttime, .inl ⟨_, isNat_showNat _, rfl⟩, hc.time, by
        constructor
        · simp only []; omega
        · simp only []; omega⟩
  have G := C90_privmsg b c.line hr.1 hr.2.1 hr.2.2 l hl p hp
  refine ⟨p, hp, ?_⟩
  have htx : Getter.Privmsg.text p = c.text ∧ Getter.Privmsg.isAction p = c.action := by
    obtain ⟨t, h1, h2⟩ := G.text
    rw [htext] at h1
    cases hca : c.action with
    | true =>
      rw [hca] at h1
      simp only [if_true, Option.some.injEq] at h1
      rcases h2 with ⟨h2, h3⟩ | ⟨h2, h3, h4⟩
      · rw [← h1] at h3
        refine ⟨?_, h2⟩
        have := List.append_inj_left' h3 rfl
        exact (List.append_cancel_left (List.append_inj_left' h3 rfl)).symm
      · exact absurd ⟨_, h1.symm⟩ h4
    | false =>
      rw [hca] at h1
      simp only [Bool.false_eq_true, if_false, Option.some.injEq] at h1
      rcases h2 with ⟨h2, h3⟩ | ⟨h2, h3, h4⟩
      · exact absurd ⟨_, h1.trans h3⟩ (hc.text hca)
      · exact ⟨h3.trans h1.symm, h2⟩
  have hb := G.badges.present _ _ tbadges tinfo
  rw [entries_render fun e he => (hc.badges e (by simp [he])).2.2, entries_render fun e he => (hc.badges e (by simp [he])).2.2] at hb
  refine ⟨?_, ?_, ?_, ?_, ?_, ?_, htx.1, htx.2, hb.1, hb.2, ?_, ?_, ?_, ?_, ?_, ?_, ?_, ?_, ?_⟩
  · exact (Option.some.inj (hchan.symm.trans G.channel)).symm
  · exact (Option.some.inj (troom.symm.trans G.channelId)).symm
  · exact (Option.some.inj (tid.symm.trans G.id)).symm
  · exact (Option.some.inj (tuser.symm.trans G.sender.id)).symm
  · exact (Option.some.inj (hnick.symm.trans G.sender.login)).symm
  · exact fun hrec => G.sender.name.escaped _ hrec tname
  · have h := G.color
    rw [tcolor] at h
    cases hcc : c.color with
    | none =>
      cases hg : Getter.Privmsg.color p with
      | none => rfl
      | some v =>
        have := (h v).1 hg
        rw [hcc] at this
        simp only [Option.getD_none, Option.some.injEq] at this
        exact absurd this.1.symm this.2
    | some v => exact (h v).2 ⟨by rw [hcc]; rfl, (hc.color v hcc).2⟩
  · have h := G.bits
    rw [tbits] at h
    cases hcc : c.bits with
    | none =>
      cases hg : Getter.Privmsg.bits p with
      | none => rfl
      | some v =>
        obtain ⟨w, hw, -⟩ := (h v).1 hg
        rw [hcc] at hw
        simp at hw
    | some n => exact (h n).2 ⟨_, by rw [hcc]; rfl, isNat_showNat n, hc.bits n hcc⟩
  · exact (tmsg.symm.trans G.msgId).symm
  · have h := G.customRewardId
    rw [treward] at h
    cases hcc : c.rewardId with
    | none =>
      cases hg : Getter.Privmsg.customRewardId p with
      | none => rfl
      | some v =>
        have := (h v).1 hg
        rw [hcc] at this
        simp at this
    | some v => exact (h v).2 ⟨hcc, (hc.rewardId v hcc).2⟩
  · rw [G.rawEmotes, temotes]; rfl
  · obtain ⟨v, ms, h1, h2, -, h4⟩ := G.timestamp
    rw [ttime] at h1
    cases h1
    rcases h2 with ⟨k, hk, rfl⟩ | ⟨ds, -, h, -⟩
    · exact isNat_unique hk (isNat_showNat _) ▸ h4
    · have := (showNat_spec c.time).1.2 0x2D (by rw [h]; simp)
      exact absurd this (by decide)
  · intro hq
    cases hg : Getter.Privmsg.replyTo p with
    | none => rfl
    | some r =>
      have := (G.replyTo r hg).messageId
      rw [rid, hq] at this
      simp at this
  · intro q hq
    rw [hq] at rname rbody rid ruser rlogin rthread rthreadLogin
    cases hg : Getter.Privmsg.replyTo p with
    | none => exact absurd ⟨⟨_, _, _, ⟨_, _, _⟩, _⟩, rid, rthread, rthreadLogin, ruser, rlogin, rname, rbody⟩ (G.noReply hg)
    | some r =>
      have R := G.replyTo r hg
      refine ⟨r, rfl, ?_, ?_, ?_, ?_, ?_, ?_, ?_⟩
      · exact (Option.some.inj (rid.symm.trans R.messageId)).symm
      · exact (Option.some.inj (ruser.symm.trans R.sender.id)).symm
      · exact (Option.some.inj (rlogin.symm.trans R.sender.login)).symm
      · exact fun hrec => R.sender.name.escaped _ hrec rname
      · exact fun hrec => R.text.escaped _ hrec rbody
      · exact (Option.some.inj (rthread.symm.trans R.threadParentMessageId)).symm
      · exact (Option.some.inj (rthreadLogin.symm.trans R.threadParentUserLogin)).symm
  · cases hg : Getter.Privmsg.pinnedChat p with
    | none => rfl
    | some r =>
      obtain ⟨t, h, -⟩ := (G.pinnedChat r hg).paidAmount
      rw [tpinned] at h
      simp at h

/-- A chat message as a typed message. -/
theorem chat_said (b : Build) (c : Chat) (hc : c.Ok) (hr : Readable b c.line) :
    ∃ l, line c.line = some l ∧ ∃ m, MessageOf l m ∧ Heard (.chat c) m ∧ ∀ m', m ≠ .other m' := by
  obtain ⟨p, hp, hread⟩ := C96_chat b c hc hr
  obtain ⟨l, hl, hcmd, P⟩ := ((C23_privmsg b _ hr.1 hr.2.1 hr.2.2).2 p).1 hp
  exact ⟨l, hl, .privmsg p, ⟨hcmd, P⟩, ⟨p, rfl, hread⟩, by simp⟩

theorem said_typed (b : Build) (s : Said) (hs : s.Ok) (hr : Readable b s.line) :
    ∃ l, line s.line = some l ∧ ∃ m, MessageOf l m ∧ Heard s m ∧ ∀ m', m ≠ .other m' := by
  by_cases hc : ∃ c, s = .chat c
  · obtain ⟨c, rfl⟩ := hc
    exact chat_said b c hs hr
  · exact said_line hs fun c h => hc ⟨c, h⟩

/-- The typed message of what the server says. -/
theorem typed_told {m : MsgRef} {l : Line} (R : Represents m l) {s : Said} {M : Message} (h : MessageOf l M) (ht : Heard s M)
    (ho : ∀ m', M ≠ .other m') : Message.fromIrc m = .ok (some M) := by
  refine ((fromIrc_exactly R fun hroom => ?_).2 M).2 ⟨h, fun m' e => absurd e (ho m')⟩
  exfalso
  cases s <;> obtain ⟨v, rfl, -⟩ := ht <;> (have h := h.1; rw [hroom] at h; revert h; decide)

/-- C96: whatever the server says about a channel, parsing the line gives a message with which a program is told the same. -/
theorem C96_told (b : Build) (s : Said) (hs : s.Ok) (hr : Readable b s.line) :
    ∃ m, Message.parse b s.line = .ok (some m) ∧ Heard s m := by
  obtain ⟨l, hl, m, h1, h2, h3⟩ := said_typed b s hs hr
  obtain ⟨r, hp, -, R⟩ := parse_line hl hr.1 hr.2.1 hr.2.2
  refine ⟨m, ?_, h2⟩
  unfold Message.parse
  rw [hp, bind_ok]
  exact typed_told R h1 h2 h3

/-- C96: through the whole client: if what the server says arrives, however cut into pieces, then `recv` returns one
message for each line, in order, and the typed messages tell the program the same. -/
theorem C96_received (b : Build) (cs : List Said) (hc : ∀ c ∈ cs, c.Ok ∧ Readable b c.line ∧ LF ∉ c.line) (net : List Net)
    (hn : arrived net = cs.flatMap fun c => c.line ++ [CR, LF]) (he : ending net = .open_) :
    ∃ ms : List MsgOwned, (∃ N, ∀ n, N ≤ n → recvPolls b n .new net = ms.map fun m => .ok (.ok m)) ∧
      ms.length = cs.length ∧
      ∀ (i : Nat) (c : Said) (m : MsgOwned), cs[i]? = some c → ms[i]? = some m →
        ∃ M, m.asTyped = .ok (some M) ∧ Heard c M := by
  refine ⟨cs.map fun c => parsed b c.line, ?_, by simp, ?_⟩
  · obtain ⟨N, hN⟩ := (C60_open b net he).2
    refine ⟨N, fun n hn' => ?_⟩
    rw [hN n hn', hn, List.map_map]
    clear hn hN hn'
    induction cs with
    | nil => simp [delivered, receivedLines, fields_none]
    | cons c cs ih =>
      obtain ⟨h1, h2, h3⟩ := hc c (by simp)
      obtain ⟨l, hl, -⟩ := said_typed b c h1 h2
      rw [List.flatMap_cons, (C60_utf8 c.line _ h3).1 h2.1, List.map_cons, List.map_cons,
        ih fun c' h => hc c' (by simp [h])]
      simp only [Function.comp, expected, (owned_parse_some h2 hl).1]
  · intro i c m hi hm
    rw [List.getElem?_map, hi] at hm
    cases hm
    obtain ⟨h1, h2, -⟩ := hc c (List.mem_of_getElem? hi)
    obtain ⟨l, hl, M, h4, h5, h6⟩ := said_typed b c h1 h2
    exact ⟨M, typed_told (owned_parse_some h2 hl).2.2 h4 h5 h6, h5⟩

/-- A chat message that is a reply, with badges and bits. -/
def servedChat : Chat where
  channel := b!"c"
  channelId := b!"1"
  id := b!"m1"
  userId := b!"7"
  login := b!"bob"
  name := "Bob; the\\ builder".toList
  text := b!":) @x #y"
  action := true
  badges := [(b!"subscriber", b!"12"), (b!"vip", b!"1")]
  badgeInfo := [(b!"subscriber", b!"14")]
  color := some (b!"#FF0000")
  bits := some 100
  msgId := none
  rewardId := none
  emotes := b!"25:0-4"
  time := 1594545155039
  reply := some ⟨b!"m0", b!"8", b!"ann", "Ann".toList, "so it is; isn't it".toList, b!"m0", b!"ann"⟩

theorem servedChat_line : servedChat.line =
    b!"@badge-info=subscriber/14;badges=subscriber/12,vip/1;bits=100;color=#FF0000;display-name=Bob\\:\\sthe\\\\\\sbuilder;" ++
    b!"emotes=25:0-4;id=m1;reply-parent-display-name=Ann;reply-parent-msg-body=so\\sit\\sis\\:\\sisn't\\sit;" ++
    b!"reply-parent-msg-id=m0;reply-parent-user-id=8;reply-parent-user-login=ann;reply-thread-parent-msg-id=m0;" ++
    b!"reply-thread-parent-user-login=ann;room-id=1;tmi-sent-ts=1594545155039;user-id=7 " ++
    b!":bob!bob@bob.tmi.twitch.tv PRIVMSG #c :\x01ACTION :) @x #y\x01" := by decide +kernel

theorem servedChat_ok : servedChat.Ok where
  channel := by decide
  ids := by unfold Unescaped; decide
  login := by unfold Login Unescaped; decide
  text := by intro h; cases h
  badges := by unfold Unescaped; decide +kernel
  color := by rintro _ ⟨⟩; unfold Unescaped; decide
  bits := by rintro _ ⟨⟩; decide
  msgId := by rintro _ ⟨⟩
  rewardId := by rintro _ ⟨⟩
  time := by unfold InChrono; decide
  reply := by rintro _ ⟨⟩; unfold Unescaped; decide +kernel

theorem servedChat_readable : checkLine servedChat.line = true := by decide +kernel

example := C96_chat ⟨.simd .sse2 5, true⟩ servedChat servedChat_ok (readable_of servedChat_readable _)
example : Recoverable servedChat.name := C57_recoverable _ (by decide +kernel) (by decide +kernel)

/-- A ban and a timeout. -/
def sampleBan : Said := .banned ⟨b!"c", b!"1", 1594545155039⟩ (b!"bob") (b!"7")
def sampleMute : Said := .timedOut ⟨b!"c", b!"1", 1594545155039⟩ (b!"bob") (b!"7") 600
def sampleWipe : Said := .cleared ⟨b!"c", b!"1", 1594545155039⟩
def sampleErase : Said := .deleted ⟨b!"c", b!"", 1594545155039⟩ (b!"bob") (b!"m1") (b!":) @x #y") true
def sampleEnter : Said := .joined (b!"ann") (b!"c")

theorem sampleMute_line : sampleMute.line =
    b!"@ban-duration=600;room-id=1;target-user-id=7;tmi-sent-ts=1594545155039 :tmi.twitch.tv CLEARCHAT #c :bob" := by
  decide +kernel

theorem samplePlace_ok : Place.Ok ⟨b!"c", b!"1", 1594545155039⟩ :=
  ⟨by decide, by unfold Unescaped; decide, by unfold InChrono; decide⟩

theorem samples_ok : ∀ s ∈ [.chat servedChat, sampleMute, sampleBan, sampleWipe, sampleErase, sampleEnter],
    Said.Ok s ∧ (∀ b, Readable b s.line) ∧ LF ∉ s.line := by
  simp only [List.mem_cons, List.not_mem_nil, or_false, forall_eq_or_imp, forall_eq]
  refine ⟨⟨servedChat_ok, readable_of servedChat_readable, by decide +kernel⟩,
    ⟨⟨samplePlace_ok, by unfold Unescaped; decide, by decide⟩, readable_of (by decide +kernel), by decide +kernel⟩,
    ⟨⟨samplePlace_ok, by unfold Unescaped; decide⟩, readable_of (by decide +kernel), by decide +kernel⟩,
    ⟨samplePlace_ok, readable_of (by decide +kernel), by decide +kernel⟩,
    ⟨⟨⟨by decide, by unfold Unescaped; decide, by unfold InChrono; decide⟩, by unfold Unescaped; decide, by unfold Unescaped; decide,
      by intro h; cases h⟩, readable_of (by decide +kernel), by decide +kernel⟩,
    ⟨by unfold sampleEnter Said.Ok Login Unescaped; decide, readable_of (by decide +kernel), by decide +kernel⟩⟩

example := C96_told ⟨.simd .sse2 5, true⟩ sampleMute (samples_ok _ (by simp)).1 ((samples_ok _ (by simp)).2.1 _)

/-- Some of them, in three pieces. -/
def samplePieces : List Net :=
  [.data (servedChat.line.take 100), .pending, .data (servedChat.line.drop 100 ++ [CR]),
   .data ([LF] ++ sampleMute.line ++ [CR, LF])]

example := C96_received ⟨.simd .sse2 5, true⟩ [.chat servedChat, sampleMute]
  (by simp only [List.mem_cons, List.not_mem_nil, or_false, forall_eq_or_imp, forall_eq]
      exact ⟨⟨(samples_ok _ (by simp)).1, (samples_ok _ (by simp)).2.1 _, (samples_ok _ (by simp)).2.2⟩,
        (samples_ok _ (by simp)).1, (samples_ok _ (by simp)).2.1 _, (samples_ok _ (by simp)).2.2⟩)
  samplePieces (by decide +kernel) (by decide +kernel)

end Tmi.Props
