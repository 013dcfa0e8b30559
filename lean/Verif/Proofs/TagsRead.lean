/-
The typed messages depend on the tags only through the ones they are made of.
-/
import Verif.Spec.TagsRead
import Verif.Proofs.Dispatch

namespace Tmi.Proofs
open Model Spec

/-- Two raw messages with the same answers to what a typed parser asks. -/
structure SameAnswers (m m' : MsgRef) (tags : List Tag) : Prop where
  command : m.command = m'.command
  channel : m.channel = m'.channel
  params : m.params = m'.params
  text : m.text = m'.text
  nick : nickOf? m = nickOf? m'
  checks : m.checks = m'.checks
  tags : ∀ t ∈ tags, m.tag t = m'.tag t

theorem clearChat_same {m m' : MsgRef}
    (h : SameAnswers m m' [.roomId, .targetUserId, .banDuration, .tmiSentTs]) : ClearChat.parse m = ClearChat.parse m' := by
  obtain ⟨h1, h2, h3, h4, h5, h6, h⟩ := h
  simp only [List.forall_mem_cons] at h
  unfold ClearChat.parse
  simp only [h1, h2, h4, h]

theorem clearMsg_same {m m' : MsgRef}
    (h : SameAnswers m m' [.roomId, .login, .targetMsgId, .tmiSentTs]) : ClearMsg.parse m = ClearMsg.parse m' := by
  obtain ⟨h1, h2, h3, h4, h5, h6, h⟩ := h
  simp only [List.forall_mem_cons] at h
  unfold ClearMsg.parse
  simp only [h1, h2, h4, h]

theorem globalUserState_same {m m' : MsgRef}
    (h : SameAnswers m m' [.userId, .displayName, .badges, .badgeInfo, .emoteSets, .color]) :
    GlobalUserState.parse m = GlobalUserState.parse m' := by
  obtain ⟨h1, h2, h3, h4, h5, h6, h⟩ := h
  simp only [List.forall_mem_cons] at h
  unfold GlobalUserState.parse badgesOf
  simp only [h1, h]

theorem join_same {m m' : MsgRef} (h : SameAnswers m m' []) : Model.Join.parse m = Model.Join.parse m' := by
  obtain ⟨h1, h2, h3, h4, h5, h6, h⟩ := h
  unfold Model.Join.parse
  simp only [h1, h2, h5]

theorem part_same {m m' : MsgRef} (h : SameAnswers m m' []) : Part.parse m = Part.parse m' := by
  obtain ⟨h1, h2, h3, h4, h5, h6, h⟩ := h
  unfold Part.parse
  simp only [h1, h2, h5]

theorem notice_same {m m' : MsgRef} (h : SameAnswers m m' [.msgId]) : Notice.parse m = Notice.parse m' := by
  obtain ⟨h1, h2, h3, h4, h5, h6, h⟩ := h
  simp only [List.forall_mem_cons] at h
  unfold Notice.parse
  simp only [h1, h2, h4, h]

theorem ping_same {m m' : MsgRef} (h : SameAnswers m m' []) : Ping.parse m = Ping.parse m' := by
  obtain ⟨h1, h2, h3, h4, h5, h6, h⟩ := h
  unfold Ping.parse
  simp only [h1, h4]

theorem pong_same {m m' : MsgRef} (h : SameAnswers m m' []) : Pong.parse m = Pong.parse m' := by
  obtain ⟨h1, h2, h3, h4, h5, h6, h⟩ := h
  unfold Pong.parse
  simp only [h1, h4]

theorem privmsg_same {m m' : MsgRef}
    (h : SameAnswers m m' [.roomId, .msgId, .id, .userId, .displayName, .badges, .badgeInfo, .color,
      .customRewardId, .bits, .emotes, .tmiSentTs, .replyParentMsgId, .replyThreadParentMsgId, .replyThreadParentUserLogin,
      .replyParentUserId, .replyParentUserLogin, .replyParentDisplayName, .replyParentMsgBody,
      .pinnedChatPaidAmount, .pinnedChatPaidCurrency, .pinnedChatPaidExponent, .pinnedChatPaidLevel,
      .pinnedChatPaidIsSystemMessage]) : Privmsg.parse m = Privmsg.parse m' := by
  obtain ⟨h1, h2, h3, h4, h5, h6, h⟩ := h
  simp only [List.forall_mem_cons] at h
  unfold Privmsg.parse badgesOf parseReply parsePinned
  simp only [h1, h2, h4, h5, h]

theorem roomState_same {m m' : MsgRef}
    (h : SameAnswers m m' [.roomId, .emoteOnly, .followersOnly, .r9K, .slow, .subsOnly]) :
    RoomState.parse m = RoomState.parse m' := by
  obtain ⟨h1, h2, h3, h4, h5, h6, h⟩ := h
  simp only [List.forall_mem_cons] at h
  unfold RoomState.parse followersOnlyOf
  simp only [h1, h2, h6, h]

theorem userState_same {m m' : MsgRef}
    (h : SameAnswers m m' [.displayName, .badges, .badgeInfo, .emoteSets, .color]) :
    UserState.parse m = UserState.parse m' := by
  obtain ⟨h1, h2, h3, h4, h5, h6, h⟩ := h
  simp only [List.forall_mem_cons] at h
  unfold UserState.parse badgesOf
  simp only [h1, h2, h]

theorem whisper_same {m m' : MsgRef}
    (h : SameAnswers m m' [.userId, .displayName, .badges, .badgeInfo, .emotes, .color]) :
    Whisper.parse m = Whisper.parse m' := by
  obtain ⟨h1, h2, h3, h4, h5, h6, h⟩ := h
  simp only [List.forall_mem_cons] at h
  unfold Whisper.parse badgesOf
  simp only [h1, h3, h5, h]

theorem userNotice_same {m m' : MsgRef}
    (h : SameAnswers m m' [.roomId, .msgId, .id, .userId, .login, .displayName, .systemMsg, .badges, .badgeInfo,
      .emotes, .color, .tmiSentTs, .msgParamCumulativeMonths, .msgParamStreakMonths, .msgParamSubPlan,
      .msgParamSubPlanName, .msgParamViewerCount, .msgParamProfileImageUrl, .msgParamMonths, .msgParamRecipientId,
      .msgParamRecipientUserName, .msgParamRecipientDisplayName, .msgParamGiftMonths, .msgParamMassGiftCount,
      .msgParamSenderCount, .msgParamSenderLogin, .msgParamSenderName, .msgParamPromoGiftTotal, .msgParamPromoName,
      .msgParamRitualName, .msgParamThreshold, .msgParamColor]) : UserNotice.parse m = UserNotice.parse m' := by
  obtain ⟨h1, h2, h3, h4, h5, h6, h⟩ := h
  simp only [List.forall_mem_cons] at h
  unfold UserNotice.parse badgesOf senderOf parseEvent parsePromotion reqU64
  simp only [h1, h2, h4, h]

theorem sameAnswers {m m' : MsgRef} {l l' : Line} (R : Represents m l) (R' : Represents m' l')
    (hk : m.checks = m'.checks) (h : SameButTags l l') {c : Command} (hc : commandOf l.command = c)
    (h1 : c ≠ .rplNames) (h2 : c ≠ .rplEndOfNames) (ts : List Tag) (hts : ∀ t ∈ ts, t.asStr ∈ tagsRead l.command) :
    SameAnswers m m' ts where
  command := by rw [R.command, R'.command, h.command]
  channel := by rw [channel_eq R hc h1 h2, channel_eq R' (h.command ▸ hc) h1 h2, h.channel]
  params := by rw [R.params, R'.params, h.params]
  text := by rw [R.text, R'.text, h.params]
  nick := by rw [nickOf?_eq R, nickOf?_eq R', h.nick]
  checks := hk
  tags := fun t ht => by
    rw [R.tag, R'.tag]
    exact congrArg _ (h.tags _ (hts t ht))

theorem fromIrc_same {m m' : MsgRef} {l l' : Line} (R : Represents m l) (R' : Represents m' l')
    (hk : m.checks = m'.checks) (h : SameButTags l l') (ht : l.command ∈ typedCommands) :
    Message.fromIrc m = Message.fromIrc m' := by
  have S := fun (c : Command) (hc : commandOf l.command = c) => sameAnswers R R' hk h hc
  unfold Message.fromIrc
  rw [R.command, R'.command, ← h.command, bind_ok, bind_ok]
  simp only [typedCommands, List.mem_cons, List.not_mem_nil, or_false] at ht
  rcases ht with e | e | e | e | e | e | e | e | e | e | e | e | e | e <;>
    (have hc := congrArg commandOf e
     rw [hc]
     rw [e] at S)
  · exact congrArg (into · _) (clearChat_same (S .clearChat rfl nofun nofun _ (by decide)))
  · exact congrArg (into · _) (clearMsg_same (S .clearMsg rfl nofun nofun _ (by decide)))
  · exact congrArg (into · _) (globalUserState_same (S .globalUserState rfl nofun nofun _ (by decide)))
  · exact congrArg (into · _) (join_same (S .join rfl nofun nofun _ nofun))
  · exact congrArg (into · _) (notice_same (S .notice rfl nofun nofun _ (by decide)))
  · exact congrArg (into · _) (part_same (S .part rfl nofun nofun _ nofun))
  · exact congrArg (into · _) (ping_same (S .ping rfl nofun nofun _ nofun))
  · exact congrArg (into · _) (pong_same (S .pong rfl nofun nofun _ nofun))
  · exact congrArg (into · _) (privmsg_same (S .privmsg rfl nofun nofun _ (by decide)))
  · rfl
  · exact congrArg (into · _) (roomState_same (S .roomState rfl nofun nofun _ (by decide)))
  · exact congrArg (into · _) (userNotice_same (S .userNotice rfl nofun nofun _ (by decide)))
  · exact congrArg (into · _) (userState_same (S .userState rfl nofun nofun _ (by decide)))
  · exact congrArg (into · _) (whisper_same (S .whisper rfl nofun nofun _ (by decide)))

theorem message_same (b : Build) {s s' : Bytes} {l l' : Line} (hs : Readable b s) (hs' : Readable b s')
    (hl : line s = some l) (hl' : line s' = some l') (h : SameButTags l l') (ht : l.command ∈ typedCommands) :
    Message.parse b s = Message.parse b s' := by
  have p := parse_refines b hs.1 hs.2.1 hs.2.2
  have p' := parse_refines b hs'.1 hs'.2.1 hs'.2.2
  rw [hl] at p
  rw [hl'] at p'
  obtain ⟨m, hm, -, hk, R⟩ := p
  obtain ⟨m', hm', -, hk', R'⟩ := p'
  unfold Message.parse
  rw [hm, hm', bind_ok, bind_ok]
  exact fromIrc_same R R' (hk.trans hk'.symm) h ht

/-! ### Looking up tags in a list with other tags -/

theorem lookup_filter {P : Bytes → Bool} {k : Bytes} (hk : P k) :
    ∀ tags : List (Bytes × Bytes), lookup k (tags.filter fun p => P p.1) = lookup k tags := by
  intro tags
  induction tags with
  | nil => rfl
  | cons p r ih =>
    obtain ⟨j, v⟩ := p
    rw [List.filter_cons]
    by_cases e : j = k
    · rw [if_pos (by rw [e]; exact hk), lookup, lookup, if_pos e, if_pos e]
    · rw [lookup, if_neg e]
      split
      · rw [lookup, if_neg e]; exact ih
      · exact ih

theorem lookup_append {k : Bytes} (y : List (Bytes × Bytes)) :
    ∀ x : List (Bytes × Bytes), lookup k (x ++ y) = (lookup k x).or (lookup k y) := by
  intro x
  induction x with
  | nil => rfl
  | cons p r ih =>
    rw [List.cons_append, lookup, lookup]
    split
    · rfl
    · exact ih

theorem lookup_perm {k : Bytes} {tags tags' : List (Bytes × Bytes)} (h : tags.Perm tags')
    (hd : (tags.map (·.1)).Nodup) : lookup k tags = lookup k tags' := by
  induction h with
  | nil => rfl
  | cons p h ih =>
    rw [List.map_cons, List.nodup_cons] at hd
    rw [lookup, lookup, ih hd.2]
  | swap p q r =>
    rw [List.map_cons, List.map_cons, List.nodup_cons, List.mem_cons, not_or] at hd
    simp only [lookup]
    by_cases e : p.1 = k
    · have e2 : q.1 ≠ k := fun h => hd.1.1 (h.trans e.symm)
      simp [e, e2]
    · simp [e]
  | trans h1 h2 ih1 ih2 => rw [ih1 hd, ih2 ((h1.map _).nodup_iff.1 hd)]

end Tmi.Proofs
