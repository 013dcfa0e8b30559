/-
Property C90: the getters of typed messages.
-/
import Verif.Props.Unescape
import Verif.Spec.Getters
import Verif.Proofs.Samples

namespace Tmi.Props
open Tmi.Model Tmi.Spec Tmi.Proofs

/-! ### Lemmas -/

theorem textIn_of {o : Option Bytes} {v : Bytes} (h : o = some v) : TextIn o (maybeUnescape v) := by
  refine ⟨by rw [h]; simp, fun w hw hb => ?_, gives_back h⟩
  rw [h] at hw
  cases hw
  unfold maybeUnescape
  rw [find_none hb]

theorem userGives_of {i lo n : Option Bytes} {u : User} (h1 : i = some u.id) (h2 : lo = some u.login)
    (h3 : n = some u.name) : UserGives i lo n u := ⟨h1, h2, textIn_of h3⟩

theorem badgeGives_of {name version : Bytes} {extra : Option Bytes} {x : Badge} (h : BadgeOf name version extra x) :
    BadgeGives name version extra x := by
  unfold BadgeOf at h
  unfold BadgeGives
  repeat' split at h
  all_goals simp_all
  · obtain ⟨m, rfl, h⟩ := h
    exact ⟨_, rfl, rfl, h⟩
  · exact ⟨rfl, rfl, rfl⟩

theorem badgesGive_of {l : Line} {r : List Badge} (h : BadgesOf (l.tag (b!"badges")) (l.tag (b!"badge-info")) r) :
    BadgesGive l r r.length := by
  refine ⟨rfl, fun ha => by rw [h.absent ha]; rfl, fun b i hb hi => ?_⟩
  obtain ⟨h1, h2⟩ := h.present b i hb hi
  refine ⟨h1, fun k name version hk => ?_⟩
  obtain ⟨x, hx, hb⟩ := h2 k name version hk
  exact ⟨x, hx, badgeGives_of hb⟩

theorem samePlace {l l' : Line} {s : Bytes} (h : line s = some l) (h' : line s = some l') : l' = l := by
  rw [h] at h'
  exact (Option.some.inj h').symm

/-! ## C90 -/

theorem clear_chat_gives {l : Line} {v : ClearChat} (h : ClearChatOf l v) : ClearChatGives l v := by
  obtain ⟨channel, channelId, action, timestamp⟩ := v
  have ha := h.action
  have num : ∀ r, OptSecs (l.tag (b!"ban-duration")) r → ∀ d, r = some d →
      ∃ n, l.num (b!"ban-duration") n ∧ d = n * 1000000000 := by
    intro r hr d hd
    obtain ⟨t, n, h1, h2, h3, h4⟩ := (hr d).1 hd
    exact ⟨n, ⟨t, h1, h2, h3⟩, h4⟩
  have no : OptSecs (l.tag (b!"ban-duration")) none → ¬ ∃ n, l.num (b!"ban-duration") n := by
    rintro hr ⟨n, t, h1, h2, h3⟩
    cases (hr (n * 1000000000)).2 ⟨t, n, h1, h2, h3, rfl⟩
  cases action with
  | clear =>
    exact ⟨h.channel, h.channelId, nofun, nofun, nofun, nofun, nofun, ha, h.timestamp⟩
  | ban user id =>
    refine ⟨h.channel, h.channelId, ?_, ?_, nofun, nofun, nofun, ⟨?_, no ha.2.2⟩, h.timestamp⟩
    · rintro _ ⟨⟩; exact ha.1
    · rintro _ ⟨⟩; exact ha.2.1
    · rw [ha.1]; simp
  | timeOut user id d =>
    refine ⟨h.channel, h.channelId, nofun, nofun, ?_, ?_, ?_, ⟨?_, ?_⟩, h.timestamp⟩
    · rintro _ ⟨⟩; exact ha.1
    · rintro _ ⟨⟩; exact ha.2.1
    · rintro _ ⟨⟩; exact num _ ha.2.2 _ rfl
    · rw [ha.1]; simp
    · obtain ⟨n, h1, _⟩ := num _ ha.2.2 _ rfl
      exact ⟨n, h1⟩

/-- C90: CLEARCHAT. -/
theorem C90_clear_chat (b : Build) (s : Bytes) (hu : Utf8 s) (hw : Within s) (ht : TagsTerminated b s)
    (l : Line) (hl : line s = some l) (v : ClearChat) (h : parseAs ClearChat.parse b s = .ok (some v)) :
    ClearChatGives l v := by
  obtain ⟨l', hl', _, h⟩ := ((C28_clear_chat b s hu hw ht).2 v).1 h
  cases samePlace hl hl'
  exact clear_chat_gives h

example := C90_clear_chat ⟨.scalar, true⟩ sampleTimeout (utf8_of sampleTimeout_ok) (within_of sampleTimeout_ok) (terminated_of sampleTimeout_ok _)
  _ (line_eq _ sampleTimeout_line) _ (given_eq _ sampleTimeout_parsed)

theorem clear_msg_gives {l : Line} {v : ClearMsg} (h : ClearMsgOf l v) : ClearMsgGives l v := by
  exact ⟨h.channel, h.channelId, h.sender, h.targetMessageId, h.text, h.timestamp⟩

/-- C90: CLEARMSG. -/
theorem C90_clear_msg (b : Build) (s : Bytes) (hu : Utf8 s) (hw : Within s) (ht : TagsTerminated b s)
    (l : Line) (hl : line s = some l) (v : ClearMsg) (h : parseAs ClearMsg.parse b s = .ok (some v)) :
    ClearMsgGives l v := by
  obtain ⟨l', hl', _, h⟩ := ((C32_clear_msg b s hu hw ht).2 v).1 h
  cases samePlace hl hl'
  exact clear_msg_gives h

example := C90_clear_msg ⟨.scalar, true⟩ sampleClearMsg (utf8_of sampleClearMsg_ok) (within_of sampleClearMsg_ok) (terminated_of sampleClearMsg_ok _)
  _ (line_eq _ sampleClearMsg_line) _ (given_eq _ sampleClearMsg_parsed)

theorem global_user_state_gives {l : Line} {v : GlobalUserState} (h : GlobalUserStateOf l v) : GlobalUserStateGives l v := by
  exact ⟨h.id, textIn_of h.name, badgesGive_of h.badges, ⟨rfl, h.emoteSets⟩, h.color⟩

/-- C90: GLOBALUSERSTATE. -/
theorem C90_global_user_state (b : Build) (s : Bytes) (hu : Utf8 s) (hw : Within s) (ht : TagsTerminated b s)
    (l : Line) (hl : line s = some l) (v : GlobalUserState) (h : parseAs GlobalUserState.parse b s = .ok (some v)) :
    GlobalUserStateGives l v := by
  obtain ⟨l', hl', _, h⟩ := ((C31_global_user_state b s hu hw ht).2 v).1 h
  cases samePlace hl hl'
  exact global_user_state_gives h

example := C90_global_user_state ⟨.scalar, true⟩ sampleGlobal (utf8_of sampleGlobal_ok) (within_of sampleGlobal_ok) (terminated_of sampleGlobal_ok _)
  _ (line_eq _ sampleGlobal_line) _ (given_eq _ sampleGlobal_parsed)

theorem user_state_gives {l : Line} {v : UserState} (h : UserStateOf l v) : UserStateGives l v := by
  exact ⟨h.channel, h.userName, badgesGive_of h.badges, ⟨rfl, h.emoteSets⟩, h.color⟩

/-- C90: USERSTATE. -/
theorem C90_user_state (b : Build) (s : Bytes) (hu : Utf8 s) (hw : Within s) (ht : TagsTerminated b s)
    (l : Line) (hl : line s = some l) (v : UserState) (h : parseAs UserState.parse b s = .ok (some v)) :
    UserStateGives l v := by
  obtain ⟨l', hl', _, h⟩ := ((C31_user_state b s hu hw ht).2 v).1 h
  cases samePlace hl hl'
  exact user_state_gives h

example := C90_user_state ⟨.scalar, true⟩ sampleUserState (utf8_of sampleUserState_ok) (within_of sampleUserState_ok) (terminated_of sampleUserState_ok _)
  _ (line_eq _ sampleUserState_line) _ (given_eq _ sampleUserState_parsed)

/-- C90: JOIN, PART, NOTICE, PING and PONG. -/
theorem C90_small (b : Build) (s : Bytes) (hu : Utf8 s) (hw : Within s) (ht : TagsTerminated b s)
    (l : Line) (hl : line s = some l) :
    (∀ v, parseAs Model.Join.parse b s = .ok (some v) → JoinGives l v) ∧
    (∀ v, parseAs Part.parse b s = .ok (some v) → PartGives l v) ∧
    (∀ v, parseAs Notice.parse b s = .ok (some v) → NoticeGives l v) ∧
    (∀ v, parseAs Ping.parse b s = .ok (some v) → l.text = Getter.Ping.nonce v) ∧
    (∀ v, parseAs Pong.parse b s = .ok (some v) → l.text = Getter.Pong.nonce v) := by
  refine ⟨fun v h => ?_, fun v h => ?_, fun v h => ?_, fun v h => ?_, fun v h => ?_⟩
  · obtain ⟨l', hl', _, h⟩ := ((C32_join b s hu hw ht).2 v).1 h
    cases samePlace hl hl'
    exact ⟨h.channel, h.user⟩
  · obtain ⟨l', hl', _, h⟩ := ((C32_part b s hu hw ht).2 v).1 h
    cases samePlace hl hl'
    exact ⟨h.channel, h.user⟩
  · obtain ⟨l', hl', _, h⟩ := ((C32_notice b s hu hw ht).2 v).1 h
    cases samePlace hl hl'
    exact ⟨h.channel, h.text, h.id⟩
  · obtain ⟨l', hl', _, h⟩ := ((C32_ping b s hu hw ht).2 v).1 h
    cases samePlace hl hl'
    exact h.nonce
  · obtain ⟨l', hl', _, h⟩ := ((C32_pong b s hu hw ht).2 v).1 h
    cases samePlace hl hl'
    exact h.nonce

example := (C90_small ⟨.scalar, true⟩ sampleJoin (utf8_of sampleJoin_ok) (within_of sampleJoin_ok) (terminated_of sampleJoin_ok _)
  _ (line_eq _ sampleJoin_line)).1 _ (given_eq _ sampleJoin_parsed)
example := (C90_small ⟨.scalar, true⟩ samplePart (utf8_of samplePart_ok) (within_of samplePart_ok) (terminated_of samplePart_ok _)
  _ (line_eq _ samplePart_line)).2.1 _ (given_eq _ samplePart_parsed)
example := (C90_small ⟨.scalar, true⟩ sampleNoticeLine (utf8_of sampleNoticeLine_ok) (within_of sampleNoticeLine_ok)
  (terminated_of sampleNoticeLine_ok _) _ (line_eq _ sampleNoticeLine_line)).2.2.1 _ (given_eq _ sampleNoticeLine_parsed)
example := (C90_small ⟨.scalar, true⟩ samplePing (utf8_of samplePing_ok) (within_of samplePing_ok) (terminated_of samplePing_ok _)
  _ (line_eq _ samplePing_line)).2.2.2.1 _ (given_eq _ samplePing_parsed)
example := (C90_small ⟨.scalar, true⟩ samplePong (utf8_of samplePong_ok) (within_of samplePong_ok) (terminated_of samplePong_ok _)
  _ (line_eq _ samplePong_line)).2.2.2.2 _ (given_eq _ samplePong_parsed)

theorem privmsg_gives {l : Line} {v : Privmsg} (h : PrivmsgOf l v) : PrivmsgGives l v := by
  refine ⟨h.id, h.channel, h.channelId, h.msgId, userGives_of h.senderId h.senderLogin h.senderName, fun r hr => ?_,
    fun hn => ?_, fun r hr => ?_, fun hn => ?_, h.text, badgesGive_of h.badges, h.color, h.customRewardId, h.bits,
    h.emotes, h.timestamp⟩
  · have := (h.replyTo r).1 hr
    exact ⟨this.threadParentMessageId, this.threadParentUserLogin, this.messageId,
      userGives_of this.senderId this.senderLogin this.senderName, textIn_of this.text⟩
  · rintro ⟨r, hr⟩
    have := (h.replyTo r).2 hr
    change v.replyTo = none at hn
    rw [hn] at this
    cases this
  · have := (h.pinnedChat r).1 hr
    exact ⟨this.amount, this.currency, this.exponent, this.level, this.isSystemMessage⟩
  · rintro ⟨r, hr⟩
    have := (h.pinnedChat r).2 hr
    change v.pinnedChat = none at hn
    rw [hn] at this
    cases this

/-- C90: PRIVMSG. -/
theorem C90_privmsg (b : Build) (s : Bytes) (hu : Utf8 s) (hw : Within s) (ht : TagsTerminated b s)
    (l : Line) (hl : line s = some l) (v : Privmsg) (h : parseAs Privmsg.parse b s = .ok (some v)) :
    PrivmsgGives l v := by
  obtain ⟨l', hl', _, h⟩ := ((C23_privmsg b s hu hw ht).2 v).1 h
  cases samePlace hl hl'
  exact privmsg_gives h

example := C90_privmsg ⟨.scalar, true⟩ samplePriv (utf8_of samplePriv_ok) (within_of samplePriv_ok) (terminated_of samplePriv_ok _)
  _ (line_eq _ samplePriv_line) _ (given_eq _ samplePriv_parsed)

theorem room_state_gives {l : Line} {v : RoomState} (h : RoomStateOf l v) : RoomStateGives l v := by
  exact ⟨h.channel, h.channelId, h.emoteOnly, h.followersOnly, h.r9k, h.slow, h.subsOnly⟩

/-- C90: ROOMSTATE, when the minutes of `followers-only` fit (C30). -/
theorem C90_room_state (b : Build) (s : Bytes) (hu : Utf8 s) (hw : Within s) (ht : TagsTerminated b s)
    (l : Line) (hl : line s = some l)
    (ho : ∀ v n, l.tag (b!"followers-only") = some v → I64 v n → n ≤ 153722867280912930)
    (v : RoomState) (h : parseAs RoomState.parse b s = .ok (some v)) : RoomStateGives l v := by
  have ho' : ∀ l v n, line s = some l → l.tag (b!"followers-only") = some v → I64 v n → n ≤ 153722867280912930 := by
    intro l' v n hl' h1 h2
    cases samePlace hl hl'
    exact ho v n h1 h2
  obtain ⟨l', hl', _, h⟩ := ((C30_room_state_partial b s hu hw ht ho').2 v).1 h
  cases samePlace hl hl'
  exact room_state_gives h

example := C90_room_state ⟨.scalar, true⟩ sampleRoomState (utf8_of sampleRoomState_ok) (within_of sampleRoomState_ok)
  (terminated_of sampleRoomState_ok _) _ (line_eq _ sampleRoomState_line) (fun v n hv hn => by
    rw [show (lineOf _ sampleRoomState_line).tag (b!"followers-only") = some (b!"10") by decide +kernel,
      Option.some.injEq] at hv
    rw [← hv] at hn
    have := (C33_i64 (b!"10") n).2 hn
    rw [show parseI64 (b!"10") = some 10 by decide +kernel, Option.some.injEq] at this
    omega) _ (given_eq _ sampleRoomState_parsed)

theorem whisper_gives {l : Line} {v : Whisper} (h : WhisperOf l v) : WhisperGives l v := by
  refine ⟨h.params, fun a b hab => ?_, userGives_of h.senderId h.senderLogin h.senderName, badgesGive_of h.badges,
    h.emotes, h.color⟩
  exact h.first a b (Option.some.inj (h.params.symm.trans hab))

/-- C90: WHISPER. -/
theorem C90_whisper (b : Build) (s : Bytes) (hu : Utf8 s) (hw : Within s) (ht : TagsTerminated b s)
    (l : Line) (hl : line s = some l) (v : Whisper) (h : parseAs Whisper.parse b s = .ok (some v)) :
    WhisperGives l v := by
  obtain ⟨l', hl', _, h⟩ := ((C32_whisper b s hu hw ht).2 v).1 h
  cases samePlace hl hl'
  exact whisper_gives h

example := C90_whisper ⟨.scalar, true⟩ sampleWhisper (utf8_of sampleWhisper_ok) (within_of sampleWhisper_ok) (terminated_of sampleWhisper_ok _)
  _ (line_eq _ sampleWhisper_line) _ (given_eq _ sampleWhisper_parsed)

theorem promoGives_of {l : Line} {promo : Option SubGiftPromo} (h : PromoOf l promo) :
    (∀ p, promo = some p → PromoGives l p) ∧
    (promo = none → ¬ ((∃ n, l.num (b!"msg-param-promo-gift-total") n) ∧ l.tag (b!"msg-param-promo-name") ≠ none)) := by
  refine ⟨fun p hp => ⟨((h p).1 hp).1, ((h p).1 hp).2⟩, ?_⟩
  rintro rfl ⟨⟨n, hn⟩, hne⟩
  obtain ⟨w, hw⟩ := Option.ne_none_iff_exists'.1 hne
  cases (h ⟨n, w⟩).2 ⟨hn, hw⟩

/-- The goals about getters of other kinds of events. -/
macro "others" : tactic => `(tactic| (intro x hx; first
  | (cases hx; done)
  | (rcases hx with hx | hx <;> (cases hx; done))
  | (rcases hx with hx | hx | hx | hx <;> (cases hx; done))))

/-- The goals about which getters an event has. -/
macro "kinds" : tactic => `(tactic| simp [Getter.SubOrResub.isResub, Getter.Raid.viewerCount, Getter.SubGift.recipient,
  Getter.AnonSubMysteryGift.count, Getter.SubMysteryGift.count, Getter.GiftPaidUpgrade.gifterLogin,
  Getter.AnonGiftPaidUpgrade.promotion, Getter.Ritual.name, Getter.BitsBadgeTier.tier,
  Getter.Announcement.highlightColor])

theorem eventGives_of {l : Line} {id : Bytes} {e : Event} {anon : Bool} (hid : l.tag (b!"msg-id") = some id)
    (h : EventOf l id e anon) : EventGives l e := by
  cases h with
  | subOrResub h0 h1 h2 h3 h4 =>
    constructor <;> try others
    · rintro x ⟨⟩
      rcases h0 with ⟨rfl, rfl⟩ | ⟨rfl, rfl⟩ <;> exact hid
    · rintro x ⟨⟩; exact h1
    · rintro x ⟨⟩; exact h2
    · rintro x (⟨⟨⟩⟩ | h | h | h)
      · exact h3
      all_goals cases h
    · rintro x (⟨⟨⟩⟩ | h)
      · exact textIn_of h4
      · cases h
    · refine ⟨id, hid, ?_⟩
      rcases h0 with ⟨rfl, rfl⟩ | ⟨rfl, rfl⟩ <;> kinds
  | raid h1 h2 =>
    constructor <;> try others
    · rintro x ⟨⟩; exact h1
    · rintro x ⟨⟩; exact h2
    · exact ⟨_, hid, by kinds⟩
  | subGift h0 h1 h2 h3 h4 h5 h6 h7 h8 =>
    constructor <;> try others
    · rintro x (h | ⟨⟨⟩⟩ | h | h)
      · cases h
      · exact h5
      all_goals cases h
    · rintro x (h | ⟨⟨⟩⟩)
      · cases h
      · exact textIn_of h6
    · rintro x ⟨⟩; exact h1
    · rintro x ⟨⟩; exact userGives_of h2 h3 h4
    · rintro x ⟨⟩; exact h7
    · refine ⟨id, hid, ?_⟩
      rcases h0 with rfl | rfl <;> kinds
  | anonSubMysteryGift h0 h1 h2 =>
    constructor <;> try others
    · rintro x (h | h | h | ⟨⟨⟩⟩)
      · cases h
      · cases h
      · cases h
      · exact h2
    · rintro x (h | ⟨⟨⟩⟩)
      · cases h
      · exact h1
    · refine ⟨id, hid, ?_⟩
      rcases h0 with rfl | ⟨rfl, h0⟩
      · kinds
      · (simp only [h0]; kinds)
  | subMysteryGift h0 h1 h2 h3 =>
    constructor <;> try others
    · rintro x (h | h | ⟨⟨⟩⟩ | h)
      · cases h
      · cases h
      · exact h3
      · cases h
    · rintro x (⟨⟨⟩⟩ | h)
      · exact h1
      · cases h
    · rintro x ⟨⟩; exact h2
    · refine ⟨_, hid, ?_⟩
      kinds
      exact h0
  | giftPaidUpgrade h1 h2 h3 =>
    constructor <;> try others
    · rintro x ⟨⟩; exact h1
    · rintro x ⟨⟩; exact h2
    · rintro x (⟨⟨⟩⟩ | h)
      · exact promoGives_of h3
      · cases h
    · exact ⟨_, hid, by kinds⟩
  | anonGiftPaidUpgrade h3 =>
    constructor <;> try others
    · rintro x (h | ⟨⟨⟩⟩)
      · cases h
      · exact promoGives_of h3
    · exact ⟨_, hid, by kinds⟩
  | ritual h1 =>
    constructor <;> try others
    · rintro x ⟨⟩; exact h1
    · exact ⟨_, hid, by kinds⟩
  | bitsBadgeTier h1 =>
    constructor <;> try others
    · rintro x ⟨⟩; exact h1
    · exact ⟨_, hid, by kinds⟩
  | announcement h1 =>
    constructor <;> try others
    · rintro x ⟨⟩; exact h1
    · exact ⟨_, hid, by kinds⟩
  | unknown h1 =>
    constructor <;> try others
    refine ⟨_, hid, ?_⟩
    simp only [eventIds, List.mem_cons, List.not_mem_nil, or_false, not_or] at h1
    obtain ⟨n1, n2, n3, n4, n5, n6, n7, n8, n9, n10, n11, n12⟩ := h1
    simp only [n1, n2, n3, n4, n5, n6, n7, n8, n9, n10, n11, n12]
    kinds

theorem user_notice_gives {l : Line} {v : UserNotice} (h : UserNoticeOf l v) : UserNoticeGives l v := by
  obtain ⟨anon, he, hs⟩ := h.event
  refine ⟨h.channel, h.channelId, fun u hu => ?_, h.text, fun r hr => ?_, ?_, eventGives_of h.eventId he, h.eventId,
    badgesGive_of h.badges, h.emotes, h.color, h.messageId, h.timestamp⟩
  · change v.sender = some u at hu
    rw [hu] at hs
    exact userGives_of hs.2.1 hs.2.2.1 hs.2.2.2
  · have hsm := h.systemMessage
    change v.getSystemMessage = _ at hr
    unfold UserNotice.getSystemMessage at hr
    split at hr
    · cases hr
    · rename_i t e
      obtain ⟨h1, h2⟩ := (hsm t).1 e
      have hr' : maybeUnescape t = .ok r := by
        cases hm : maybeUnescape t with
        | error f => rw [hm] at hr; cases hr
        | ok r' => rw [hm] at hr; cases hr; rfl
      rw [← hr']
      exact ⟨by rw [h1]; simpa using h2, textIn_of h1⟩
  · have hsm := h.systemMessage
    change v.getSystemMessage = _ ↔ _
    unfold UserNotice.getSystemMessage
    cases e : v.systemMessage with
    | none =>
      refine iff_of_true rfl ?_
      cases ht : l.tag (b!"system-msg") with
      | none => exact .inl rfl
      | some t =>
        refine .inr ?_
        by_cases hn : t = []
        · rw [hn]
        · have := (hsm t).2 ⟨ht, hn⟩
          rw [e] at this
          cases this
    | some t =>
      obtain ⟨h1, h2⟩ := (hsm t).1 e
      refine iff_of_false ?_ (by rw [h1]; simpa using h2)
      dsimp only
      cases hm : maybeUnescape t with
      | error f => intro he; cases he
      | ok r' => intro he; cases he

/-- C90: USERNOTICE. -/
theorem C90_user_notice (b : Build) (s : Bytes) (hu : Utf8 s) (hw : Within s) (ht : TagsTerminated b s)
    (l : Line) (hl : line s = some l) (v : UserNotice) (h : parseAs UserNotice.parse b s = .ok (some v)) :
    UserNoticeGives l v := by
  obtain ⟨l', hl', _, h⟩ := ((C29_user_notice b s hu hw ht).2 v).1 h
  cases samePlace hl hl'
  exact user_notice_gives h

example := C90_user_notice ⟨.scalar, true⟩ sampleRaid (utf8_of sampleRaid_ok) (within_of sampleRaid_ok) (terminated_of sampleRaid_ok _)
  _ (line_eq _ sampleRaid_line) _ (given_eq _ sampleRaid_parsed)
example := C90_user_notice ⟨.scalar, true⟩ sampleGift (utf8_of sampleGift_ok) (within_of sampleGift_ok) (terminated_of sampleGift_ok _)
  _ (line_eq _ sampleGift_line) _ (given_eq _ sampleGift_parsed)
example := C90_user_notice ⟨.scalar, true⟩ sampleUpgrade (utf8_of sampleUpgrade_ok) (within_of sampleUpgrade_ok) (terminated_of sampleUpgrade_ok _)
  _ (line_eq _ sampleUpgrade_line) _ (given_eq _ sampleUpgrade_parsed)

end Tmi.Props
