/-
Every typed message reads back from what it writes; numbers must be in the range of their Rust type, and
the months of subscriber badges must be numeric.
-/
import Verif.Proofs.Serde

namespace Tmi.Proofs
open Model Spec

/-! ### Badges -/

theorem subscriber_direct (v : Subscriber) : Subscriber.de v.ser = (do
    let version ← deStr (Value.str v.version)
    let months ← deStr (Value.str v.months)
    let monthsN ← parseU64 months
    return { version, months, monthsN }) := by
  rfl

theorem badgeData_rt (v : BadgeData) : BadgeData.de v.ser = some v := by
  rw [BadgeData_direct]
  simp [de_str, de_opt_str]

theorem badge_subscriber (v : Subscriber) :
    Badge.de (Badge.subscriber v).ser = (parseU64 v.months).map fun n =>
      Badge.subscriber ⟨v.version, v.months, n⟩ := by
  rw [show Badge.de (Badge.subscriber v).ser = (Subscriber.de v.ser).map .subscriber from rfl,
    subscriber_direct]
  simp only [de_str, Option.bind_eq_bind, Option.bind_some]
  cases parseU64 v.months <;> rfl

theorem badge_other (v : BadgeData) : Badge.de (Badge.other v).ser = some (.other v) := by
  rw [show Badge.de (Badge.other v).ser = (BadgeData.de v.ser).map .other from rfl, badgeData_rt]
  rfl

/-- Where the months are numeric, `months_n` is their value. -/
def Consistent (b : Badge) : Prop :=
  ∀ v, b = .subscriber v → ∀ n, parseU64 v.months = some n → v.monthsN = n

theorem badge_rt {b : Badge} (hc : Consistent b)
    (hn : ∀ v, b = .subscriber v → ∃ n, IsNat v.months n ∧ n < 2 ^ 64) :
    Badge.de b.ser = some b := by
  cases b with
  | staff => rfl
  | turbo => rfl
  | broadcaster => rfl
  | moderator => rfl
  | subscriber v =>
    obtain ⟨n, h⟩ := hn v rfl
    have h := (Props.C33_u64 _ _).mpr h
    rw [badge_subscriber, h, ← hc v rfl n h]
    rfl
  | other v => exact badge_other v

theorem badges_rt {l : List Badge} (hc : ∀ b ∈ l, Consistent b) (hn : NumericMonths l) :
    deSeq Badge.de (serSeq Badge.ser l) = some l :=
  de_seq fun b hb => badge_rt (hc b hb) fun v hv => hn v (hv ▸ hb)

theorem badges_none {l : List Badge} (hn : ¬ NumericMonths l) :
    deSeq Badge.de (serSeq Badge.ser l) = none := by
  apply de_seq_none
  have h1 : ∃ v, Badge.subscriber v ∈ l ∧ ¬ ∃ n, IsNat v.months n ∧ n < 2 ^ 64 := by
    apply Classical.byContradiction
    intro h
    exact hn fun v hv => Classical.byContradiction fun hx => h ⟨v, hv, hx⟩
  obtain ⟨v, hv, hx⟩ := h1
  refine ⟨_, hv, ?_⟩
  rw [badge_subscriber]
  cases hp : parseU64 v.months with
  | none => rfl
  | some n => exact absurd ⟨n, (Props.C33_u64 _ _).mp hp⟩ hx

/-! ### Parts of messages -/

theorem user_rt (v : User) : User.de v.ser = some v := by
  rw [User_direct]
  simp [de_str]

theorem opt_user_rt (o : Option User) : deOption User.de (serOption User.ser o) = some o :=
  de_option (by simp [User.ser]) (fun v _ => user_rt v)

theorem action_rt {v : Action} (h : ∀ u i d, v = .timeOut u i d → d < 2 ^ 64 * 1000000000) :
    Action.de v.ser = some v := by
  cases v with
  | clear => rfl
  | ban u i => rfl
  | timeOut u i d =>
    have : Action.de (Action.ser (.timeOut u i d)) = (do
        let user ← deStr (Value.str u)
        let id ← deStr (Value.str i)
        let duration ← deDuration (serDuration d)
        return .timeOut user id duration) := by
      rfl
    rw [this, de_duration (h u i d rfl)]
    rfl

theorem reply_rt (v : Reply) : Reply.de v.ser = some v := by
  rw [Reply_direct]
  simp [de_str, user_rt]

theorem level_rt (v : PinnedChatLevel) : PinnedChatLevel.de v.ser = some v := by
  cases v <;> rfl

theorem pinned_rt {v : PinnedChat} (h1 : -2 ^ 63 ≤ v.paidAmount ∧ v.paidAmount < 2 ^ 63)
    (h2 : -2 ^ 63 ≤ v.paidExponent ∧ v.paidExponent < 2 ^ 63) : PinnedChat.de v.ser = some v := by
  rw [PinnedChat_direct, de_i64 h1, de_i64 h2]
  simp [de_str, de_bool, level_rt]

theorem followers_rt {v : FollowersOnly} (h : ∀ n, v = .enabled (some n) → n < 2 ^ 64 * 1000000000) :
    FollowersOnly.de v.ser = some v := by
  cases v with
  | disabled => rfl
  | enabled d =>
    rw [show FollowersOnly.de (FollowersOnly.ser (.enabled d)) =
      (deOption deDuration (serOption serDuration d)).map .enabled from rfl,
      de_opt_duration (fun n hn => h n (by rw [hn]))]
    rfl

theorem promo_rt {v : SubGiftPromo} (h : v.totalGifts < 2 ^ 64) : SubGiftPromo.de v.ser = some v := by
  rw [SubGiftPromo_direct, de_u64 h]
  simp [de_str]

theorem opt_promo_rt {o : Option SubGiftPromo} (h : ∀ v, o = some v → v.totalGifts < 2 ^ 64) :
    deOption SubGiftPromo.de (serOption SubGiftPromo.ser o) = some o :=
  de_option (by simp [SubGiftPromo.ser]) (fun v hv => promo_rt (h v hv))

/-- The numbers of an event fit their types. -/
def EventFits : Event → Prop
  | .subOrResub _ c s _ _ => c < 2 ^ 64 ∧ ∀ n, s = some n → n < 2 ^ 64
  | .raid n _ => n < 2 ^ 64
  | .subGift c _ _ _ g => c < 2 ^ 64 ∧ g < 2 ^ 64
  | .subMysteryGift c t _ => c < 2 ^ 64 ∧ t < 2 ^ 64
  | .anonSubMysteryGift c _ => c < 2 ^ 64
  | .giftPaidUpgrade _ _ p => ∀ v, p = some v → v.totalGifts < 2 ^ 64
  | .anonGiftPaidUpgrade p => ∀ v, p = some v → v.totalGifts < 2 ^ 64
  | .ritual _ => True
  | .bitsBadgeTier t => t < 2 ^ 64
  | .announcement _ => True
  | .unknown => True

theorem event_rt {v : Event} (h : EventFits v) : Event.de v.ser = some v := by
  cases v with
  | subOrResub r c s p n =>
    have : Event.de (Event.ser (.subOrResub r c s p n)) = (do
        let isResub ← deBool (Value.bool r)
        let cumulativeMonths ← deU64 (serNat c)
        let streakMonths ← deOption deU64 (serOption serNat s)
        let subPlan ← deStr (Value.str p)
        let subPlanName ← deStr (Value.str n)
        return .subOrResub isResub cumulativeMonths streakMonths subPlan subPlanName) := by
      rfl
    rw [this, de_u64 h.1, de_opt_u64 h.2]
    rfl
  | raid n u =>
    have : Event.de (Event.ser (.raid n u)) = (do
        let viewerCount ← deU64 (serNat n)
        let profileImageUrl ← deStr (Value.str u)
        return .raid viewerCount profileImageUrl) := by
      rfl
    rw [this, de_u64 h]
    rfl
  | subGift c u p n g =>
    have : Event.de (Event.ser (.subGift c u p n g)) = (do
        let cumulativeMonths ← deU64 (serNat c)
        let recipient ← User.de (User.ser u)
        let subPlan ← deStr (Value.str p)
        let subPlanName ← deStr (Value.str n)
        let numGiftedMonths ← deU64 (serNat g)
        return .subGift cumulativeMonths recipient subPlan subPlanName numGiftedMonths) := by
      rfl
    rw [this, de_u64 h.1, user_rt, de_u64 h.2]
    rfl
  | subMysteryGift c t p =>
    have : Event.de (Event.ser (.subMysteryGift c t p)) = (do
        let count ← deU64 (serNat c)
        let senderTotalGifts ← deU64 (serNat t)
        let subPlan ← deStr (Value.str p)
        return .subMysteryGift count senderTotalGifts subPlan) := by
      rfl
    rw [this, de_u64 h.1, de_u64 h.2]
    rfl
  | anonSubMysteryGift c p =>
    have : Event.de (Event.ser (.anonSubMysteryGift c p)) = (do
        let count ← deU64 (serNat c)
        let subPlan ← deStr (Value.str p)
        return .anonSubMysteryGift count subPlan) := by
      rfl
    rw [this, de_u64 h]
    rfl
  | giftPaidUpgrade l n p =>
    have : Event.de (Event.ser (.giftPaidUpgrade l n p)) = (do
        let gifterLogin ← deStr (Value.str l)
        let gifterName ← deStr (Value.str n)
        let promotion ← deOption SubGiftPromo.de (serOption SubGiftPromo.ser p)
        return .giftPaidUpgrade gifterLogin gifterName promotion) := by
      rfl
    rw [this, opt_promo_rt h]
    rfl
  | anonGiftPaidUpgrade p =>
    have : Event.de (Event.ser (.anonGiftPaidUpgrade p)) = (do
        let promotion ← deOption SubGiftPromo.de (serOption SubGiftPromo.ser p)
        return .anonGiftPaidUpgrade promotion) := by
      rfl
    rw [this, opt_promo_rt h]
    rfl
  | ritual n => rfl
  | bitsBadgeTier t =>
    have : Event.de (Event.ser (.bitsBadgeTier t)) = (do
        let tier ← deU64 (serNat t)
        return .bitsBadgeTier tier) := by
      rfl
    rw [this, de_u64 h]
    rfl
  | announcement c => rfl
  | unknown => rfl

/-! ### Messages -/

theorem clearChat_rt {tc : TimeCodec} (hc : TimeCodec.Faithful tc) {v : ClearChat}
    (ha : ∀ u i d, v.action = .timeOut u i d → d < 2 ^ 64 * 1000000000) (ht : Representable v.timestamp) :
    ClearChat.de tc (v.ser tc) = some v := by
  rw [ClearChat_direct, action_rt ha, de_time hc ht]
  simp [de_str]

theorem clearMsg_rt {tc : TimeCodec} (hc : TimeCodec.Faithful tc) {v : ClearMsg}
    (ht : Representable v.timestamp) : ClearMsg.de tc (v.ser tc) = some v := by
  rw [ClearMsg_direct, de_time hc ht]
  simp [de_str, de_bool]

theorem globalUserState_rt {v : GlobalUserState} (hb : ∀ b ∈ v.badges, Consistent b)
    (hn : NumericMonths v.badges) : GlobalUserState.de v.ser = some v := by
  rw [GlobalUserState_direct, badges_rt hb hn]
  simp [de_str, de_strs, de_opt_str]

theorem globalUserState_none {v : GlobalUserState} (hn : ¬ NumericMonths v.badges) :
    GlobalUserState.de v.ser = none := by
  rw [GlobalUserState_direct, badges_none hn]
  simp [de_str]

theorem join_rt (v : Join) : Join.de v.ser = some v := by
  rw [Join_direct]
  simp [de_str]

theorem part_rt (v : Part) : Part.de v.ser = some v := by
  rw [Part_direct]
  simp [de_str]

theorem notice_rt (v : Notice) : Notice.de v.ser = some v := by
  rw [Notice_direct]
  simp [de_str, de_opt_str]

theorem ping_rt (v : Ping) : Ping.de v.ser = some v := by
  rw [Ping_direct]
  simp [de_opt_str]

theorem pong_rt (v : Pong) : Pong.de v.ser = some v := by
  rw [Pong_direct]
  simp [de_opt_str]

/-- The numbers of a hype chat fit their types. -/
def PinnedFits (v : PinnedChat) : Prop :=
  (-2 ^ 63 ≤ v.paidAmount ∧ v.paidAmount < 2 ^ 63) ∧ (-2 ^ 63 ≤ v.paidExponent ∧ v.paidExponent < 2 ^ 63)

theorem privmsg_rt {tc : TimeCodec} (hc : TimeCodec.Faithful tc) {v : Privmsg}
    (hb : ∀ b ∈ v.badges, Consistent b) (hn : NumericMonths v.badges)
    (hp : ∀ p, v.pinnedChat = some p → PinnedFits p) (hbits : ∀ n, v.bits = some n → n < 2 ^ 64)
    (ht : Representable v.timestamp) : Privmsg.de tc (v.ser tc) = some v := by
  rw [Privmsg_direct, badges_rt hb hn, de_time hc ht, de_opt_u64 hbits,
    de_option (o := v.pinnedChat) (by simp [PinnedChat.ser]) (fun p h => pinned_rt (hp p h).1 (hp p h).2),
    de_option (o := v.replyTo) (by simp [Reply.ser]) (fun r _ => reply_rt r)]
  simp [de_str, de_bool, de_opt_str, user_rt]

theorem privmsg_none {tc : TimeCodec} {v : Privmsg} (hn : ¬ NumericMonths v.badges)
    (hp : ∀ p, v.pinnedChat = some p → PinnedFits p) : Privmsg.de tc (v.ser tc) = none := by
  rw [Privmsg_direct, badges_none hn,
    de_option (o := v.pinnedChat) (by simp [PinnedChat.ser]) (fun p h => pinned_rt (hp p h).1 (hp p h).2),
    de_option (o := v.replyTo) (by simp [Reply.ser]) (fun r _ => reply_rt r)]
  simp [de_str, de_bool, de_opt_str, user_rt]

theorem roomState_rt {v : RoomState} (hf : ∀ n, v.followersOnly = some (.enabled (some n)) → n < 2 ^ 64 * 1000000000)
    (hs : ∀ n, v.slow = some n → n < 2 ^ 64 * 1000000000) : RoomState.de v.ser = some v := by
  rw [RoomState_direct, de_opt_duration hs,
    de_option (o := v.followersOnly) (fun f => by cases f <;> simp [FollowersOnly.ser])
      (fun f h => followers_rt fun n hn => hf n (by rw [h, hn]))]
  simp [de_str, de_opt_bool]

theorem userState_rt {v : UserState} (hb : ∀ b ∈ v.badges, Consistent b) (hn : NumericMonths v.badges) :
    UserState.de v.ser = some v := by
  rw [UserState_direct, badges_rt hb hn]
  simp [de_str, de_strs, de_opt_str]

theorem userState_none {v : UserState} (hn : ¬ NumericMonths v.badges) : UserState.de v.ser = none := by
  rw [UserState_direct, badges_none hn]
  simp [de_str]

theorem whisper_rt {v : Whisper} (hb : ∀ b ∈ v.badges, Consistent b) (hn : NumericMonths v.badges) :
    Whisper.de v.ser = some v := by
  rw [Whisper_direct, badges_rt hb hn]
  simp [de_str, user_rt, de_opt_str]

theorem whisper_none {v : Whisper} (hn : ¬ NumericMonths v.badges) : Whisper.de v.ser = none := by
  rw [Whisper_direct, badges_none hn]
  simp [de_str, user_rt]

theorem userNotice_rt {tc : TimeCodec} (hc : TimeCodec.Faithful tc) {v : UserNotice}
    (hb : ∀ b ∈ v.badges, Consistent b) (hn : NumericMonths v.badges) (he : EventFits v.event)
    (ht : Representable v.timestamp) : UserNotice.de tc (v.ser tc) = some v := by
  rw [UserNotice_direct, badges_rt hb hn, event_rt he, de_time hc ht]
  simp [de_str, de_opt_str, opt_user_rt]

theorem userNotice_none {tc : TimeCodec} {v : UserNotice} (hn : ¬ NumericMonths v.badges)
    (he : EventFits v.event) : UserNotice.de tc (v.ser tc) = none := by
  rw [UserNotice_direct, badges_none hn, event_rt he]
  simp [de_str, de_opt_str, opt_user_rt]

end Tmi.Proofs
