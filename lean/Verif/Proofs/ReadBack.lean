/-
Lemmas: which messages can be read from what is written for them.
-/
import Verif.Spec.ReadBack
import Verif.Proofs.RoundTrip
import Verif.Proofs.Shape

namespace Tmi.Proofs
open Model Spec

/-- Exactly the things that are such are read from what is written for them. -/
def Back {α : Type} (de : Value → Option α) (ser : α → Value) (P : α → Prop) : Prop :=
  ∀ a, de (ser a) = some a ↔ P a

theorem back_u64 : Back deU64 serNat Fits64 := fun n => by
  rw [deU64_some]
  exact ⟨fun h => h.2, fun h => ⟨rfl, h⟩⟩

theorem back_i64 : Back deI64 Value.num FitsI64 := fun n => by
  constructor
  · intro h
    simp only [deI64] at h
    split at h
    · rename_i hh
      simp only [i64Min, i64Max] at hh
      unfold FitsI64
      omega
    · cases h
  · exact fun h => de_i64 h

theorem back_duration : Back deDuration serDuration FitsDuration := fun n => by
  constructor
  · intro h
    obtain ⟨s, m, h1, _, h2, _⟩ := ((reads_duration (serDuration n) n).1 h).1
    unfold serDuration at h2
    simp only [Value.map.injEq, List.cons.injEq, Prod.mk.injEq, serNat, Value.num.injEq] at h2
    unfold FitsDuration
    omega
  · exact de_duration

theorem back_option {α : Type} {de : Value → Option α} {ser : α → Value} {P : α → Prop} (h : Back de ser P)
    (hn : ∀ a, ser a ≠ .null) : Back (deOption de) (serOption ser) (IfAny P) := fun o => by
  cases o with
  | none => exact ⟨fun _ a h => (nomatch h), fun _ => rfl⟩
  | some a =>
    show deOption de (ser a) = some (some a) ↔ _
    rw [deOption_of_ne (hn a)]
    constructor
    · intro h1 a' ha
      cases ha
      cases h2 : de (ser a) with
      | none => rw [h2] at h1; cases h1
      | some x => rw [h2] at h1; cases h1; exact (h a).1 h2
    · intro h1
      rw [(h a).2 (h1 a rfl)]
      rfl

theorem back_seq {α : Type} {de : Value → Option α} {ser : α → Value} {P : α → Prop} (h : Back de ser P) :
    Back (deSeq de) (serSeq ser) (fun l => ∀ a ∈ l, P a) := fun l => by
  simp only [deSeq, serSeq]
  induction l with
  | nil => simp
  | cons a t ih =>
    simp only [List.map_cons, List.mapM_cons, List.forall_mem_cons, ← ih, ← h a]
    simp only [Option.bind_eq_bind, Option.bind_eq_some_iff, Option.pure_def, Option.some.injEq]
    constructor
    · rintro ⟨x, hx, y, hy, e⟩; cases e; exact ⟨hx, hy⟩
    · rintro ⟨hx, hy⟩; exact ⟨_, hx, _, hy, rfl⟩

theorem back_badge : Back Badge.de Badge.ser badgeReadsBack := fun b => by
  cases b with
  | staff => exact ⟨fun _ => trivial, fun _ => rfl⟩
  | turbo => exact ⟨fun _ => trivial, fun _ => rfl⟩
  | broadcaster => exact ⟨fun _ => trivial, fun _ => rfl⟩
  | moderator => exact ⟨fun _ => trivial, fun _ => rfl⟩
  | other v => exact ⟨fun _ => trivial, fun _ => badge_other v⟩
  | subscriber v =>
    rw [badge_subscriber]
    show _ ↔ IsNat v.months v.monthsN ∧ v.monthsN < 2 ^ 64
    rw [← Props.C33_u64]
    constructor
    · intro h
      obtain ⟨n, h1, h2⟩ := Option.map_eq_some_iff.1 h
      cases v
      cases h2
      exact h1
    · intro h; rw [h]; rfl

theorem back_badges : Back (deSeq Badge.de) (serSeq Badge.ser) badgesReadBack := back_seq back_badge

theorem back_action : Back Action.de Action.ser actionReadsBack := fun a => by
  cases a with
  | clear => exact ⟨fun _ => trivial, fun _ => rfl⟩
  | ban u i => exact ⟨fun _ => trivial, fun _ => rfl⟩
  | timeOut u i d =>
    have : Action.de (Action.ser (.timeOut u i d)) = (deDuration (serDuration d)).bind fun d => some (.timeOut u i d) := by
      rfl
    rw [this]
    show _ ↔ FitsDuration d
    rw [← back_duration d, Option.bind_eq_some_iff]
    constructor
    · rintro ⟨x, h1, h2⟩; cases h2; exact h1
    · intro h; exact ⟨_, h, rfl⟩

theorem back_pinned : Back PinnedChat.de PinnedChat.ser pinnedReadsBack := fun v => by
  cases v
  rw [PinnedChat_direct, pinnedReadsBack, ← back_i64, ← back_i64]
  simp only [de_str, de_bool, level_rt, Option.bind_eq_bind, Option.bind_some, Option.bind_eq_some_iff, Option.pure_def]
  constructor
  · rintro ⟨x, h1, y, h2, e⟩; cases e; exact ⟨h1, h2⟩
  · rintro ⟨h1, h2⟩; exact ⟨_, h1, _, h2, rfl⟩

theorem back_followers : Back FollowersOnly.de FollowersOnly.ser followersReadsBack := fun v => by
  cases v with
  | disabled => exact ⟨fun _ => trivial, fun _ => rfl⟩
  | enabled d =>
    rw [show FollowersOnly.de (FollowersOnly.ser (.enabled d)) =
      (deOption deDuration (serOption serDuration d)).map .enabled from rfl]
    show _ ↔ IfAny FitsDuration d
    rw [← back_option back_duration (by simp [serDuration]) d, Option.map_eq_some_iff]
    constructor
    · rintro ⟨x, h1, h2⟩; cases h2; exact h1
    · intro h; exact ⟨_, h, rfl⟩

theorem back_promo : Back SubGiftPromo.de SubGiftPromo.ser promoReadsBack := fun v => by
  cases v
  rw [SubGiftPromo_direct, promoReadsBack, ← back_u64]
  simp only [de_str, Option.bind_eq_bind, Option.bind_some, Option.bind_eq_some_iff, Option.pure_def]
  constructor
  · rintro ⟨x, h1, e⟩; cases e; exact h1
  · intro h1; exact ⟨_, h1, rfl⟩

theorem back_opt_promo : Back (deOption SubGiftPromo.de) (serOption SubGiftPromo.ser) (IfAny promoReadsBack) :=
  back_option back_promo (by simp [SubGiftPromo.ser])

theorem back_opt_u64 : Back (deOption deU64) (serOption serNat) (IfAny Fits64) :=
  back_option back_u64 (by simp [serNat])

theorem back_event : Back Event.de Event.ser eventReadsBack := fun v => by
  cases v with
  | subOrResub r c s p n =>
    have : Event.de (Event.ser (.subOrResub r c s p n)) = (deU64 (serNat c)).bind fun c =>
      (deOption deU64 (serOption serNat s)).bind fun s => some (.subOrResub r c s p n) := by rfl
    rw [this, eventReadsBack, ← back_u64, ← back_opt_u64]
    simp only [Option.bind_eq_some_iff]
    constructor
    · rintro ⟨x, h1, y, h2, e⟩; cases e; exact ⟨h1, h2⟩
    · rintro ⟨h1, h2⟩; exact ⟨_, h1, _, h2, rfl⟩
  | raid n u =>
    have : Event.de (Event.ser (.raid n u)) = (deU64 (serNat n)).bind fun n => some (.raid n u) := by rfl
    rw [this, eventReadsBack, ← back_u64]
    simp only [Option.bind_eq_some_iff]
    constructor
    · rintro ⟨x, h1, e⟩; cases e; exact h1
    · intro h1; exact ⟨_, h1, rfl⟩
  | subGift c u p n g =>
    have : Event.de (Event.ser (.subGift c u p n g)) = (deU64 (serNat c)).bind fun c =>
      (deU64 (serNat g)).bind fun g => some (.subGift c u p n g) := by rfl
    rw [this, eventReadsBack, ← back_u64, ← back_u64]
    simp only [Option.bind_eq_some_iff]
    constructor
    · rintro ⟨x, h1, y, h2, e⟩; cases e; exact ⟨h1, h2⟩
    · rintro ⟨h1, h2⟩; exact ⟨_, h1, _, h2, rfl⟩
  | subMysteryGift c t p =>
    have : Event.de (Event.ser (.subMysteryGift c t p)) = (deU64 (serNat c)).bind fun c =>
      (deU64 (serNat t)).bind fun t => some (.subMysteryGift c t p) := by rfl
    rw [this, eventReadsBack, ← back_u64, ← back_u64]
    simp only [Option.bind_eq_some_iff]
    constructor
    · rintro ⟨x, h1, y, h2, e⟩; cases e; exact ⟨h1, h2⟩
    · rintro ⟨h1, h2⟩; exact ⟨_, h1, _, h2, rfl⟩
  | anonSubMysteryGift c p =>
    have : Event.de (Event.ser (.anonSubMysteryGift c p)) = (deU64 (serNat c)).bind fun c =>
      some (.anonSubMysteryGift c p) := by rfl
    rw [this, eventReadsBack, ← back_u64]
    simp only [Option.bind_eq_some_iff]
    constructor
    · rintro ⟨x, h1, e⟩; cases e; exact h1
    · intro h1; exact ⟨_, h1, rfl⟩
  | giftPaidUpgrade l n p =>
    have : Event.de (Event.ser (.giftPaidUpgrade l n p)) =
      (deOption SubGiftPromo.de (serOption SubGiftPromo.ser p)).bind fun p => some (.giftPaidUpgrade l n p) := by rfl
    rw [this, eventReadsBack, ← back_opt_promo]
    simp only [Option.bind_eq_some_iff]
    constructor
    · rintro ⟨x, h1, e⟩; cases e; exact h1
    · intro h1; exact ⟨_, h1, rfl⟩
  | anonGiftPaidUpgrade p =>
    have : Event.de (Event.ser (.anonGiftPaidUpgrade p)) =
      (deOption SubGiftPromo.de (serOption SubGiftPromo.ser p)).bind fun p => some (.anonGiftPaidUpgrade p) := by rfl
    rw [this, eventReadsBack, ← back_opt_promo]
    simp only [Option.bind_eq_some_iff]
    constructor
    · rintro ⟨x, h1, e⟩; cases e; exact h1
    · intro h1; exact ⟨_, h1, rfl⟩
  | ritual n => exact ⟨fun _ => trivial, fun _ => rfl⟩
  | bitsBadgeTier t =>
    have : Event.de (Event.ser (.bitsBadgeTier t)) = (deU64 (serNat t)).bind fun t => some (.bitsBadgeTier t) := by rfl
    rw [this, eventReadsBack, ← back_u64]
    simp only [Option.bind_eq_some_iff]
    constructor
    · rintro ⟨x, h1, e⟩; cases e; exact h1
    · intro h1; exact ⟨_, h1, rfl⟩
  | announcement c => exact ⟨fun _ => trivial, fun _ => rfl⟩
  | unknown => exact ⟨fun _ => trivial, fun _ => rfl⟩

theorem back_time {tc : TimeCodec} : Back tc.de tc.ser (timeReadsBack tc) := fun _ => Iff.rfl

theorem map_iff {α : Type} {de : Value → Option α} {c : Value} {a : α} {f : α → Message}
    (hf : ∀ a a', f a = f a' → a = a') : (de c).map f = some (f a) ↔ de c = some a := by
  rw [Option.map_eq_some_iff]
  constructor
  · rintro ⟨x, h1, h2⟩; rw [hf _ _ h2] at h1; exact h1
  · intro h; exact ⟨_, h, rfl⟩

theorem read_back {tc : TimeCodec} {k : Kind} {M : Message} {c : Value} (h : k.write tc M = some c) :
    k.read tc c = some M ↔ ReadsBack tc M := by
  cases k <;> cases M <;> cases h
  case clearChat v =>
    refine (map_iff (f := .clearChat) (fun a a' h => by cases h; rfl)).trans ?_
    cases v
    rw [ClearChat_direct, ReadsBack, ← back_action, ← back_time]
    simp only [de_str, Option.bind_eq_bind, Option.bind_some, Option.bind_eq_some_iff, Option.pure_def]
    constructor
    · rintro ⟨x, h1, y, h2, e⟩; cases e; exact ⟨h1, h2⟩
    · rintro ⟨h1, h2⟩; exact ⟨_, h1, _, h2, rfl⟩
  case clearMsg v =>
    refine (map_iff (f := .clearMsg) (fun a a' h => by cases h; rfl)).trans ?_
    cases v
    rw [ClearMsg_direct, ReadsBack, ← back_time]
    simp only [de_str, de_bool, Option.bind_eq_bind, Option.bind_some, Option.bind_eq_some_iff, Option.pure_def]
    constructor
    · rintro ⟨x, h1, e⟩; cases e; exact h1
    · intro h1; exact ⟨_, h1, rfl⟩
  case globalUserState v =>
    refine (map_iff (f := .globalUserState) (fun a a' h => by cases h; rfl)).trans ?_
    cases v
    rw [GlobalUserState_direct, ReadsBack, ← back_badges]
    simp only [de_str, de_strs, de_opt_str, Option.bind_eq_bind, Option.bind_some, Option.bind_eq_some_iff, Option.pure_def]
    constructor
    · rintro ⟨x, h1, e⟩; cases e; exact h1
    · intro h1; exact ⟨_, h1, rfl⟩
  case join v => exact ⟨fun _ => trivial, fun _ => by show (Join.de v.ser).map _ = _; rw [join_rt]; rfl⟩
  case notice v => exact ⟨fun _ => trivial, fun _ => by show (Notice.de v.ser).map _ = _; rw [notice_rt]; rfl⟩
  case part v => exact ⟨fun _ => trivial, fun _ => by show (Part.de v.ser).map _ = _; rw [part_rt]; rfl⟩
  case ping v => exact ⟨fun _ => trivial, fun _ => by show (Ping.de v.ser).map _ = _; rw [ping_rt]; rfl⟩
  case pong v => exact ⟨fun _ => trivial, fun _ => by show (Pong.de v.ser).map _ = _; rw [pong_rt]; rfl⟩
  case privmsg v =>
    refine (map_iff (f := .privmsg) (fun a a' h => by cases h; rfl)).trans ?_
    cases v
    rw [Privmsg_direct, ReadsBack, ← back_option back_pinned (by simp [PinnedChat.ser]), ← back_badges, ← back_opt_u64, ← back_time]
    simp only [de_str, de_bool, de_opt_str, user_rt, de_option (f := Reply.ser) (by simp [Reply.ser]) (fun r _ => reply_rt r),
      Option.bind_eq_bind, Option.bind_some, Option.bind_eq_some_iff, Option.pure_def]
    constructor
    · rintro ⟨x, h1, y, h2, z, h3, u, h4, e⟩; cases e; exact ⟨h1, h2, h3, h4⟩
    · rintro ⟨h1, h2, h3, h4⟩; exact ⟨_, h1, _, h2, _, h3, _, h4, rfl⟩
  case roomState v =>
    refine (map_iff (f := .roomState) (fun a a' h => by cases h; rfl)).trans ?_
    cases v
    rw [RoomState_direct, ReadsBack, ← back_option back_followers (fun f => by cases f <;> simp [FollowersOnly.ser]),
      ← back_option back_duration (by simp [serDuration])]
    simp only [de_str, de_opt_bool, Option.bind_eq_bind, Option.bind_some, Option.bind_eq_some_iff, Option.pure_def]
    constructor
    · rintro ⟨x, h1, y, h2, e⟩; cases e; exact ⟨h1, h2⟩
    · rintro ⟨h1, h2⟩; exact ⟨_, h1, _, h2, rfl⟩
  case userNotice v =>
    refine (map_iff (f := .userNotice) (fun a a' h => by cases h; rfl)).trans ?_
    cases v
    rw [UserNotice_direct, ReadsBack, ← back_event, ← back_badges, ← back_time]
    simp only [de_str, de_opt_str, opt_user_rt, Option.bind_eq_bind, Option.bind_some, Option.bind_eq_some_iff, Option.pure_def]
    constructor
    · rintro ⟨x, h1, y, h2, z, h3, e⟩; cases e; exact ⟨h1, h2, h3⟩
    · rintro ⟨h1, h2, h3⟩; exact ⟨_, h1, _, h2, _, h3, rfl⟩
  case userState v =>
    refine (map_iff (f := .userState) (fun a a' h => by cases h; rfl)).trans ?_
    cases v
    rw [UserState_direct, ReadsBack, ← back_badges]
    simp only [de_str, de_strs, de_opt_str, Option.bind_eq_bind, Option.bind_some, Option.bind_eq_some_iff, Option.pure_def]
    constructor
    · rintro ⟨x, h1, e⟩; cases e; exact h1
    · intro h1; exact ⟨_, h1, rfl⟩
  case whisper v =>
    refine (map_iff (f := .whisper) (fun a a' h => by cases h; rfl)).trans ?_
    cases v
    rw [Whisper_direct, ReadsBack, ← back_badges]
    simp only [de_str, user_rt, de_opt_str, Option.bind_eq_bind, Option.bind_some, Option.bind_eq_some_iff, Option.pure_def]
    constructor
    · rintro ⟨x, h1, e⟩; cases e; exact h1
    · intro h1; exact ⟨_, h1, rfl⟩

end Tmi.Proofs
