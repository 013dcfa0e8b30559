/-
The numbers of a parsed message are in the range of their Rust types, and its badges are consistent.
These facts need no assumption on the line.
-/
import Verif.Proofs.RoundTrip

namespace Tmi.Proofs
open Model Spec

theorem ok_bind {α β : Type} (x : OptionT R α) (f : α → OptionT R β) (v : β) :
    (x >>= f).run = .ok (some v) ↔ ∃ a, x.run = .ok (some a) ∧ (f a).run = .ok (some v) := by
  simp only [OptionT.run, bind, OptionT.bind, OptionT.mk, Except.bind]
  cases x with
  | error e => simp
  | ok o => cases o <;> simp [pure, Except.pure]

theorem ok_pure {α : Type} (a v : α) : (pure a : OptionT R α).run = .ok (some v) ↔ a = v := by
  simp [pure, OptionT.pure, OptionT.mk, OptionT.run, Except.pure]

theorem ok_some {α : Type} (a : Option α) (v : α) : (some? a).run = .ok (some v) ↔ a = some v := by
  simp [some?, OptionT.mk, OptionT.run]

theorem ok_req {α : Type} (a : R (Option α)) (v : α) : (req a).run = .ok (some v) ↔ a = .ok (some v) := by
  simp [req, OptionT.mk, OptionT.run]

theorem ok_get {α : Type} (a : R α) (v : α) : (get' a).run = .ok (some v) ↔ a = .ok v := by
  simp only [get', OptionT.lift, OptionT.mk, OptionT.run]
  cases a <;> simp [bind, Except.bind, pure, Except.pure]

theorem ok_guard {α β : Type} (c : Prop) [Decidable c] (f : α → OptionT R β) (x : OptionT R β) (v : β) :
    (if c then (failure >>= f) else x).run = .ok (some v) ↔ ¬ c ∧ x.run = .ok (some v) := by
  by_cases hc : c
  · rw [if_pos hc]
    simp [hc, failure, bind, OptionT.bind, OptionT.mk, OptionT.run, OptionT.fail, Except.bind, pure,
      Except.pure]
  · rw [if_neg hc]
    simp [hc]

theorem u64_lt {s : Bytes} {n : Nat} (h : parseU64 s = some n) : n < 2 ^ 64 := ((Props.C33_u64 _ _).mp h).2

theorem opt_u64_lt {o : Option Bytes} {n : Nat} (h : o.bind parseU64 = some n) : n < 2 ^ 64 := by
  cases o with
  | none => cases h
  | some s => exact u64_lt h

theorem i64_in {s : Bytes} {n : Int} (h : parseI64 s = some n) : -2 ^ 63 ≤ n ∧ n < 2 ^ 63 :=
  ((Props.C33_i64 _ _).mp h).2

theorem timestamp_in {s : Bytes} {t : Timestamp} (h : parseTimestamp s = some t) : Representable t := by
  obtain ⟨ms, _, h⟩ := (Props.C33_timestamp s t).1 h
  exact ⟨ms, h⟩

theorem opt_timestamp_in {o : Option Bytes} {t : Timestamp} (h : o.bind parseTimestamp = some t) :
    Representable t := by
  cases o with
  | none => cases h
  | some s => exact timestamp_in h

theorem toBadge_consistent (d : BadgeData) : Consistent d.toBadge := by
  intro v hv n hn
  unfold BadgeData.toBadge at hv
  by_cases h1 : d.name = b!"staff"
  · rw [if_pos h1] at hv; cases hv
  rw [if_neg h1] at hv
  by_cases h1 : d.name = b!"turbo"
  · rw [if_pos h1] at hv; cases hv
  rw [if_neg h1] at hv
  by_cases h1 : d.name = b!"broadcaster"
  · rw [if_pos h1] at hv; cases hv
  rw [if_neg h1] at hv
  by_cases h1 : d.name = b!"moderator"
  · rw [if_pos h1] at hv; cases hv
  rw [if_neg h1] at hv
  by_cases h1 : d.name = b!"subscriber"
  · rw [if_pos h1] at hv
    cases hv
    cases he : d.extra with
    | none =>
      simp only [he, Option.getD_none] at hn
      rw [show parseU64 (b!"1") = some 1 by decide +kernel] at hn
      cases hn
      rfl
    | some x =>
      simp only [he, Option.getD_some] at hn
      simp [hn]
  · rw [if_neg h1] at hv; cases hv

theorem parseBadges_consistent (a i : Bytes) : ∀ x ∈ parseBadges a i, Consistent x := by
  intro x hx
  unfold parseBadges at hx
  split at hx
  · cases hx
  · simp only [List.mem_map] at hx
    obtain ⟨_, _, rfl⟩ := hx
    exact toBadge_consistent _

theorem badgesOf_consistent {m : MsgRef} {l : List Badge} (h : Model.badgesOf m = .ok l) :
    ∀ x ∈ l, Consistent x := by
  unfold Model.badgesOf at h
  cases h1 : m.tag .badges with
  | error e => simp [h1, bind, Except.bind] at h
  | ok a =>
    cases h2 : m.tag .badgeInfo with
    | error e => simp [h1, h2, bind, Except.bind] at h
    | ok i =>
      simp only [h1, h2, bind, Except.bind, pure, Except.pure] at h
      split at h
      · cases h; exact parseBadges_consistent _ _
      · cases h; intro x hx; cases hx

theorem opt_secs_lt {o : Option Bytes} {d : Nat} (h : (o.bind parseU64).map fromSecs = some d) :
    d < 2 ^ 64 * 1000000000 := by
  obtain ⟨n, hn, rfl⟩ := Option.map_eq_some_iff.1 h
  have := opt_u64_lt hn
  unfold fromSecs
  omega

theorem clearChat_fits {m : MsgRef} {v : ClearChat} (h : ClearChat.parse m = .ok (some v)) :
    (∀ u i d, v.action = .timeOut u i d → d < 2 ^ 64 * 1000000000) ∧ Representable v.timestamp := by
  simp only [ClearChat.parse, ok_bind, ok_guard, ok_get] at h
  obtain ⟨_, _, _, _, _, _, _, text, _, dur, _, h⟩ := h
  cases text with
  | none =>
    simp only [ok_bind, ok_pure, ok_some, ok_req] at h
    obtain ⟨_, rfl, _, _, _, ht, rfl⟩ := h
    exact ⟨(by intro _ _ _ h; cases h), timestamp_in ht⟩
  | some t =>
    cases hd : dur.bind parseDuration with
    | none =>
      simp only [hd, ok_bind, ok_pure, ok_some, ok_req] at h
      obtain ⟨_, _, _, rfl, _, _, _, ht, rfl⟩ := h
      exact ⟨(by intro _ _ _ h; cases h), timestamp_in ht⟩
    | some d =>
      simp only [hd, ok_bind, ok_pure, ok_some, ok_req] at h
      obtain ⟨_, _, _, rfl, _, _, _, ht, rfl⟩ := h
      refine ⟨?_, timestamp_in ht⟩
      intro _ _ _ h
      cases h
      exact opt_secs_lt (o := dur) (by cases dur with | none => simp at hd | some x => exact hd)

theorem clearMsg_fits {m : MsgRef} {v : ClearMsg} (h : ClearMsg.parse m = .ok (some v)) :
    Representable v.timestamp := by
  simp only [ClearMsg.parse, ok_bind, ok_guard, ok_get, ok_pure, ok_some, ok_req] at h
  obtain ⟨_, _, _, _, _, _, _, _, _, _, _, _, _, _, _, _, ht, rfl⟩ := h
  exact timestamp_in ht

theorem globalUserState_fits {m : MsgRef} {v : GlobalUserState}
    (h : GlobalUserState.parse m = .ok (some v)) : ∀ b ∈ v.badges, Consistent b := by
  simp only [GlobalUserState.parse, ok_bind, ok_guard, ok_get, ok_pure, ok_some, ok_req] at h
  obtain ⟨_, _, _, _, _, _, _, _, hb, _, _, _, _, rfl⟩ := h
  exact badgesOf_consistent hb

theorem userState_fits {m : MsgRef} {v : UserState}
    (h : UserState.parse m = .ok (some v)) : ∀ b ∈ v.badges, Consistent b := by
  simp only [UserState.parse, ok_bind, ok_guard, ok_get, ok_pure, ok_some, ok_req] at h
  obtain ⟨_, _, _, _, _, _, _, _, hb, _, _, _, _, rfl⟩ := h
  exact badgesOf_consistent hb

theorem whisper_fits {m : MsgRef} {v : Whisper}
    (h : Whisper.parse m = .ok (some v)) : ∀ b ∈ v.badges, Consistent b := by
  simp only [Whisper.parse, ok_bind, ok_guard, ok_get, ok_pure, ok_some, ok_req] at h
  obtain ⟨_, _, _, _, _, _, _, _, _, _, _, _, _, _, _, _, hb, _, _, rfl⟩ := h
  exact badgesOf_consistent hb

theorem pinned_fits {m : MsgRef} {v : PinnedChat} (h : parsePinned m = .ok (some v)) : PinnedFits v := by
  simp only [parsePinned, ok_bind, ok_get, ok_pure, ok_some, ok_req] at h
  obtain ⟨_, _, _, h1, _, _, _, _, _, h2, _, _, _, _, _, _, rfl⟩ := h
  exact ⟨i64_in h1, i64_in h2⟩

theorem privmsg_fits {m : MsgRef} {v : Privmsg} (h : Privmsg.parse m = .ok (some v)) :
    (∀ b ∈ v.badges, Consistent b) ∧ (∀ p, v.pinnedChat = some p → PinnedFits p) ∧
    (∀ n, v.bits = some n → n < 2 ^ 64) ∧ Representable v.timestamp := by
  simp only [Privmsg.parse, ok_bind, ok_guard, ok_get, ok_pure, ok_some, ok_req] at h
  obtain ⟨_, _, _, _, _, _, _, _, _, _, _, _, _, _, _, _, _, _, _, _, _, p, hp, _, hb, _, _, _, _, _,
    _, _, _, _, _, _, ht, rfl⟩ := h
  exact ⟨badgesOf_consistent hb, fun q hq => pinned_fits (by rw [hp]; simp only at hq; rw [hq]),
    fun n hn => opt_u64_lt hn, timestamp_in ht⟩

theorem followersFrom_fits {c : Bool} {k : Int} {n : Nat}
    (h : followersFrom c k = .ok (.enabled (some n))) : n < 2 ^ 64 * 1000000000 := by
  unfold followersFrom at h
  split at h
  · cases hm : mulI64 c k 60 with
    | error e => simp [hm, bind, Except.bind] at h
    | ok x =>
      simp only [hm, bind, Except.bind, pure, Except.pure, Except.ok.injEq, FollowersOnly.enabled.injEq,
        Option.some.injEq] at h
      subst h
      unfold i64AsU64 fromSecs
      omega
  · split at h <;> cases h

theorem roomState_fits {m : MsgRef} {v : RoomState} (h : RoomState.parse m = .ok (some v)) :
    (∀ n, v.followersOnly = some (.enabled (some n)) → n < 2 ^ 64 * 1000000000) ∧
    (∀ n, v.slow = some n → n < 2 ^ 64 * 1000000000) := by
  simp only [RoomState.parse, ok_bind, ok_guard, ok_get, ok_pure, ok_some, ok_req] at h
  obtain ⟨_, _, _, _, _, _, _, _, _, f, hf, _, _, _, _, _, _, rfl⟩ := h
  refine ⟨?_, fun n hn => opt_secs_lt hn⟩
  intro n hn
  simp only at hn
  subst hn
  unfold followersOnlyOf at hf
  cases ht : m.tag .followersOnly with
  | error e => simp [ht, bind, Except.bind] at hf
  | ok t =>
    simp only [ht, bind, Except.bind] at hf
    split at hf
    · cases hf
    · next k _ =>
      cases hk : followersFrom m.checks k with
      | error e => simp [hk] at hf
      | ok y =>
        simp only [hk, pure, Except.pure, Except.ok.injEq, Option.some.injEq] at hf
        subst hf
        exact followersFrom_fits hk

theorem reqU64_lt {m : MsgRef} {t : Tag} {n : Nat} (h : (reqU64 m t).run = .ok (some n)) : n < 2 ^ 64 := by
  simp only [reqU64, ok_bind, ok_get, ok_some] at h
  obtain ⟨_, _, h⟩ := h
  exact opt_u64_lt h

theorem promotion_fits {m : MsgRef} {p : Option SubGiftPromo} (h : parsePromotion m = .ok p) :
    ∀ v, p = some v → v.totalGifts < 2 ^ 64 := by
  unfold parsePromotion at h
  cases h1 : m.tag .msgParamPromoGiftTotal with
  | error e => simp [h1, bind, Except.bind] at h
  | ok a =>
    cases h2 : m.tag .msgParamPromoName with
    | error e => simp [h1, h2, bind, Except.bind] at h
    | ok i =>
      simp only [h1, h2, bind, Except.bind, pure, Except.pure] at h
      split at h
      · cases h
        intro v hv
        cases hv
        exact opt_u64_lt (by assumption)
      · cases h; intro v hv; cases hv

theorem event_fits {m : MsgRef} {e : Bytes} {s : Option Bytes} {ev : Event} {anon : Bool}
    (h : (parseEvent m e s).run = .ok (some (ev, anon))) : EventFits ev := by
  unfold parseEvent at h
  by_cases h1 : e = b!"sub" ∨ e = b!"resub"
  · rw [if_pos h1] at h
    simp only [ok_bind, ok_get, ok_pure, ok_some, ok_req] at h
    obtain ⟨_, hc, s, _, _, _, _, _, h⟩ := h
    cases h
    refine ⟨reqU64_lt hc, ?_⟩
    intro n hn
    cases hs : s.bind parseU64 with
    | none => simp [hs] at hn
    | some k =>
      simp only [hs, Option.bind_some, positive] at hn
      split at hn
      · cases hn; exact opt_u64_lt hs
      · cases hn
  rw [if_neg h1] at h
  by_cases h1 : e = b!"raid"
  · rw [if_pos h1] at h
    simp only [ok_bind, ok_get, ok_pure, ok_some, ok_req] at h
    obtain ⟨_, hc, _, _, h⟩ := h
    cases h
    exact reqU64_lt hc
  rw [if_neg h1] at h
  by_cases h1 : e = b!"subgift" ∨ e = b!"anonsubgift"
  · rw [if_pos h1] at h
    simp only [ok_bind, ok_get, ok_pure, ok_some, ok_req] at h
    obtain ⟨_, hc, _, _, _, _, _, _, _, _, _, _, _, hg, h⟩ := h
    cases h
    exact ⟨reqU64_lt hc, reqU64_lt hg⟩
  rw [if_neg h1] at h
  by_cases h1 : e = b!"anonsubmysterygift"
  · rw [if_pos h1] at h
    simp only [ok_bind, ok_get, ok_pure, ok_some, ok_req] at h
    obtain ⟨_, hc, _, _, h⟩ := h
    cases h
    exact reqU64_lt hc
  rw [if_neg h1] at h
  by_cases h1 : e = b!"submysterygift" ∧ s = anAnonymousGifter
  · rw [if_pos h1] at h
    simp only [ok_bind, ok_get, ok_pure, ok_some, ok_req] at h
    obtain ⟨_, hc, _, _, h⟩ := h
    cases h
    exact reqU64_lt hc
  rw [if_neg h1] at h
  by_cases h1 : e = b!"submysterygift"
  · rw [if_pos h1] at h
    simp only [ok_bind, ok_get, ok_pure, ok_some, ok_req] at h
    obtain ⟨_, hc, _, hg, _, _, h⟩ := h
    cases h
    exact ⟨reqU64_lt hc, reqU64_lt hg⟩
  rw [if_neg h1] at h
  by_cases h1 : e = b!"giftpaidupgrade"
  · rw [if_pos h1] at h
    simp only [ok_bind, ok_get, ok_pure, ok_some, ok_req] at h
    obtain ⟨_, _, _, _, _, hp, h⟩ := h
    cases h
    exact promotion_fits hp
  rw [if_neg h1] at h
  by_cases h1 : e = b!"anongiftpaidupgrade"
  · rw [if_pos h1] at h
    simp only [ok_bind, ok_get, ok_pure, ok_some, ok_req] at h
    obtain ⟨_, hp, h⟩ := h
    cases h
    exact promotion_fits hp
  rw [if_neg h1] at h
  by_cases h1 : e = b!"ritual"
  · rw [if_pos h1] at h
    simp only [ok_bind, ok_get, ok_pure, ok_some, ok_req] at h
    obtain ⟨_, _, h⟩ := h
    cases h
    trivial
  rw [if_neg h1] at h
  by_cases h1 : e = b!"bitsbadgetier"
  · rw [if_pos h1] at h
    simp only [ok_bind, ok_get, ok_pure, ok_some, ok_req] at h
    obtain ⟨_, hc, h⟩ := h
    cases h
    exact reqU64_lt hc
  rw [if_neg h1] at h
  by_cases h1 : e = b!"announcement"
  · rw [if_pos h1] at h
    simp only [ok_bind, ok_get, ok_pure, ok_some, ok_req] at h
    obtain ⟨_, _, h⟩ := h
    cases h
    trivial
  rw [if_neg h1] at h
  simp only [ok_pure] at h
  cases h
  trivial

theorem userNotice_fits {m : MsgRef} {v : UserNotice} (h : UserNotice.parse m = .ok (some v)) :
    (∀ b ∈ v.badges, Consistent b) ∧ EventFits v.event ∧ Representable v.timestamp := by
  simp only [UserNotice.parse, ok_bind, ok_guard, ok_get, ok_pure, ok_some, ok_req] at h
  obtain ⟨_, _, _, _, _, _, _, ⟨ev, an⟩, he, _, _, _, _, _, _, _, _, _, _, _, hb, _, _, _, _, _, _, _, _,
    _, ht, rfl⟩ := h
  exact ⟨badgesOf_consistent hb, event_fits he, opt_timestamp_in ht⟩

end Tmi.Proofs
