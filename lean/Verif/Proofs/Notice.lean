/-
USERNOTICE against its specification.
-/
import Verif.Proofs.Typed

namespace Tmi.Proofs
open Tmi.Model Tmi.Spec Tmi.Props

theorem run_bind {α β : Type} {x : OptionT R α} {r : Option α} (h : x.run = .ok r)
    (f : α → OptionT R β) : (x >>= f).run = r.elim (.ok none) (fun a => (f a).run) := by
  change (x.run >>= fun a => match a with | some a => (f a).run | none => pure none) = _
  rw [h, bind_ok]
  cases r <;> rfl

theorem num_iff (l : Line) (k : Bytes) (n : Nat) : (l.tag k).bind parseU64 = some n ↔ l.num k n :=
  optU64 (l.tag k) n

theorem num_req {m : MsgRef} {l : Line} (hr : Represents m l) {β : Type} (t : Tag)
    (f : Nat → OptionT R β) :
    (reqU64 m t >>= f).run = ((l.tag t.asStr).bind parseU64).elim (.ok none) (fun a => (f a).run) := by
  unfold reqU64
  rw [run_assoc, tag_get hr, run_some?]

theorem promo_iff {m : MsgRef} {l : Line} (hr : Represents m l) :
    ∃ r, parsePromotion m = .ok r ∧ ∀ r', r = r' ↔ PromoOf l r' := by
  unfold parsePromotion
  rw [hr.tag, bind_ok, hr.tag, bind_ok]
  have e1 : lookup (Tag.msgParamPromoGiftTotal.asStr) l.tags = l.tag (b!"msg-param-promo-gift-total") := rfl
  have e2 : lookup (Tag.msgParamPromoName.asStr) l.tags = l.tag (b!"msg-param-promo-name") := rfl
  rw [e1, e2]
  have key : ∃ r, (match (l.tag (b!"msg-param-promo-gift-total")).bind parseU64,
      l.tag (b!"msg-param-promo-name") with
      | some totalGifts, some promoName => pure (some (SubGiftPromo.mk totalGifts promoName))
      | _, _ => pure none : R (Option SubGiftPromo)) = .ok r ∧ PromoOf l r := by
    unfold PromoOf
    simp only [← num_iff]
    cases (l.tag (b!"msg-param-promo-gift-total")).bind parseU64 with
    | none => exact ⟨none, rfl, fun p => by simp⟩
    | some n =>
      cases l.tag (b!"msg-param-promo-name") with
      | none => exact ⟨none, rfl, fun p => by simp⟩
      | some v =>
        refine ⟨some ⟨n, v⟩, rfl, fun p => ?_⟩
        cases p; simp
  obtain ⟨r, h1, h2⟩ := key
  refine ⟨r, h1, fun r' => ⟨fun h => h ▸ h2, fun h => ?_⟩⟩
  exact Option.ext fun p => (h2 p).trans (h p).symm

theorem streak_iff (l : Line) (r : Option Nat) :
    ((l.tag (b!"msg-param-streak-months")).bind parseU64).bind
      positive = r ↔
    ∀ n, r = some n ↔ l.num (b!"msg-param-streak-months") n ∧ 0 < n := by
  have key : ∀ n, ((l.tag (b!"msg-param-streak-months")).bind parseU64).bind
      positive = some n ↔
      l.num (b!"msg-param-streak-months") n ∧ 0 < n := by
    intro n
    rw [Option.bind_eq_some_iff]
    simp only [num_iff]
    constructor
    · rintro ⟨k, h1, h2⟩
      unfold positive at h2
      split at h2
      · simp at h2; subst h2; exact ⟨h1, by omega⟩
      · simp at h2
    · rintro ⟨h1, h2⟩; exact ⟨n, h1, by rw [positive, if_pos h2]⟩
  constructor
  · rintro rfl; exact key
  · intro h; exact Option.ext fun n => (key n).trans (h n).symm

theorem event_exactly {m : MsgRef} {l : Line} (hr : Represents m l) (id : Bytes) :
    Exactly (parseEvent m id (l.tag (b!"user-id"))).run (fun p => EventOf l id p.1 p.2) := by
  obtain ⟨pr, hp1, hp2⟩ := promo_iff hr
  constructor
  · rintro ⟨ev, anon⟩
    constructor
    · intro h
      unfold parseEvent at h
      rw [hp1] at h
      simp only [run_ite] at h
      by_cases n1 : id = b!"sub" ∨ id = b!"resub"
      · rw [if_pos n1] at h
        simp only [tag_req hr, num_req hr, tag_get hr, run_get, run_pure, elim_some, Except.ok.injEq,
          Option.some.injEq, Prod.mk.injEq, num_iff] at h
        obtain ⟨_, h1, _, h2, _, h3, rfl, rfl⟩ := h
        refine .subOrResub ?_ h1 ((streak_iff _ _).1 rfl) h2 h3
        rcases n1 with rfl | rfl
        · exact .inl ⟨by decide, rfl⟩
        · exact .inr ⟨by decide, rfl⟩
      rw [if_neg n1] at h
      by_cases n2 : id = b!"raid"
      · rw [if_pos n2] at h
        simp only [tag_req hr, num_req hr, tag_get hr, run_get, run_pure, elim_some, Except.ok.injEq,
          Option.some.injEq, Prod.mk.injEq, num_iff] at h
        subst n2
        obtain ⟨_, h1, _, h2, rfl, rfl⟩ := h
        exact .raid h1 h2
      rw [if_neg n2] at h
      by_cases n3 : id = b!"subgift" ∨ id = b!"anonsubgift"
      · rw [if_pos n3] at h
        simp only [tag_req hr, num_req hr, tag_get hr, run_get, run_pure, elim_some, Except.ok.injEq,
          Option.some.injEq, Prod.mk.injEq, num_iff] at h
        obtain ⟨_, h1, _, h2, _, h3, _, h4, _, h5, _, h6, _, h7, rfl, rfl⟩ := h
        refine .subGift n3 h1 h2 h3 h4 h5 h6 h7 ?_
        simp [anAnonymousGifter, anonymousGifterId]
      rw [if_neg n3] at h
      by_cases n4 : id = b!"anonsubmysterygift"
      · rw [if_pos n4] at h
        simp only [tag_req hr, num_req hr, tag_get hr, run_get, run_pure, elim_some, Except.ok.injEq,
          Option.some.injEq, Prod.mk.injEq, num_iff] at h
        obtain ⟨_, h1, _, h2, rfl, rfl⟩ := h
        exact .anonSubMysteryGift (.inl n4) h1 h2
      rw [if_neg n4] at h
      by_cases n5 : id = b!"submysterygift" ∧ l.tag (b!"user-id") = anAnonymousGifter
      · rw [if_pos n5] at h
        simp only [tag_req hr, num_req hr, tag_get hr, run_get, run_pure, elim_some, Except.ok.injEq,
          Option.some.injEq, Prod.mk.injEq, num_iff] at h
        obtain ⟨_, h1, _, h2, rfl, rfl⟩ := h
        exact .anonSubMysteryGift (.inr n5) h1 h2
      rw [if_neg n5] at h
      by_cases n6 : id = b!"submysterygift"
      · rw [if_pos n6] at h
        simp only [tag_req hr, num_req hr, tag_get hr, run_get, run_pure, elim_some, Except.ok.injEq,
          Option.some.injEq, Prod.mk.injEq, num_iff] at h
        subst n6
        obtain ⟨_, h1, _, h2, _, h3, rfl, rfl⟩ := h
        exact .subMysteryGift (fun h => n5 ⟨rfl, h⟩) h1 h2 h3
      rw [if_neg n6] at h
      by_cases n7 : id = b!"giftpaidupgrade"
      · rw [if_pos n7] at h
        simp only [tag_req hr, num_req hr, tag_get hr, run_get, run_pure, elim_some, Except.ok.injEq,
          Option.some.injEq, Prod.mk.injEq, num_iff] at h
        subst n7
        obtain ⟨_, h1, _, h2, rfl, rfl⟩ := h
        exact .giftPaidUpgrade h1 h2 ((hp2 _).1 rfl)
      rw [if_neg n7] at h
      by_cases n8 : id = b!"anongiftpaidupgrade"
      · rw [if_pos n8] at h
        simp only [tag_req hr, num_req hr, tag_get hr, run_get, run_pure, elim_some, Except.ok.injEq,
          Option.some.injEq, Prod.mk.injEq, num_iff] at h
        subst n8
        obtain ⟨rfl, rfl⟩ := h
        exact .anonGiftPaidUpgrade ((hp2 _).1 rfl)
      rw [if_neg n8] at h
      by_cases n9 : id = b!"ritual"
      · rw [if_pos n9] at h
        simp only [tag_req hr, num_req hr, tag_get hr, run_get, run_pure, elim_some, Except.ok.injEq,
          Option.some.injEq, Prod.mk.injEq, num_iff] at h
        subst n9
        obtain ⟨_, h1, rfl, rfl⟩ := h
        exact .ritual h1
      rw [if_neg n9] at h
      by_cases n10 : id = b!"bitsbadgetier"
      · rw [if_pos n10] at h
        simp only [tag_req hr, num_req hr, tag_get hr, run_get, run_pure, elim_some, Except.ok.injEq,
          Option.some.injEq, Prod.mk.injEq, num_iff] at h
        subst n10
        obtain ⟨_, h1, rfl, rfl⟩ := h
        exact .bitsBadgeTier h1
      rw [if_neg n10] at h
      by_cases n11 : id = b!"announcement"
      · rw [if_pos n11] at h
        simp only [tag_req hr, num_req hr, tag_get hr, run_get, run_pure, elim_some, Except.ok.injEq,
          Option.some.injEq, Prod.mk.injEq, num_iff] at h
        subst n11
        obtain ⟨rfl, rfl⟩ := h
        exact .announcement rfl
      rw [if_neg n11] at h
      · simp only [run_pure, Except.ok.injEq, Option.some.injEq, Prod.mk.injEq] at h
        obtain ⟨rfl, rfl⟩ := h
        refine .unknown ?_
        simp only [not_or] at n1 n3
        simp only [eventIds, List.mem_cons, List.not_mem_nil, or_false, not_or]
        exact ⟨n1.1, n1.2, n2, n3.1, n3.2, n4, n6, n7, n8, n9, n10, n11⟩
    · intro h
      simp only at h
      unfold parseEvent
      rw [hp1]
      cases h with
      | subOrResub hid h1 h2 h3 h4 =>
        rw [← streak_iff] at h2
        rw [if_pos (by rcases hid with h | h <;> simp [h.2])]
        simp only [tag_req hr, num_req hr, tag_get hr, run_pure, elim_some, Except.ok.injEq,
          Option.some.injEq, Prod.mk.injEq, num_iff, Event.subOrResub.injEq]
        refine ⟨_, h1, _, h3, _, h4, ⟨?_, rfl, h2, rfl, rfl⟩, trivial⟩
        rcases hid with ⟨rfl, rfl⟩ | ⟨rfl, rfl⟩ <;> decide
      | raid h1 h2 =>
        rw [if_neg (by decide), if_pos rfl]
        simp only [tag_req hr, num_req hr, run_pure, elim_some, Except.ok.injEq,
          Option.some.injEq, num_iff]
        exact ⟨_, h1, _, h2, rfl⟩
      | subGift hid h1 h2 h3 h4 h5 h6 h7 h8 =>
        rename_i anon
        rw [if_neg (by rcases hid with rfl | rfl <;> decide),
          if_neg (by rcases hid with rfl | rfl <;> decide), if_pos hid]
        simp only [tag_req hr, num_req hr, run_pure, elim_some, Except.ok.injEq,
          Option.some.injEq, num_iff, Prod.mk.injEq]
        refine ⟨_, h1, _, h2, _, h3, _, h4, _, h5, _, h6, _, h7, rfl, ?_⟩
        rw [Bool.eq_iff_iff, h8]
        simp [anAnonymousGifter, anonymousGifterId]
      | anonSubMysteryGift hid h1 h2 =>
        rcases hid with rfl | ⟨rfl, hu⟩
        · rw [if_neg (by decide), if_neg (by decide), if_neg (by decide), if_pos rfl]
          simp only [tag_req hr, num_req hr, run_pure, elim_some, Except.ok.injEq,
            Option.some.injEq, num_iff]
          exact ⟨_, h1, _, h2, rfl⟩
        · rw [if_neg (by decide), if_neg (by decide), if_neg (by decide), if_neg (by decide),
            if_pos ⟨rfl, hu⟩]
          simp only [tag_req hr, num_req hr, run_pure, elim_some, Except.ok.injEq,
            Option.some.injEq, num_iff]
          exact ⟨_, h1, _, h2, rfl⟩
      | subMysteryGift hu h1 h2 h3 =>
        rw [if_neg (by decide), if_neg (by decide), if_neg (by decide), if_neg (by decide),
            if_neg (fun h => hu h.2), if_pos rfl]
        simp only [tag_req hr, num_req hr, run_pure, elim_some, Except.ok.injEq,
          Option.some.injEq, num_iff]
        exact ⟨_, h1, _, h2, _, h3, rfl⟩
      | giftPaidUpgrade h1 h2 h3 =>
        rw [← hp2] at h3; subst h3
        rw [if_neg (by decide), if_neg (by decide), if_neg (by decide), if_neg (by decide),
            if_neg (fun h => absurd h.1 (by decide)), if_neg (by decide), if_pos rfl]
        simp only [tag_req hr, run_get, run_pure, elim_some, Except.ok.injEq,
          Option.some.injEq]
        exact ⟨_, h1, _, h2, rfl⟩
      | anonGiftPaidUpgrade h3 =>
        rw [← hp2] at h3; subst h3
        rw [if_neg (by decide), if_neg (by decide), if_neg (by decide), if_neg (by decide),
            if_neg (fun h => absurd h.1 (by decide)), if_neg (by decide), if_neg (by decide),
            if_pos rfl]
        rfl
      | ritual h1 =>
        rw [if_neg (by decide), if_neg (by decide), if_neg (by decide), if_neg (by decide),
            if_neg (fun h => absurd h.1 (by decide)), if_neg (by decide), if_neg (by decide),
            if_neg (by decide), if_pos rfl]
        simp only [tag_req hr, run_pure, elim_some, Except.ok.injEq, Option.some.injEq]
        exact ⟨_, h1, rfl⟩
      | bitsBadgeTier h1 =>
        rw [if_neg (by decide), if_neg (by decide), if_neg (by decide), if_neg (by decide),
            if_neg (fun h => absurd h.1 (by decide)), if_neg (by decide), if_neg (by decide),
            if_neg (by decide), if_neg (by decide), if_pos rfl]
        simp only [num_req hr, run_pure, elim_some, Except.ok.injEq, Option.some.injEq, num_iff]
        exact ⟨_, h1, rfl⟩
      | announcement h1 =>
        rw [if_neg (by decide), if_neg (by decide), if_neg (by decide), if_neg (by decide),
            if_neg (fun h => absurd h.1 (by decide)), if_neg (by decide), if_neg (by decide),
            if_neg (by decide), if_neg (by decide), if_neg (by decide), if_pos rfl]
        rw [tag_get hr, h1]; rfl
      | unknown h1 =>
        simp only [eventIds, List.mem_cons, List.not_mem_nil, or_false, not_or] at h1
        obtain ⟨n1, n1', n2, n3, n3', n4, n6, n7, n8, n9, n10, n11⟩ := h1
        rw [if_neg (by simp only [not_or]; exact ⟨n1, n1'⟩), if_neg n2,
          if_neg (by simp only [not_or]; exact ⟨n3, n3'⟩), if_neg n4, if_neg (fun h => n6 h.1),
          if_neg n6, if_neg n7, if_neg n8, if_neg n9, if_neg n10, if_neg n11]
        rfl
  · unfold parseEvent
    rw [hp1]
    simp only [run_ite]
    repeat' apply Fine.ite
    all_goals simp only [tag_req hr, num_req hr, tag_get hr, run_get, run_pure]
    all_goals repeat' first | exact .ok _ | refine .elim fun _ => ?_

theorem sender_exactly {m : MsgRef} {l : Line} (hr : Represents m l) (anon : Bool) :
    Exactly (senderOf m anon).run (fun s => match s with
      | none => anon = true
      | some u => anon = false ∧ l.tag (b!"user-id") = some u.id ∧ l.tag (b!"login") = some u.login ∧
        l.tag (b!"display-name") = some u.name) := by
  unfold senderOf
  cases anon with
  | true =>
    refine ⟨fun s => ?_, ⟨_, rfl⟩⟩
    cases s with
    | none => exact ⟨fun _ => rfl, fun _ => rfl⟩
    | some u => simp [OptionT.run, pure, OptionT.pure, OptionT.mk, Except.pure]
  | false =>
    simp only [Bool.not_false, if_true, tag_req hr, run_pure]
    refine ⟨fun s => ?_, .elim fun _ => .elim fun _ => .elim fun _ => .ok _⟩
    simp only [elim_some, Except.ok.injEq, Option.some.injEq]
    cases s with
    | none => simp
    | some u =>
      simp only [true_and, Option.some.injEq]
      constructor
      · rintro ⟨_, h1, _, h2, _, h3, rfl⟩; exact ⟨h1, h2, h3⟩
      · rintro ⟨h1, h2, h3⟩; exact ⟨_, h1, _, h2, _, h3, rfl⟩

theorem userNotice_exactly {m : MsgRef} {l : Line} (hr : Represents m l) :
    Exactly (UserNotice.parse m) (fun p => l.command = b!"USERNOTICE" ∧ UserNoticeOf l p) := by
  refine guard_exactly (c := .userNotice) hr (by simp) (fun e => ?_)
  rw [channel_eq hr e (by simp) (by simp)]
  obtain ⟨bs, hb1, hb2⟩ := badgesOf_iff hr
  rw [hb1]
  rw [tag_get hr, tag_req hr]
  cases hid : l.tag Tag.msgId.asStr with
  | none =>
    refine ⟨fun p => ?_, ⟨_, rfl⟩⟩
    have hid' : l.tag (b!"msg-id") = none := hid
    constructor
    · intro h; simp at h
    · intro h; have := h.eventId; rw [hid'] at this; simp at this
  | some id =>
    have hid' : l.tag (b!"msg-id") = some id := hid
    rw [Option.elim_some]
    obtain ⟨he, er, her⟩ := event_exactly hr id
    change Exactly (parseEvent m id (l.tag (b!"user-id")) >>= _).run _
    rw [run_bind her]
    rw [her] at he
    cases er with
    | none =>
      refine ⟨fun p => ?_, ⟨_, rfl⟩⟩
      constructor
      · intro h; simp at h
      · intro h
        obtain ⟨anon, hev, _⟩ := h.event
        have e1 := h.eventId
        rw [hid'] at e1; simp at e1; rw [← e1] at hev
        have := (he (_, anon)).2 hev
        simp at this
    | some ea =>
      obtain ⟨ev, anon⟩ := ea
      rw [Option.elim_some]
      simp only []
      obtain ⟨hs, sr, hsr⟩ := sender_exactly hr anon
      rw [run_bind hsr]
      rw [hsr] at hs
      have hev := (he (ev, anon)).1 rfl
      have huniq : ∀ ev' anon', EventOf l id ev' anon' → ev' = ev ∧ anon' = anon := by
        intro ev' anon' h
        have := (he (ev', anon')).2 h
        simp at this
        exact ⟨this.1.symm, this.2.symm⟩
      simp only [run_req, run_get, run_some?, text_get hr, tag_req hr, tag_get hr, run_pure]
      refine ⟨fun p => ?_, .elim fun _ => .elim fun _ => .elim fun _ => .elim fun _ => .elim fun _ =>
        .ok _⟩
      simp only [elim_some, Except.ok.injEq, Option.some.injEq]
      constructor
      · rintro ⟨s, h0, _, h1, _, h2, _, h3, _, h4, rfl⟩
        exact {
          channel := h1, channelId := h2, event := ⟨anon, hev, (hs s).1 (by rw [h0])⟩, text := rfl
          systemMessage := (optText_iff _ _).1 rfl, eventId := hid', badges := (hb2 _).1 rfl
          emotes := rfl, color := (optText_iff _ _).1 rfl, messageId := h3
          timestamp := (timestamp_iff _ _).1 h4 }
      · rintro ⟨h1, h2, ⟨anon', hev', hsn⟩, ht, hsm, he', hb, hem, hc, h3, h4⟩
        rw [hid'] at he'; simp at he'; rw [← he'] at hev'
        obtain ⟨e1, e2⟩ := huniq _ _ hev'
        subst e2
        have h0 := (hs p.sender).2 hsn
        simp only [Except.ok.injEq] at h0
        refine ⟨_, h0, _, h1, _, h2, _, h3, _, (timestamp_iff _ _).2 h4, ?_⟩
        rw [← hb2] at hb
        rw [← optText_iff] at hc hsm
        cases p
        rw [UserNotice.mk.injEq]
        exact ⟨rfl, rfl, rfl, ht, hsm, e1.symm, he', hb, hem.symm, hc, rfl, rfl⟩

end Tmi.Proofs
