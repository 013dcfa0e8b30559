/-
Lemmas: events, whispers, settings, states and notices of the server, read back.
-/
import Verif.Spec.Happen
import Verif.Proofs.Serve
import Verif.Props.Getters

namespace Tmi.Proofs
open Tmi.Model Tmi.Spec

theorem num_show {l : Line} {k : Bytes} {n : Nat} (h : l.tag k = some (showNat n)) (hn : n < 2 ^ 64) : l.num k n :=
  ⟨_, h, isNat_showNat n, hn⟩

theorem num_show_iff {l : Line} {k : Bytes} {n m : Nat} (h : l.tag k = some (showNat n)) : l.num k m ↔ m = n ∧ n < 2 ^ 64 := by
  constructor
  · rintro ⟨v, hv, hm, hlt⟩
    rw [h] at hv
    cases hv
    cases isNat_unique hm (isNat_showNat n)
    exact ⟨rfl, hlt⟩
  · rintro ⟨rfl, hlt⟩
    exact num_show h hlt

theorem entries_plain {es : List (Bytes × Bytes)} (h : ∀ e ∈ es, Unescaped e.1 ∧ Unescaped e.2) :
    Unescaped (renderEntries es) :=
  ⟨mem_renderEntries (by decide) (by decide) fun e he => ⟨(h e he).1.1, (h e he).2.1⟩,
    mem_renderEntries (by decide) (by decide) fun e he => ⟨(h e he).1.2, (h e he).2.2⟩⟩

theorem badges_plain {k : Looks} (h : k.Ok) : Unescaped (renderEntries k.badges) :=
  entries_plain fun e he => let x := h.badges e (by simp [he]); ⟨x.1, x.2.1⟩

theorem badgeInfo_plain {k : Looks} (h : k.Ok) : Unescaped (renderEntries k.badgeInfo) :=
  entries_plain fun e he => let x := h.badges e (by simp [he]); ⟨x.1, x.2.1⟩

theorem color_plain {k : Looks} (h : k.Ok) : Unescaped (k.color.getD []) := by
  cases hc : k.color with
  | none => simp [Unescaped]
  | some s => exact (h.color s hc).1

theorem color_read {k : Looks} (h : k.Ok) : OptText (some (k.color.getD [])) k.color := by
  intro c
  constructor
  · intro hc
    exact ⟨by rw [hc]; rfl, (h.color c hc).2⟩
  · rintro ⟨h1, h2⟩
    cases hc : k.color with
    | none => rw [hc] at h1; simp at h1; exact absurd h1.symm (by simpa using h2)
    | some s => rw [hc] at h1; simpa using h1

/-- The badges of a line. -/
theorem looks_read {k : Looks} (h : k.Ok) {l : Line} (hb : l.tag (b!"badges") = some (renderEntries k.badges))
    (hi : l.tag (b!"badge-info") = some (renderEntries k.badgeInfo)) :
    ∃ bs, BadgesOf (l.tag (b!"badges")) (l.tag (b!"badge-info")) bs ∧ LooksRead k bs bs.length k.color := by
  have H := (Props.C26_badges (renderEntries k.badges) (renderEntries k.badgeInfo)).1
  rw [← hb, ← hi] at H
  refine ⟨_, H, ?_⟩
  obtain ⟨h1, h2⟩ := (Props.badgesGive_of H).present _ _ hb hi
  rw [entries_render fun e he => (h.badges e (by simp [he])).2.2] at h1 h2
  rw [entries_render fun e he => (h.badges e (by simp [he])).2.2] at h2
  exact ⟨h1, h2, rfl⟩

theorem personRead_of {p : Person} : PersonRead p ⟨p.id, p.login, enc (escape p.name)⟩ :=
  ⟨rfl, rfl, fun hr => Props.gives_back rfl _ hr rfl⟩

theorem joinWith_plain : ∀ {ss : List Bytes}, (∀ s ∈ ss, Unescaped s) → Unescaped (joinWith COMMA ss)
  | [], _ => by simp [joinWith, Unescaped]
  | [s], h => by simpa [joinWith] using h s (by simp)
  | s :: t :: ss, h => by
    have h1 := h s (by simp)
    have h2 := joinWith_plain (ss := t :: ss) fun x hx => h x (by simp [hx])
    rw [joinWith]
    · simp only [Unescaped, List.mem_append, List.mem_cons, not_or] at h1 h2 ⊢
      exact ⟨⟨h1.1, by decide, h2.1⟩, h1.2, by decide, h2.2⟩
    · simp

theorem promoOf_read {l : Line} {promo : Option (Nat × Bytes)} (h : PromoOk promo)
    (h1 : l.tag (b!"msg-param-promo-gift-total") = promo.map fun p => showNat p.1)
    (h2 : l.tag (b!"msg-param-promo-name") = promo.map fun p => p.2) :
    ∃ r, PromoOf l r ∧ PromoRead promo (some r) := by
  cases promo with
  | none =>
    refine ⟨none, fun p => ?_, rfl⟩
    constructor
    · rintro ⟨⟩
    · rintro ⟨⟨v, hv, -⟩, -⟩; rw [h1] at hv; cases hv
  | some ns =>
    obtain ⟨n, s⟩ := ns
    obtain ⟨hn, -⟩ := h n s rfl
    refine ⟨some ⟨n, s⟩, fun p => ?_, ⟨_, rfl, rfl, rfl⟩⟩
    rw [num_show_iff h1, h2]
    constructor
    · rintro ⟨⟩
      exact ⟨⟨rfl, hn⟩, rfl⟩
    · rintro ⟨⟨h3, -⟩, h4⟩
      obtain ⟨a, b⟩ := p
      simp only [Option.map_some, Option.some.injEq] at h4
      simp only [] at h3 h4
      rw [h3, h4]

/-- The tags of a happening. -/
theorem happening_nodup (h : Happening) : ((([
  (b!"badge-info", some (renderEntries h.looks.badgeInfo)),
  (b!"badges", some (renderEntries h.looks.badges)),
  (b!"color", some (h.looks.color.getD [])),
  (b!"display-name", some (enc (escape h.who.name))),
  (b!"emotes", some h.emotes),
  (b!"id", some h.id),
  (b!"login", some h.who.login),
  (b!"msg-id", some h.deed.msgId),
  (b!"room-id", some h.place.channelId),
  (b!"system-msg", some (enc (escape h.system))),
  (b!"tmi-sent-ts", some (showNat h.place.time)),
  (b!"user-id", some h.who.id)] : List (Bytes × Option Bytes)) ++ h.deed.rows).map (·.1)).Nodup := by
  cases h.deed <;> simp only [Deed.rows, List.map_append, List.map_cons, List.map_nil] <;> decide

theorem msgId_plain (d : Deed) : Unescaped d.msgId := by
  unfold Unescaped
  cases d with
  | subscribed again => cases again <;> exact ⟨by simp [Deed.msgId]; decide, by simp [Deed.msgId]; decide⟩
  | gifted anonymous => cases anonymous <;> exact ⟨by simp [Deed.msgId]; decide, by simp [Deed.msgId]; decide⟩
  | giftedMany anonymous => cases anonymous <;> exact ⟨by simp [Deed.msgId]; decide, by simp [Deed.msgId]; decide⟩
  | _ => simp only [Deed.msgId]; decide

theorem promo_plain {promo : Option (Nat × Bytes)} (h : PromoOk promo) :
    (∀ v, (promo.map fun p => showNat p.1) = some v → Unescaped v) ∧ (∀ v, (promo.map fun p => p.2) = some v → Unescaped v) := by
  cases promo with
  | none => simp
  | some ns =>
    obtain ⟨n, s⟩ := ns
    simp only [Option.map_some, Option.some.injEq, forall_eq']
    exact ⟨showNat_plain _, (h n s rfl).2⟩

theorem rows_plain {d : Deed} (h : d.Ok) : ∀ r ∈ d.rows, ∀ v, r.2 = some v → Unescaped v := by
  cases d with
  | subscribed again months streak plan planName =>
    simp only [Deed.rows, List.mem_cons, List.not_mem_nil, or_false, forall_eq_or_imp, forall_eq, Option.some.injEq, forall_eq']
    exact ⟨showNat_plain _, showNat_plain _, h.2.2, escape_plain _⟩
  | raided viewers image =>
    simp only [Deed.rows, List.mem_cons, List.not_mem_nil, or_false, forall_eq_or_imp, forall_eq, Option.some.injEq, forall_eq']
    exact ⟨h.2, showNat_plain _⟩
  | gifted anonymous months to plan planName length =>
    simp only [Deed.rows, List.mem_cons, List.not_mem_nil, or_false, forall_eq_or_imp, forall_eq, Option.some.injEq, forall_eq']
    exact ⟨showNat_plain _, showNat_plain _, escape_plain _, h.2.1.1,
      h.2.1.2, h.2.2.1, escape_plain _⟩
  | giftedMany anonymous count total plan =>
    simp only [Deed.rows, List.mem_cons, List.not_mem_nil, or_false, forall_eq_or_imp, forall_eq, Option.some.injEq, forall_eq']
    exact ⟨showNat_plain _, showNat_plain _, h.2.2⟩
  | upgraded login name promo =>
    simp only [Deed.rows, List.mem_cons, List.not_mem_nil, or_false, forall_eq_or_imp, forall_eq, Option.some.injEq, forall_eq']
    exact ⟨fun v hv => (promo_plain h.2.2).1 v hv, fun v hv => (promo_plain h.2.2).2 v hv,
      h.1, h.2.1⟩
  | upgradedAnonymous promo =>
    simp only [Deed.rows, List.mem_cons, List.not_mem_nil, or_false, forall_eq_or_imp, forall_eq]
    exact ⟨fun v hv => (promo_plain h).1 v hv, fun v hv => (promo_plain h).2 v hv⟩
  | ritual name =>
    simp only [Deed.rows, List.mem_cons, List.not_mem_nil, or_false, forall_eq, Option.some.injEq, forall_eq']
    exact h
  | earned tier =>
    simp only [Deed.rows, List.mem_cons, List.not_mem_nil, or_false, forall_eq, Option.some.injEq, forall_eq']
    exact showNat_plain _
  | announced color =>
    simp only [Deed.rows, List.mem_cons, List.not_mem_nil, or_false, forall_eq]
    exact fun v hv => h v hv

theorem happening_keys (h : Happening) : ∀ p ∈ h.tags, EQS ∉ p.1 ∧ SP ∉ p.1 := by
  unfold Happening.tags
  apply presentTags_forall
  intro r hr v _
  have key : ∀ {rows : List (Bytes × Option Bytes)} {ks : List Bytes}, rows.map (·.1) = ks → (∀ k ∈ ks, EQS ∉ k ∧ SP ∉ k) →
      r ∈ rows → EQS ∉ r.1 ∧ SP ∉ r.1 := fun h1 h2 h3 => h2 r.1 (h1 ▸ List.mem_map.2 ⟨r, h3, rfl⟩)
  refine key (rfl) ?_ hr
  cases h.deed <;> simp only [Deed.rows, List.map_append, List.map_cons, List.map_nil] <;> decide

theorem happening_plain {h : Happening} (ok : h.Ok) : ∀ p ∈ h.tags, Unescaped p.2 := by
  unfold Happening.tags
  apply presentTags_forall
  intro r hr'
  rcases List.mem_append.1 hr' with hr | hr
  · clear hr'
    revert r
    simp only [List.mem_cons, List.not_mem_nil, or_false, forall_eq_or_imp, forall_eq, Option.some.injEq, forall_eq']
    exact ⟨badgeInfo_plain ok.looks, badges_plain ok.looks, color_plain ok.looks,
      escape_plain _, ok.emotes, ok.id, ok.who.2, msgId_plain _,
      ok.place.channelId, escape_plain _, showNat_plain _, ok.who.1⟩
  · exact rows_plain ok.deed r hr

/-- The event of a happening. -/
theorem deed_event {who : Bytes} {d : Deed} (h : d.Ok) {l : Line} (hw : l.tag (b!"user-id") = some who)
    (ht : ∀ k o, (k, o) ∈ d.rows → l.tag k = o) : ∃ e, EventOf l d.msgId e (d.hides who) ∧ DeedRead who d e := by
  cases d with
  | subscribed again months streak plan planName =>
    refine ⟨.subOrResub again months streak plan (enc (escape planName)),
      .subOrResub ?_ (num_show (ht _ _ (by simp [Deed.rows])) h.1) (fun n => ?_) (ht _ _ (by simp [Deed.rows]))
        (ht _ _ (by simp [Deed.rows])),
      rfl, rfl, rfl, rfl, fun hr => congrArg some (Props.gives_back rfl _ hr rfl)⟩
    · cases again <;> simp [Deed.msgId]
    · rw [num_show_iff (ht _ _ (by simp [Deed.rows] : (b!"msg-param-streak-months", some (showNat (streak.getD 0))) ∈ _))]
      cases streak with
      | none => simp
      | some k =>
        have := h.2.1 k rfl
        simp only [Option.some.injEq, Option.getD_some]
        constructor
        · rintro rfl; exact ⟨⟨rfl, this.2⟩, this.1⟩
        · rintro ⟨⟨rfl, -⟩, -⟩; rfl
  | raided viewers image =>
    exact ⟨.raid viewers image, .raid (num_show (ht _ _ (by simp [Deed.rows])) h.1) (ht _ _ (by simp [Deed.rows])), rfl, rfl⟩
  | gifted anonymous months to plan planName length =>
    refine ⟨.subGift months ⟨to.id, to.login, enc (escape to.name)⟩ plan (enc (escape planName)) length,
      .subGift ?_ (num_show (ht _ _ (by simp [Deed.rows])) h.1) (ht _ _ (by simp [Deed.rows])) (ht _ _ (by simp [Deed.rows]))
        (ht _ _ (by simp [Deed.rows])) (ht _ _ (by simp [Deed.rows])) (ht _ _ (by simp [Deed.rows]))
        (num_show (ht _ _ (by simp [Deed.rows])) h.2.2.2) ?_,
      rfl, ⟨_, rfl, personRead_of⟩, rfl, fun hr => congrArg some (Props.gives_back rfl _ hr rfl), rfl⟩
    · cases anonymous <;> simp [Deed.msgId]
    · rw [hw]
      cases anonymous <;> simp [Deed.msgId, Deed.hides]
  | giftedMany anonymous count total plan =>
    have hc := num_show (ht (b!"msg-param-mass-gift-count") _ (by simp [Deed.rows])) h.1
    have hp := ht (b!"msg-param-sub-plan") (some plan) (by simp [Deed.rows])
    have hs := num_show (ht (b!"msg-param-sender-count") _ (by simp [Deed.rows])) h.2.1
    cases hh : (Deed.giftedMany anonymous count total plan).hides who with
    | true =>
      refine ⟨.anonSubMysteryGift count plan, .anonSubMysteryGift ?_ hc hp, ?_⟩
      · rw [hw]
        cases anonymous with
        | true => simp [Deed.msgId]
        | false =>
          simp [Deed.hides] at hh
          simp [Deed.msgId, hh]
      · simp only [DeedRead, hh, if_true]
        exact ⟨rfl, rfl⟩
    | false =>
      cases anonymous with
      | true => simp [Deed.hides] at hh
      | false =>
        refine ⟨.subMysteryGift count total plan, .subMysteryGift ?_ hc hs hp, ?_⟩
        · rw [hw]
          simpa [Deed.hides] using hh
        · simp only [DeedRead, hh, Bool.false_eq_true, if_false]
          exact ⟨rfl, rfl, rfl⟩
  | upgraded login name promo =>
    obtain ⟨r, h1, h2⟩ := promoOf_read h.2.2 (ht _ _ (by simp [Deed.rows])) (ht _ _ (by simp [Deed.rows]))
    exact ⟨.giftPaidUpgrade login name r, .giftPaidUpgrade (ht _ _ (by simp [Deed.rows])) (ht _ _ (by simp [Deed.rows])) h1,
      rfl, rfl, h2⟩
  | upgradedAnonymous promo =>
    obtain ⟨r, h1, h2⟩ := promoOf_read h (ht _ _ (by simp [Deed.rows])) (ht _ _ (by simp [Deed.rows]))
    exact ⟨.anonGiftPaidUpgrade r, .anonGiftPaidUpgrade h1, h2⟩
  | ritual name => exact ⟨.ritual name, .ritual (ht _ _ (by simp [Deed.rows])), rfl⟩
  | earned tier => exact ⟨.bitsBadgeTier tier, .bitsBadgeTier (num_show (ht _ _ (by simp [Deed.rows])) h), rfl⟩
  | announced color =>
    exact ⟨.announcement (color.getD (b!"PRIMARY")), .announcement (by rw [ht _ color (by simp [Deed.rows])]), rfl⟩

/-- A happening, read by the grammar and as a typed message. -/
theorem happening_line {h : Happening} (ok : h.Ok) :
    ∃ l, Spec.line h.line = some l ∧ ∃ v, MessageOf l (.userNotice v) ∧ HappeningRead h v := by
  have hp := happening_plain ok
  have hl : Spec.line h.line = some ⟨h.tags, some (b!"tmi.twitch.tv"), b!"USERNOTICE", some (HASH :: h.place.channel),
      h.text.map fun t => COLON :: t⟩ := by
    cases ht : h.text with
    | none =>
      rw [Option.map_none, ← bare_line (tags := h.tags) (pfx := b!"tmi.twitch.tv") (cmd := b!"USERNOTICE") (chan := HASH :: h.place.channel)
        (happening_keys h) hp (by decide) (by decide) rfl (by simp [ok.place.channel]; decide)]
      simp [Happening.line, ht]
    | some t =>
      rw [Option.map_some, ← text_line (tags := h.tags) (pfx := b!"tmi.twitch.tv") (cmd := b!"USERNOTICE") (chan := HASH :: h.place.channel)
        (happening_keys h) hp (by decide) (by decide) rfl (by simp [ok.place.channel]; decide) t]
      simp [Happening.line, ht]
  generalize hline : (⟨h.tags, _, _, _, _⟩ : Line) = l at hl
  have htag : ∀ k, l.tag k = lookup k h.tags := fun k => by rw [Line.tag, ← hline]
  have hin := fun (k : Bytes) (o : Option Bytes) hm => (htag k).trans (lookup_presentTags (k := k) (o := o) (happening_nodup h) hm)
  have tinfo := hin (b!"badge-info") (some (renderEntries h.looks.badgeInfo)) (by simp)
  have tbadges := hin (b!"badges") (some (renderEntries h.looks.badges)) (by simp)
  have tcolor := hin (b!"color") (some (h.looks.color.getD [])) (by simp)
  have tname := hin (b!"display-name") (some (enc (escape h.who.name))) (by simp)
  have temotes := hin (b!"emotes") (some h.emotes) (by simp)
  have tid := hin (b!"id") (some h.id) (by simp)
  have tlogin := hin (b!"login") (some h.who.login) (by simp)
  have tmsg := hin (b!"msg-id") (some h.deed.msgId) (by simp)
  have troom := hin (b!"room-id") (some h.place.channelId) (by simp)
  have tsys := hin (b!"system-msg") (some (enc (escape h.system))) (by simp)
  have ttime := hin (b!"tmi-sent-ts") (some (showNat h.place.time)) (by simp)
  have tuser := hin (b!"user-id") (some h.who.id) (by simp)
  obtain ⟨e, he, he'⟩ := deed_event ok.deed tuser fun k o hm => hin k o (List.mem_append.2 (.inr hm))
  obtain ⟨bs, hb, hb'⟩ := looks_read ok.looks tbadges tinfo
  obtain ⟨t, ht, ht'⟩ := timestamp_at ttime ok.place.time
  refine ⟨l, hl, ⟨HASH :: h.place.channel, h.place.channelId,
      if h.deed.hides h.who.id then none else some ⟨h.who.id, h.who.login, enc (escape h.who.name)⟩,
      h.text, if h.system = [] then none else some (enc (escape h.system)), e, h.deed.msgId, bs, h.emotes, h.looks.color, h.id, t⟩,
    ⟨by rw [← hline], ?_, troom, ⟨_, he, ?_⟩, ?_, ?_, tmsg, hb, ?_, ?_, tid, ht⟩, ⟨rfl, rfl, ht'⟩, rfl, ?_, ?_, hb', rfl, rfl, ?_, rfl, he'⟩
  · rw [← hline]
  · cases hh : h.deed.hides h.who.id with
    | true => simp
    | false =>
      simp only [Bool.false_eq_true, if_false]
      exact ⟨trivial, tuser, tlogin, tname⟩
  · rw [← hline]
    cases h.text <;> simp [Line.text, textOf_colon]
  · rw [tsys]
    intro c
    by_cases hs : h.system = []
    · simp [hs, (enc_escape_nil _).2]
    · have := fun e => hs ((enc_escape_nil h.system).1 e)
      simp only [hs, if_false, Option.some.injEq]
      constructor
      · rintro rfl; exact ⟨rfl, this⟩
      · exact fun x => x.1
  · rw [temotes]; rfl
  · rw [tcolor]; exact color_read ok.looks
  · intro hh; simp [Getter.UserNotice.sender, hh]
  · intro hh
    simp only [Getter.UserNotice.sender, hh, Bool.false_eq_true, if_false]
    exact ⟨_, rfl, personRead_of⟩
  · intro hr
    by_cases hs : h.system = []
    · simp [Getter.UserNotice.systemMessage, UserNotice.getSystemMessage, hs]
    · have hg := Props.gives_back rfl _ hr rfl
      simp only [Getter.UserNotice.systemMessage, UserNotice.getSystemMessage, hs, if_false]
      rw [hg]; rfl

/-- A line with only a command. -/
theorem command_line {tags : List (Bytes × Bytes)} {pfx cmd : Bytes}
    (hk : ∀ p ∈ tags, EQS ∉ p.1 ∧ SP ∉ p.1) (hv : ∀ p ∈ tags, Unescaped p.2)
    (hp : SP ∉ pfx) (hc : SP ∉ cmd ∧ cmd ≠ []) :
    Spec.line (AT :: (renderTags tags ++ SP :: (COLON :: (pfx ++ SP :: cmd)))) = some ⟨tags, some pfx, cmd, none, none⟩ := by
  unfold Spec.line
  rw [takeTags_space _ (renderTags_no_space _ fun p h => ⟨(hk p h).2, (hv p h).1⟩)]
  simp only []
  rw [takePrefix_space _ hp]
  simp only []
  rw [takeToken_end hc.1]
  simp only []
  rw [takeChannel_other (by simp), if_neg hc.2, splitTags_render _ fun p h => ⟨(hk p h).1, (hv p h).2⟩]
  simp

theorem optBool_show {o : Option Bool} : OptBool (o.map onOff) o := by
  have h1 : IsTrue (b!"1") := ⟨1, ⟨b!"1", ⟨by decide, by decide⟩, .inl rfl, by decide⟩, by decide, by decide⟩
  have h0 : ¬ IsTrue (b!"0") := by
    rintro ⟨n, hn, h, -⟩
    have := isNat_unique hn (m := 0) ⟨b!"0", ⟨by decide, by decide⟩, .inl rfl, by decide⟩
    omega
  intro b
  cases o with
  | none => simp
  | some x =>
    simp only [Option.some.injEq, Option.map_some, exists_eq_left']
    cases x <;> cases b <;> simp [onOff, h1, h0]

theorem optSecs_show {o : Option Nat} (h : ∀ n, o = some n → n < 2 ^ 64) :
    OptSecs (o.map showNat) (o.map (· * 1000000000)) := by
  intro d
  cases o with
  | none => simp
  | some n =>
    simp only [Option.map_some, Option.some.injEq]
    constructor
    · rintro rfl; exact ⟨_, n, rfl, isNat_showNat n, h n rfl, rfl⟩
    · rintro ⟨v, k, rfl, hk, -, rfl⟩
      rw [isNat_unique hk (isNat_showNat n)]

/-- A text denotes one integer only. -/
theorem intText_unique {s : Bytes} {n m : Int} (h : IsInt s n) (h' : IsInt s m) : n = m := by
  have key : ∀ {k : Nat} {ds : Bytes}, IsNat s k → s = 0x2D :: ds → False := by
    rintro k ds ⟨d, hd, he, -⟩ rfl
    rcases he with he | he
    · have := hd.2 0x2D (by rw [← he]; simp)
      revert this; decide
    · exact absurd (congrArg List.head? he) (by simp)
  rcases h with ⟨k, hk, rfl⟩ | ⟨ds, hd, rfl, rfl⟩ <;> rcases h' with ⟨k', hk', rfl⟩ | ⟨ds', hd', he, rfl⟩
  · rw [isNat_unique hk hk']
  · exact (key hk he).elim
  · exact (key hk' rfl).elim
  · cases he; rfl

theorem followers_show {f : Followers} (h : ∀ n, f = .minutes n → 0 < n ∧ n ≤ 153722867280912930) (g : FollowersOnly) :
    FollowersOf f.shown g ↔ g = f.read := by
  have key : ∀ n : Int, IsInt f.shown n → -2 ^ 63 ≤ n ∧ n < 2 ^ 63 → (FollowersOf f.shown g ↔
      ((n < 0 ∧ g = .disabled) ∨ (n = 0 ∧ g = .enabled none) ∨
        (0 < n ∧ g = .enabled (some ((n * 60).toNat * 1000000000))))) := by
    intro n hn hr
    constructor
    · rintro ⟨m, hm, hx⟩
      cases intText_unique hn hm.1
      exact hx
    · intro hx
      exact ⟨n, ⟨hn, hr⟩, hx⟩
  cases f with
  | off =>
    rw [key (-1) (.inr ⟨b!"1", ⟨by decide, by decide⟩, rfl, by decide⟩) (by decide)]
    simp [Followers.read]
  | any =>
    rw [key 0 (.inl ⟨0, ⟨b!"0", ⟨by decide, by decide⟩, .inl rfl, by decide⟩, rfl⟩) (by decide)]
    simp [Followers.read]
  | minutes n =>
    have := h n rfl
    rw [key n (.inl ⟨n, isNat_showNat n, rfl⟩) (by omega)]
    have h1 : ¬ (n : Int) < 0 := by omega
    have h2 : n ≠ 0 := by omega
    have h3 : 0 < n := by omega
    have h4 : ((n : Int) * 60).toNat = n * 60 := by omega
    simp [Followers.read, h1, h2, h3, h4]

theorem followers_plain (f : Followers) : Unescaped f.shown := by
  cases f with
  | off => unfold Unescaped; decide
  | any => unfold Unescaped; decide
  | minutes n => exact showNat_plain n

theorem onOff_plain (b : Bool) : Unescaped (onOff b) := by
  unfold Unescaped; cases b <;> decide

theorem map_plain {α : Type} {o : Option α} {f : α → Bytes} (h : ∀ a, Unescaped (f a)) : ∀ v, o.map f = some v → Unescaped v := by
  intro v hv
  obtain ⟨a, -, rfl⟩ := Option.map_eq_some_iff.1 hv
  exact h a

theorem notified_nodup (s : Notified) : (s.rows.map (·.1)).Nodup := by
  cases s <;> simp only [Notified.rows, List.map_cons, List.map_nil] <;> decide

theorem notified_keys (s : Notified) : ∀ p ∈ presentTags s.rows, EQS ∉ p.1 ∧ SP ∉ p.1 := by
  apply presentTags_forall
  intro r hr v _
  have key : ∀ {rows : List (Bytes × Option Bytes)} {ks : List Bytes}, rows.map (·.1) = ks → (∀ k ∈ ks, EQS ∉ k ∧ SP ∉ k) →
      r ∈ rows → EQS ∉ r.1 ∧ SP ∉ r.1 := fun h1 h2 h3 => h2 r.1 (h1 ▸ List.mem_map.2 ⟨r, h3, rfl⟩)
  refine key (rfl) ?_ hr
  cases s <;> simp only [Notified.rows, List.map_cons, List.map_nil] <;> decide

theorem notified_plain {s : Notified} (h : s.Ok) : ∀ p ∈ presentTags s.rows, Unescaped p.2 := by
  apply presentTags_forall
  cases s with
  | happened x => simp [Notified.rows]
  | whispered who looks emotes to text =>
    simp only [Notified.rows, List.mem_cons, List.not_mem_nil, or_false, forall_eq_or_imp, forall_eq, Option.some.injEq, forall_eq']
    obtain ⟨h1, -, h2, h3, -, -⟩ := h
    exact ⟨badgeInfo_plain h2, badges_plain h2, color_plain h2, escape_plain _,
      h3, h1.1⟩
  | settings x =>
    simp only [Notified.rows, List.mem_cons, List.not_mem_nil, or_false, forall_eq_or_imp, forall_eq, Option.some.injEq, forall_eq']
    exact ⟨fun v hv => map_plain onOff_plain v hv, fun v hv => map_plain followers_plain v hv,
      fun v hv => map_plain onOff_plain v hv, h.channelId,
      fun v hv => map_plain showNat_plain v hv, fun v hv => map_plain onOff_plain v hv⟩
  | seenAs channel name looks sets =>
    simp only [Notified.rows, List.mem_cons, List.not_mem_nil, or_false, forall_eq_or_imp, forall_eq, Option.some.injEq, forall_eq']
    obtain ⟨-, h1, h2, h3⟩ := h
    exact ⟨badgeInfo_plain h2, badges_plain h2, color_plain h2, h1,
      joinWith_plain fun s hs => (h3.2 s hs).1⟩
  | loggedIn id name looks sets =>
    simp only [Notified.rows, List.mem_cons, List.not_mem_nil, or_false, forall_eq_or_imp, forall_eq, Option.some.injEq, forall_eq']
    obtain ⟨h1, h2, h3⟩ := h
    exact ⟨badgeInfo_plain h2, badges_plain h2, color_plain h2, escape_plain _,
      joinWith_plain fun s hs => (h3.2 s hs).1, h1⟩
  | noticed channel id text =>
    simp only [Notified.rows, List.mem_cons, List.not_mem_nil, or_false, forall_eq, Option.some.injEq, forall_eq']
    exact h.2
  | refused text => simp [Notified.rows]

theorem sets_read {l : Line} {sets : List Bytes} (h : SetsOk sets) (ht : l.tag (b!"emote-sets") = some (joinWith COMMA sets)) :
    EmoteSetsOf l sets := by
  unfold EmoteSetsOf
  rw [ht]
  exact (fields_joinWith COMMA sets h.1 fun s hs => (h.2 s hs).2).symm

/-- What the server says, read by the grammar and as a typed message. -/
theorem notified_line {s : Notified} (h : s.Ok) :
    ∃ l, Spec.line s.line = some l ∧ ∃ m, MessageOf l m ∧ Learned s m ∧ (∀ m', m ≠ .other m') ∧
      (l.command = b!"ROOMSTATE" → ¬ FollowersOverflow l) := by
  have noFollow : ∀ {l : Line}, l.tag (b!"followers-only") = none → l.command = b!"ROOMSTATE" → ¬ FollowersOverflow l := by
    rintro l hl - ⟨v, n, hv, -⟩
    rw [hl] at hv
    cases hv
  have hk := notified_keys s
  have hv := notified_plain h
  have hlook := fun (l : Line) (hl : l.tags = presentTags s.rows) (k : Bytes) (o : Option Bytes) hm =>
    (show l.tag k = lookup k (presentTags s.rows) by rw [Line.tag, hl]).trans
      (lookup_presentTags (k := k) (o := o) (notified_nodup s) hm)
  have hnone := fun (l : Line) (hl : l.tags = presentTags s.rows) (k : Bytes) hm =>
    (show l.tag k = lookup k (presentTags s.rows) by rw [Line.tag, hl]).trans (lookup_presentTags_none (k := k) hm)
  cases s with
  | happened x =>
    obtain ⟨l, hl, v, h1, h2⟩ := happening_line h
    refine ⟨l, hl, _, h1, ⟨v, rfl, h2⟩, by simp, fun hc => ?_⟩
    rw [h1.1] at hc
    exact absurd hc (by decide)
  | whispered who looks emotes to text =>
    obtain ⟨h1, h2, h3, h4, h5, h6⟩ := h
    have hl := frame_other (f := ⟨presentTags (Notified.rows (.whispered who looks emotes to text)), userPrefix who.login, b!"WHISPER", to⟩)
      ⟨hk, fun p hq => ⟨(hv p hq).2, (hv p hq).1⟩, userPrefix_space h2.1.1, (by decide : SP ∉ b!"WHISPER" ∧ b!"WHISPER" ≠ []), h5⟩ h6 text
    generalize hline : (⟨presentTags _, _, _, _, _⟩ : Line) = l at hl
    have hlk := hlook l (by rw [← hline])
    have tinfo := hlk (b!"badge-info") (some (renderEntries looks.badgeInfo)) (by simp [Notified.rows])
    have tbadges := hlk (b!"badges") (some (renderEntries looks.badges)) (by simp [Notified.rows])
    have tcolor := hlk (b!"color") (some (looks.color.getD [])) (by simp [Notified.rows])
    have tname := hlk (b!"display-name") (some (enc (escape who.name))) (by simp [Notified.rows])
    have temotes := hlk (b!"emotes") (some emotes) (by simp [Notified.rows])
    have tuser := hlk (b!"user-id") (some who.id) (by simp [Notified.rows])
    obtain ⟨bs, hb, hb'⟩ := looks_read h3 tbadges tinfo
    refine ⟨l, ?_, .whisper ⟨to, ⟨who.id, who.login, enc (escape who.name)⟩, text, bs, emotes, looks.color⟩,
      ⟨by rw [← hline], by rw [← hline], fun a b e => first_of_space h5 e, tuser, ?_, tname, hb, ?_, ?_⟩,
      ⟨_, rfl, personRead_of, hb', rfl, rfl, rfl⟩, by simp,
      noFollow (hnone l (by rw [← hline]) _ (by simp only [Notified.rows, List.map_cons, List.map_nil]; decide))⟩
    · rw [← hl, frame_eq]; simp [Notified.line]
    · rw [← hline]; simp [Line.nick, userPrefix_nick h2]
    · rw [temotes]; rfl
    · rw [tcolor]; exact color_read h3
  | settings x =>
    have hl := bare_line (tags := presentTags (Notified.rows (.settings x))) (pfx := b!"tmi.twitch.tv") (cmd := b!"ROOMSTATE")
      (chan := HASH :: x.channel) hk hv (by decide) (by decide) rfl (by simp [h.channel]; decide)
    generalize hline : (⟨presentTags _, _, _, _, _⟩ : Line) = l at hl
    have hlk := hlook l (by rw [← hline])
    have t1 := hlk (b!"emote-only") (x.emoteOnly.map onOff) (by simp [Notified.rows])
    have t2 := hlk (b!"followers-only") (x.followers.map (·.shown)) (by simp [Notified.rows])
    have t3 := hlk (b!"r9k") (x.unique.map onOff) (by simp [Notified.rows])
    have t4 := hlk (b!"room-id") (some x.channelId) (by simp [Notified.rows])
    have t5 := hlk (b!"slow") (x.slow.map showNat) (by simp [Notified.rows])
    have t6 := hlk (b!"subs-only") (x.subsOnly.map onOff) (by simp [Notified.rows])
    have hf : ∀ f, x.followers = some f → ∀ n, f = .minutes n → 0 < n ∧ n ≤ 153722867280912930 := by
      rintro f hf n rfl
      exact h.followers n hf
    refine ⟨l, ?_, .roomState ⟨HASH :: x.channel, x.channelId, x.emoteOnly, x.followers.map (·.read), x.unique,
        x.slow.map (· * 1000000000), x.subsOnly⟩,
      ⟨by rw [← hline], by rw [← hline], t4, ?_, ?_, ?_, ?_, ?_⟩, ⟨_, rfl, rfl, rfl, rfl, rfl, rfl, rfl, rfl⟩, by simp, ?_⟩
    · rw [← hl]; simp [Notified.line]
    · rw [t1]; exact optBool_show
    · intro f
      rw [t2]
      cases hx : x.followers with
      | none => simp
      | some g =>
        simp only [Option.map_some, Option.some.injEq, exists_eq_left', followers_show (hf g hx)]
        exact eq_comm
    · rw [t3]; exact optBool_show
    · rw [t5]; exact optSecs_show h.slow
    · rw [t6]; exact optBool_show
    · rintro - ⟨v, n, hv, hn, hm⟩
      rw [t2] at hv
      cases hx : x.followers with
      | none => rw [hx] at hv; cases hv
      | some g =>
        rw [hx] at hv
        simp only [Option.map_some, Option.some.injEq] at hv
        subst hv
        unfold maxMinutes at hm
        cases g with
        | off =>
          have := intText_unique hn.1 (m := -1) (.inr ⟨b!"1", ⟨by decide, by decide⟩, rfl, by decide⟩)
          omega
        | any =>
          have := intText_unique hn.1 (m := 0) (.inl ⟨0, ⟨b!"0", ⟨by decide, by decide⟩, .inl rfl, by decide⟩, rfl⟩)
          omega
        | minutes k =>
          have h1 := intText_unique hn.1 (.inl ⟨k, isNat_showNat k, rfl⟩)
          have h2 := h.followers k hx
          omega
  | seenAs channel name looks sets =>
    obtain ⟨h1, h2, h3, h4⟩ := h
    have hl := bare_line (tags := presentTags (Notified.rows (.seenAs channel name looks sets))) (pfx := b!"tmi.twitch.tv")
      (cmd := b!"USERSTATE") (chan := HASH :: channel) hk hv (by decide) (by decide) rfl (by simp [h1]; decide)
    generalize hline : (⟨presentTags _, _, _, _, _⟩ : Line) = l at hl
    have hlk := hlook l (by rw [← hline])
    have tinfo := hlk (b!"badge-info") (some (renderEntries looks.badgeInfo)) (by simp [Notified.rows])
    have tbadges := hlk (b!"badges") (some (renderEntries looks.badges)) (by simp [Notified.rows])
    have tcolor := hlk (b!"color") (some (looks.color.getD [])) (by simp [Notified.rows])
    have tname := hlk (b!"display-name") (some name) (by simp [Notified.rows])
    have tsets := hlk (b!"emote-sets") (some (joinWith COMMA sets)) (by simp [Notified.rows])
    obtain ⟨bs, hb, hb'⟩ := looks_read h3 tbadges tinfo
    refine ⟨l, ?_, .userState { channel := HASH :: channel, userName := name, badges := bs, emoteSets := sets, color := looks.color },
      ⟨by rw [← hline], by rw [← hline], tname, hb, sets_read h4 tsets, ?_⟩, ⟨_, rfl, rfl, rfl, hb', rfl, rfl⟩, by simp,
      noFollow (hnone l (by rw [← hline]) _ (by simp only [Notified.rows, List.map_cons, List.map_nil]; decide))⟩
    · rw [← hl]; simp [Notified.line]
    · rw [tcolor]; exact color_read h3
  | loggedIn id name looks sets =>
    obtain ⟨h1, h3, h4⟩ := h
    have hl := command_line (tags := presentTags (Notified.rows (.loggedIn id name looks sets))) (pfx := b!"tmi.twitch.tv")
      (cmd := b!"GLOBALUSERSTATE") hk hv (by decide) (by decide)
    generalize hline : (⟨presentTags _, _, _, _, _⟩ : Line) = l at hl
    have hlk := hlook l (by rw [← hline])
    have tinfo := hlk (b!"badge-info") (some (renderEntries looks.badgeInfo)) (by simp [Notified.rows])
    have tbadges := hlk (b!"badges") (some (renderEntries looks.badges)) (by simp [Notified.rows])
    have tcolor := hlk (b!"color") (some (looks.color.getD [])) (by simp [Notified.rows])
    have tname := hlk (b!"display-name") (some (enc (escape name))) (by simp [Notified.rows])
    have tsets := hlk (b!"emote-sets") (some (joinWith COMMA sets)) (by simp [Notified.rows])
    have tuser := hlk (b!"user-id") (some id) (by simp [Notified.rows])
    obtain ⟨bs, hb, hb'⟩ := looks_read h3 tbadges tinfo
    refine ⟨l, ?_, .globalUserState { id, name := enc (escape name), badges := bs, emoteSets := sets, color := looks.color },
      ⟨by rw [← hline], tuser, tname, hb, sets_read h4 tsets, ?_⟩,
      ⟨_, rfl, rfl, fun hr => Props.gives_back rfl _ hr rfl, hb', rfl, rfl⟩, by simp,
      noFollow (hnone l (by rw [← hline]) _ (by simp only [Notified.rows, List.map_cons, List.map_nil]; decide))⟩
    · rw [← hl]; simp [Notified.line]
    · rw [tcolor]; exact color_read h3
  | noticed channel id text =>
    have hl := text_line (tags := presentTags (Notified.rows (.noticed channel id text))) (pfx := b!"tmi.twitch.tv")
      (cmd := b!"NOTICE") (chan := HASH :: channel) hk hv (by decide) (by decide) rfl (by simp [h.1]; decide) text
    generalize hline : (⟨presentTags _, _, _, _, _⟩ : Line) = l at hl
    have tid := hlook l (by rw [← hline]) (b!"msg-id") (some id) (by simp [Notified.rows])
    refine ⟨l, ?_, .notice { channel := some (HASH :: channel), text, id := some id },
      ⟨by rw [← hline], by rw [← hline], ?_, tid⟩, ⟨_, rfl, rfl, rfl, rfl⟩, by simp,
      noFollow (hnone l (by rw [← hline]) _ (by simp only [Notified.rows, List.map_cons, List.map_nil]; decide))⟩
    · rw [← hl]; simp [Notified.line]
    · rw [← hline]; simp [Line.text, textOf_colon]
  | refused text =>
    have hl : Spec.line (b!":tmi.twitch.tv NOTICE * :" ++ text) =
        some ⟨[], some (b!"tmi.twitch.tv"), b!"NOTICE", none, some (b!"* :" ++ text)⟩ := by
      unfold Spec.line
      rw [takeTags_other (by simp; decide)]
      simp only []
      rw [show b!":tmi.twitch.tv NOTICE * :" ++ text = COLON :: (b!"tmi.twitch.tv" ++ SP :: (b!"NOTICE" ++ SP :: (b!"* :" ++ text))) by simp,
        takePrefix_space _ (by decide)]
      simp only []
      rw [takeToken_space (by decide)]
      simp only []
      rw [takeChannel_other (by simp; decide), if_neg (by decide)]
      simp
    refine ⟨_, hl, .notice { channel := none, text, id := none }, ⟨rfl, rfl, ?_, rfl⟩, ⟨_, rfl, rfl, rfl, rfl⟩, by simp, noFollow rfl⟩
    simp only [Line.text, Option.map_some, textOf]
    rw [show b!"* :" ++ text = b!"* " ++ COLON :: text by simp, cut_append _ (by decide)]

end Tmi.Proofs
