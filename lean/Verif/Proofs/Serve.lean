/-
Lemmas: the lines that the server sends, read back.
-/
import Verif.Spec.Serve
import Verif.Proofs.Chatter

namespace Tmi.Proofs
open Tmi.Model Tmi.Spec

theorem lookup_presentTags {rows : List (Bytes × Option Bytes)} (hn : (rows.map (·.1)).Nodup) {k : Bytes}
    {o : Option Bytes} (h : (k, o) ∈ rows) : lookup k (presentTags rows) = o := by
  induction rows with
  | nil => simp at h
  | cons r rs ih =>
    obtain ⟨j, u⟩ := r
    simp only [List.map_cons, List.nodup_cons] at hn
    rcases List.mem_cons.1 h with h | h
    · cases h
      cases o with
      | some v => simp [presentTags, lookup]
      | none =>
        simp only [presentTags, List.filterMap_cons, Option.map_none]
        refine lookup_eq_none.2 fun p hp hk => hn.1 ?_
        obtain ⟨⟨i, w⟩, hm, hw⟩ := List.mem_filterMap.1 hp
        cases w with
        | none => simp at hw
        | some w =>
          simp only [Option.map_some, Option.some.injEq] at hw
          rw [← hw] at hk
          exact List.mem_map.2 ⟨_, hm, hk⟩
    · have hj : j ≠ k := fun e => hn.1 (e ▸ List.mem_map.2 ⟨_, h, rfl⟩)
      have := ih hn.2 h
      cases u with
      | none => simpa [presentTags] using this
      | some u => simpa [presentTags, lookup, hj] using this

theorem lookup_presentTags_none {rows : List (Bytes × Option Bytes)} {k : Bytes} (h : k ∉ rows.map (·.1)) :
    lookup k (presentTags rows) = none := by
  refine lookup_eq_none.2 fun p hp hk => h ?_
  obtain ⟨⟨i, w⟩, hm, hw⟩ := List.mem_filterMap.1 hp
  cases w with
  | none => simp at hw
  | some w =>
    simp only [Option.map_some, Option.some.injEq] at hw
    rw [← hw] at hk
    exact List.mem_map.2 ⟨_, hm, hk⟩

theorem presentTags_forall {rows : List (Bytes × Option Bytes)} {P : Bytes × Bytes → Prop}
    (h : ∀ r ∈ rows, ∀ v, r.2 = some v → P (r.1, v)) : ∀ p ∈ presentTags rows, P p := by
  intro p hp
  obtain ⟨⟨i, w⟩, hm, hw⟩ := List.mem_filterMap.1 hp
  cases w with
  | none => simp at hw
  | some w =>
    simp only [Option.map_some, Option.some.injEq] at hw
    exact hw ▸ h _ hm w rfl

/-- Reading back a list of entries. -/
theorem entries_render {es : List (Bytes × Bytes)} (h : ∀ e ∈ es, COMMA ∉ e.1 ∧ SLASH ∉ e.1 ∧ COMMA ∉ e.2) :
    entries (renderEntries es) = es := by
  by_cases hn : es = []
  · subst hn; decide +kernel
  · unfold entries renderEntries
    rw [fields_joinWith COMMA _ (by simpa using hn)]
    · clear hn
      induction es with
      | nil => rfl
      | cons e es ih =>
        rw [List.map_cons, List.filterMap_cons, cut_append _ (h e (by simp)).2.1]
        simp only []
        rw [ih fun e he => h e (by simp [he])]
    · intro p hp
      obtain ⟨e, he, rfl⟩ := List.mem_map.1 hp
      have := h e he
      simp [this.1, this.2.2, show COMMA ≠ SLASH by decide]

/-- Bytes of a list of entries. -/
theorem mem_renderEntries {x : UInt8} : ∀ {es : List (Bytes × Bytes)}, x ≠ COMMA → x ≠ SLASH →
    (∀ e ∈ es, x ∉ e.1 ∧ x ∉ e.2) → x ∉ renderEntries es
  | [], _, _, _ => by simp [renderEntries, joinWith]
  | [e], h1, h2, h => by
    have := h e (by simp)
    simp [renderEntries, joinWith, this.1, this.2, h2]
  | e :: f :: es, h1, h2, h => by
    have he := h e (by simp)
    have := mem_renderEntries (es := f :: es) h1 h2 fun e he => h e (by simp [he])
    simp only [renderEntries, List.map_cons] at this ⊢
    rw [joinWith]
    · simp only [List.mem_append, List.mem_cons, not_or]
      exact ⟨⟨he.1, h2, he.2⟩, h1, this⟩
    · simp

theorem showNat_plain (n : Nat) : Unescaped (showNat n) := by
  have h := (showNat_spec n).1.2
  constructor <;> intro hm <;> have := h _ hm <;> revert this <;> decide

theorem isNat_showNat (n : Nat) : IsNat (showNat n) n := ⟨_, (showNat_spec n).1, .inl rfl, (showNat_spec n).2⟩

theorem escape_plain (t : List Char) : Unescaped (enc (escape t)) :=
  ⟨(Props.C18_escape_safe t).1, (Props.C18_escape_safe t).2.1⟩

/-- A text denotes one number only. -/
theorem isNat_unique {s : Bytes} {n m : Nat} (h : IsNat s n) (h' : IsNat s m) : n = m := by
  obtain ⟨d, h1, h2, rfl⟩ := h
  obtain ⟨d', h1', h2', rfl⟩ := h'
  have key : ∀ d : Bytes, Digits d → d.head? ≠ some 0x2B := by
    intro d hd e
    cases d with
    | nil => simp at e
    | cons x t =>
      simp at e; subst e
      have := hd.2 _ (by simp : (0x2B : UInt8) ∈ (0x2B :: t))
      revert this; decide
  rcases h2 with rfl | rfl <;> rcases h2' with h | h
  · rw [h]
  · subst h; exact absurd rfl (key _ h1)
  · subst h; exact absurd rfl (key _ h1')
  · cases h; rfl

/-- The frame of a chat message. -/
theorem chat_frame {c : Chat} (h : c.Ok) : Frame.Ok
    ⟨c.tags, c.login ++ [BANG] ++ c.login ++ [AT] ++ c.login ++ b!".tmi.twitch.tv", b!"PRIVMSG", HASH :: c.channel⟩ := by
  have hids := h.ids
  simp only [List.mem_cons, List.not_mem_nil, or_false, forall_eq_or_imp, forall_eq] at hids
  have hp : ∀ p ∈ c.tags, (EQS ∉ p.1 ∧ SP ∉ p.1) ∧ Unescaped p.2 := by
    unfold Chat.tags
    apply presentTags_forall
    have hr : ∀ {f : Quoted → Bytes}, (∀ q, c.reply = some q → Unescaped (f q)) → ∀ v, c.reply.map f = some v → Unescaped v := by
      intro f hf v hv
      obtain ⟨q, hq, rfl⟩ := Option.map_eq_some_iff.1 hv
      exact hf q hq
    have hq : ∀ q, c.reply = some q →
        Unescaped q.id ∧ Unescaped q.userId ∧ Unescaped q.login ∧ Unescaped q.threadId ∧ Unescaped q.threadLogin := by
      intro q hq
      have := h.reply q hq
      simpa only [List.mem_cons, List.not_mem_nil, or_false, forall_eq_or_imp, forall_eq] using this
    have he : ∀ es, (∀ e ∈ es, e ∈ c.badges ++ c.badgeInfo) → Unescaped (renderEntries es) := by
      intro es hes
      exact ⟨mem_renderEntries (by decide) (by decide) fun e he => ⟨(h.badges e (hes e he)).1.1, (h.badges e (hes e he)).2.1.1⟩,
        mem_renderEntries (by decide) (by decide) fun e he => ⟨(h.badges e (hes e he)).1.2, (h.badges e (hes e he)).2.1.2⟩⟩
    simp only [List.mem_cons, List.not_mem_nil, or_false, forall_eq_or_imp, forall_eq, Option.some.injEq, forall_eq']
    refine ⟨⟨by decide, he _ (by simp +contextual)⟩, ⟨by decide, he _ (by simp +contextual)⟩, fun v hv => ⟨by decide, ?_⟩,
      ⟨by decide, ?_⟩, fun v hv => ⟨by decide, (h.rewardId v hv).1⟩, ⟨by decide, escape_plain _⟩, ⟨by decide, hids.2.2.2⟩,
      ⟨by decide, hids.2.1⟩, fun v hv => ⟨by decide, h.msgId v hv⟩,
      fun v hv => ⟨by decide, hr (fun q _ => escape_plain _) v hv⟩, fun v hv => ⟨by decide, hr (fun q _ => escape_plain _) v hv⟩,
      fun v hv => ⟨by decide, hr (fun q e => (hq q e).1) v hv⟩, fun v hv => ⟨by decide, hr (fun q e => (hq q e).2.1) v hv⟩,
      fun v hv => ⟨by decide, hr (fun q e => (hq q e).2.2.1) v hv⟩,
      fun v hv => ⟨by decide, hr (fun q e => (hq q e).2.2.2.1) v hv⟩,
      fun v hv => ⟨by decide, hr (fun q e => (hq q e).2.2.2.2) v hv⟩, ⟨by decide, hids.1⟩, ⟨by decide, showNat_plain _⟩,
      ⟨by decide, hids.2.2.1⟩⟩
    · obtain ⟨n, hn, rfl⟩ := Option.map_eq_some_iff.1 hv
      exact showNat_plain n
    · cases hc : c.color with
      | none => simp [Unescaped]
      | some s => exact (h.color s hc).1
  refine ⟨fun p hp' => (hp p hp').1, fun p hp' => ⟨(hp p hp').2.2, (hp p hp').2.1⟩, ?_, by simp; decide, ?_⟩
  · have := h.login.1.1
    simp [this]; decide
  · simp [h.channel]; decide

/-- The nick in the prefix. -/
theorem nick_login {n rest : Bytes} (h1 : BANG ∉ rest) : nickOf (n ++ BANG :: rest) = some n := by
  unfold nickOf; rw [cutLast_append n h1]

/-- A line without text from the server. -/
theorem bare_line {tags : List (Bytes × Bytes)} {pfx cmd chan : Bytes}
    (hk : ∀ p ∈ tags, EQS ∉ p.1 ∧ SP ∉ p.1) (hv : ∀ p ∈ tags, Unescaped p.2)
    (hp : SP ∉ pfx) (hc : SP ∉ cmd ∧ cmd ≠ []) (hch : chan.head? = some HASH) (hsp : SP ∉ chan) :
    Spec.line (AT :: (renderTags tags ++ SP :: (COLON :: (pfx ++ SP :: (cmd ++ SP :: chan))))) =
      some ⟨tags, some pfx, cmd, some chan, none⟩ := by
  unfold Spec.line
  rw [takeTags_space _ (renderTags_no_space _ fun p h => ⟨(hk p h).2, (hv p h).1⟩)]
  simp only []
  rw [takePrefix_space _ hp]
  simp only []
  rw [takeToken_space hc.1]
  simp only []
  rw [takeChannel_end hch hsp, if_neg hc.2, splitTags_render _ fun p h => ⟨(hk p h).1, (hv p h).2⟩]
  simp

/-- A line without tags and text. -/
theorem plain_bare_line {pfx cmd chan : Bytes} (hp : SP ∉ pfx) (hc : SP ∉ cmd ∧ cmd ≠ [])
    (hch : chan.head? = some HASH) (hsp : SP ∉ chan) :
    Spec.line (COLON :: (pfx ++ SP :: (cmd ++ SP :: chan))) = some ⟨[], some pfx, cmd, some chan, none⟩ := by
  unfold Spec.line
  rw [takeTags_other (by simp; decide)]
  simp only []
  rw [takePrefix_space _ hp]
  simp only []
  rw [takeToken_space hc.1]
  simp only []
  rw [takeChannel_end hch hsp, if_neg hc.2]
  simp

/-- A line with text from the server. -/
theorem text_line {tags : List (Bytes × Bytes)} {pfx cmd chan : Bytes}
    (hk : ∀ p ∈ tags, EQS ∉ p.1 ∧ SP ∉ p.1) (hv : ∀ p ∈ tags, Unescaped p.2)
    (hp : SP ∉ pfx) (hc : SP ∉ cmd ∧ cmd ≠ []) (hch : chan.head? = some HASH) (hsp : SP ∉ chan) (t : Bytes) :
    Spec.line (AT :: (renderTags tags ++ SP :: (COLON :: (pfx ++ SP :: (cmd ++ SP :: (chan ++ SP :: (COLON :: t))))))) =
      some ⟨tags, some pfx, cmd, some chan, some (COLON :: t)⟩ := by
  have h := frame_channel (f := ⟨tags, pfx, cmd, chan⟩) ⟨hk, fun p h => ⟨(hv p h).2, (hv p h).1⟩, hp, hc, hsp⟩ hch t
  rwa [frame_eq] at h

/-- The point in time that is so many milliseconds after the start of 1970. -/
theorem timestamp_at {l : Line} {n : Nat} (h : l.tag (b!"tmi-sent-ts") = some (showNat n)) (hn : InChrono n) :
    ∃ t, TimestampOf l t ∧ AtMilli t n := by
  have : AtMilli ⟨n / 1000, (n % 1000) * 1000000, .inl (by omega)⟩ n := by
    constructor
    · simp only []; omega
    · simp only []; omega
  exact ⟨_, ⟨_, _, h, .inl ⟨_, isNat_showNat _, rfl⟩, hn, this⟩, this⟩

theorem text_actionText {action : Bool} {text : Bytes}
    (h : action = false → ¬ ∃ body, text = 0x01 :: b!"ACTION " ++ body ++ [0x01]) :
    TextOf (actionText action text) text action := by
  cases action with
  | true => exact .inl ⟨rfl, rfl⟩
  | false => exact .inr ⟨rfl, rfl, h rfl⟩

theorem userPrefix_space {n : Bytes} (h : SP ∉ n) : SP ∉ userPrefix n := by
  simp [userPrefix, h]; decide

theorem userPrefix_nick {n : Bytes} (h : Login n) : nickOf (userPrefix n) = some n := by
  rw [show userPrefix n = n ++ BANG :: (n ++ [AT] ++ n ++ b!".tmi.twitch.tv") by simp [userPrefix]]
  apply nick_login
  have := h.2.1
  simp [this]; decide

/-- No name of a tag has characters that would end it. -/
theorem said_keys {s : Said} (hc : ∀ c, s ≠ .chat c) : ∀ p ∈ s.tags, EQS ∉ p.1 ∧ SP ∉ p.1 := by
  have key : ∀ ks : List Bytes, s.tags.map (·.1) = ks → (∀ k ∈ ks, EQS ∉ k ∧ SP ∉ k) → ∀ p ∈ s.tags, EQS ∉ p.1 ∧ SP ∉ p.1 := by
    intro ks h1 h2 p hp
    exact h2 p.1 (h1 ▸ List.mem_map.2 ⟨p, hp, rfl⟩)
  cases s with
  | chat c => exact absurd rfl (hc c)
  | _ => exact key _ rfl (by simp only [Said.tags, List.map_cons, List.map_nil]; decide)

/-- What the server says, other than chat messages, read by the grammar and as a typed message. -/
theorem said_line {s : Said} (h : s.Ok) (hc : ∀ c, s ≠ .chat c) :
    ∃ l, Spec.line s.line = some l ∧ ∃ m, MessageOf l m ∧ Heard s m ∧ ∀ m', m ≠ .other m' := by
  cases s with
  | chat c => exact absurd rfl (hc c)
  | cleared p =>
    have hl := bare_line (tags := Said.tags (.cleared p)) (pfx := b!"tmi.twitch.tv") (cmd := b!"CLEARCHAT")
      (chan := HASH :: p.channel) (said_keys hc)
      (by simp only [Said.tags, List.mem_cons, List.not_mem_nil, or_false, forall_eq_or_imp, forall_eq]
          exact ⟨h.channelId, showNat_plain _⟩) (by decide) (by decide) rfl (by simp [h.channel]; decide)
    generalize hline : (⟨Said.tags _, _, _, _, _⟩ : Line) = l at hl
    have h1 : l.tag (b!"room-id") = some p.channelId := by rw [← hline]; rfl
    have h2 : l.tag (b!"tmi-sent-ts") = some (showNat p.time) := by
      rw [← hline]; simp [Line.tag, Said.tags, lookup]
    obtain ⟨t, ht, ht'⟩ := timestamp_at h2 h.time
    refine ⟨l, ?_, .clearChat ⟨HASH :: p.channel, p.channelId, .clear, t⟩, ⟨by rw [← hline], by rw [← hline], h1, ?_, ht⟩,
      ⟨_, rfl, ⟨rfl, rfl, ht'⟩, rfl⟩, by simp⟩
    · rw [← hl]; simp [Said.line]
    · simp only []; rw [← hline]; rfl
  | banned p user userId =>
    obtain ⟨h, h'⟩ := h
    have hl := text_line (tags := Said.tags (.banned p user userId)) (pfx := b!"tmi.twitch.tv") (cmd := b!"CLEARCHAT")
      (chan := HASH :: p.channel) (said_keys hc)
      (by simp only [Said.tags, List.mem_cons, List.not_mem_nil, or_false, forall_eq_or_imp, forall_eq]
          exact ⟨h.channelId, h', showNat_plain _⟩) (by decide) (by decide) rfl (by simp [h.channel]; decide) user
    generalize hline : (⟨Said.tags _, _, _, _, _⟩ : Line) = l at hl
    have h1 : l.tag (b!"room-id") = some p.channelId := by rw [← hline]; rfl
    have h2 : l.tag (b!"tmi-sent-ts") = some (showNat p.time) := by
      rw [← hline]; simp [Line.tag, Said.tags, lookup]
    have h3 : l.tag (b!"target-user-id") = some userId := by
      rw [← hline]; simp [Line.tag, Said.tags, lookup]
    have h4 : l.tag (b!"ban-duration") = none := by
      rw [← hline]; simp [Line.tag, Said.tags, lookup]
    obtain ⟨t, ht, ht'⟩ := timestamp_at h2 h.time
    refine ⟨l, ?_, .clearChat ⟨HASH :: p.channel, p.channelId, .ban user userId, t⟩,
      ⟨by rw [← hline], by rw [← hline], h1, ⟨?_, h3, ?_⟩, ht⟩, ⟨_, rfl, ⟨rfl, rfl, ht'⟩, rfl⟩, by simp⟩
    · rw [← hl]; simp [Said.line]
    · rw [← hline]; simp [Line.text, textOf_colon]
    · intro d; rw [h4]; simp
  | timedOut p user userId n =>
    obtain ⟨h, h', hn⟩ := h
    have hl := text_line (tags := Said.tags (.timedOut p user userId n)) (pfx := b!"tmi.twitch.tv") (cmd := b!"CLEARCHAT")
      (chan := HASH :: p.channel) (said_keys hc)
      (by simp only [Said.tags, List.mem_cons, List.not_mem_nil, or_false, forall_eq_or_imp, forall_eq]
          exact ⟨showNat_plain _, h.channelId, h', showNat_plain _⟩) (by decide) (by decide) rfl (by simp [h.channel]; decide) user
    generalize hline : (⟨Said.tags _, _, _, _, _⟩ : Line) = l at hl
    have h1 : l.tag (b!"room-id") = some p.channelId := by
      rw [← hline]; simp [Line.tag, Said.tags, lookup]
    have h2 : l.tag (b!"tmi-sent-ts") = some (showNat p.time) := by
      rw [← hline]; simp [Line.tag, Said.tags, lookup]
    have h3 : l.tag (b!"target-user-id") = some userId := by
      rw [← hline]; simp [Line.tag, Said.tags, lookup]
    have h4 : l.tag (b!"ban-duration") = some (showNat n) := by rw [← hline]; rfl
    obtain ⟨t, ht, ht'⟩ := timestamp_at h2 h.time
    refine ⟨l, ?_, .clearChat ⟨HASH :: p.channel, p.channelId, .timeOut user userId (n * 1000000000), t⟩,
      ⟨by rw [← hline], by rw [← hline], h1, ⟨?_, h3, ?_⟩, ht⟩, ⟨_, rfl, ⟨rfl, rfl, ht'⟩, rfl⟩, by simp⟩
    · rw [← hl]; simp [Said.line]
    · rw [← hline]; simp [Line.text, textOf_colon]
    · intro d
      rw [h4]
      constructor
      · rintro ⟨⟩
        exact ⟨_, n, rfl, isNat_showNat n, hn, rfl⟩
      · rintro ⟨v, k, ⟨⟩, hk, -, rfl⟩
        rw [isNat_unique hk (isNat_showNat n)]
  | deleted p author id text action =>
    obtain ⟨h, ha, hi, hx⟩ := h
    have hl := text_line (tags := Said.tags (.deleted p author id text action)) (pfx := b!"tmi.twitch.tv")
      (cmd := b!"CLEARMSG") (chan := HASH :: p.channel) (said_keys hc)
      (by simp only [Said.tags, List.mem_cons, List.not_mem_nil, or_false, forall_eq_or_imp, forall_eq]
          exact ⟨ha, h.channelId, hi, showNat_plain _⟩) (by decide) (by decide) rfl (by simp [h.channel]; decide) (actionText action text)
    generalize hline : (⟨Said.tags _, _, _, _, _⟩ : Line) = l at hl
    have h1 : l.tag (b!"room-id") = some p.channelId := by
      rw [← hline]; simp [Line.tag, Said.tags, lookup]
    have h2 : l.tag (b!"tmi-sent-ts") = some (showNat p.time) := by
      rw [← hline]; simp [Line.tag, Said.tags, lookup]
    have h3 : l.tag (b!"target-msg-id") = some id := by
      rw [← hline]; simp [Line.tag, Said.tags, lookup]
    have h4 : l.tag (b!"login") = some author := by rw [← hline]; rfl
    obtain ⟨t, ht, ht'⟩ := timestamp_at h2 h.time
    refine ⟨l, ?_, .clearMsg { channel := HASH :: p.channel, channelId := p.channelId, sender := author, targetMessageId := id, text, isAction := action, timestamp := t },
      ⟨by rw [← hline], by rw [← hline], h1, h4, h3, ⟨_, ?_, text_actionText hx⟩, ht⟩,
      ⟨_, rfl, ⟨rfl, rfl, ht'⟩, rfl, rfl, rfl, rfl⟩, by simp⟩
    · rw [← hl]; simp [Said.line]
    · rw [← hline]; simp [Line.text, textOf_colon]
  | joined login channel =>
    have hl := plain_bare_line (pfx := userPrefix login) (cmd := b!"JOIN") (chan := HASH :: channel)
      (userPrefix_space h.1.1.1) (by decide) rfl (by simp [h.2]; decide)
    exact ⟨_, by rw [← hl]; simp [Said.line], .join ⟨HASH :: channel, login⟩,
      ⟨rfl, rfl, by simp [Line.nick, userPrefix_nick h.1]⟩, ⟨_, rfl, rfl, rfl⟩, by simp⟩
  | parted login channel =>
    have hl := plain_bare_line (pfx := userPrefix login) (cmd := b!"PART") (chan := HASH :: channel)
      (userPrefix_space h.1.1.1) (by decide) rfl (by simp [h.2]; decide)
    exact ⟨_, by rw [← hl]; simp [Said.line], .part ⟨HASH :: channel, login⟩,
      ⟨rfl, rfl, by simp [Line.nick, userPrefix_nick h.1]⟩, ⟨_, rfl, rfl, rfl⟩, by simp⟩

end Tmi.Proofs
