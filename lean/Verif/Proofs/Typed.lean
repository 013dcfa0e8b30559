/-
Each typed parser against its specification.
-/
import Verif.Proofs.Msg

namespace Tmi.Proofs
open Tmi.Model Tmi.Spec Tmi.Props

/-- The values that a parser returns are those a relation describes, and it never faults. -/
structure Exactly {α : Type} (x : R (Option α)) (P : α → Prop) : Prop where
  iff : ∀ p, x = .ok (some p) ↔ P p
  fine : Fine x

theorem tag_req {m : MsgRef} {l : Line} (hr : Represents m l) {β : Type} (t : Tag)
    (f : Bytes → OptionT R β) :
    (req (m.tag t) >>= f).run = (l.tag t.asStr).elim (.ok none) (fun a => (f a).run) := by
  rw [hr.tag, run_req]; rfl

theorem tag_get {m : MsgRef} {l : Line} (hr : Represents m l) {β : Type} (t : Tag)
    (f : Option Bytes → OptionT R β) :
    (get' (m.tag t) >>= f).run = (f (l.tag t.asStr)).run := by
  rw [hr.tag, run_get]; rfl

theorem text_req {m : MsgRef} {l : Line} (hr : Represents m l) {β : Type}
    (f : Bytes → OptionT R β) :
    (req m.text >>= f).run = l.text.elim (.ok none) (fun a => (f a).run) := by
  rw [hr.text, run_req]; rfl

theorem text_get {m : MsgRef} {l : Line} (hr : Represents m l) {β : Type}
    (f : Option Bytes → OptionT R β) :
    (get' m.text >>= f).run = (f l.text).run := by
  rw [hr.text, run_get]; rfl

theorem nick_req {m : MsgRef} {l : Line} (hr : Represents m l) {β : Type}
    (f : Bytes → OptionT R β) :
    (req (nickOf? m) >>= f).run = l.nick.elim (.ok none) (fun a => (f a).run) := by
  rw [nickOf?_eq hr, run_req]

theorem params_req {m : MsgRef} {l : Line} (hr : Represents m l) {β : Type}
    (f : Bytes → OptionT R β) :
    (req m.params >>= f).run = l.params.elim (.ok none) (fun a => (f a).run) := by
  rw [hr.params, run_req]

/-- The check of the command at the front of each parser. -/
theorem guard_exactly {m : MsgRef} {l : Line} (hr : Represents m l) {α : Type} {c : Command}
    (hc : ∀ s, c ≠ .other s) {k : OptionT R α} {P : α → Prop}
    (h : commandOf l.command = c → Exactly k.run P) :
    Exactly (OptionT.run do
      let y ← get' m.command
      if y ≠ c then failure
      k) (fun p => l.command = c.asStr ∧ P p) := by
  rw [hr.command, run_get]
  by_cases e : commandOf l.command = c
  · have e' := (commandOf_known hc _).1 e
    have : OptionT.run (do
        if commandOf l.command ≠ c then failure
        k) = k.run := by
      rw [if_neg (fun h => h e)]
    rw [this]
    obtain ⟨h1, h2⟩ := h e
    exact ⟨fun p => by rw [h1 p]; simp [e'], h2⟩
  · have e' : l.command ≠ c.asStr := fun h => e ((commandOf_known hc _).2 h)
    have : OptionT.run (do
        if commandOf l.command ≠ c then failure
        k) = .ok none := by
      rw [if_pos e]; rfl
    rw [this]
    exact ⟨fun p => by simp [e'], ⟨_, rfl⟩⟩

theorem ping_exactly {m : MsgRef} {l : Line} (hr : Represents m l) :
    Exactly (Ping.parse m) (fun p => l.command = b!"PING" ∧ PingOf l p) := by
  refine guard_exactly (c := .ping) hr (by simp) (fun e => ?_)
  rw [text_get hr, run_pure]
  refine ⟨fun p => ?_, ⟨_, rfl⟩⟩
  constructor
  · rintro h; simp at h; subst h; exact ⟨rfl⟩
  · rintro ⟨h⟩; rw [h]

theorem pong_exactly {m : MsgRef} {l : Line} (hr : Represents m l) :
    Exactly (Pong.parse m) (fun p => l.command = b!"PONG" ∧ PongOf l p) := by
  refine guard_exactly (c := .pong) hr (by simp) (fun e => ?_)
  rw [text_get hr, run_pure]
  refine ⟨fun p => ?_, ⟨_, rfl⟩⟩
  constructor
  · rintro h; simp at h; subst h; exact ⟨rfl⟩
  · rintro ⟨h⟩; rw [h]

theorem join_exactly {m : MsgRef} {l : Line} (hr : Represents m l) :
    Exactly (Model.Join.parse m) (fun p => l.command = b!"JOIN" ∧ JoinOf l p) := by
  refine guard_exactly (c := .join) hr (by simp) (fun e => ?_)
  rw [channel_eq hr e (by simp) (by simp)]
  simp only [run_req, nick_req hr, run_pure]
  refine ⟨fun p => ?_, .elim fun _ => .elim fun _ => .ok _⟩
  simp only [elim_some, Except.ok.injEq, Option.some.injEq]
  constructor
  · rintro ⟨c, h1, n, h2, rfl⟩; exact ⟨h1, h2⟩
  · rintro ⟨h1, h2⟩; exact ⟨_, h1, _, h2, rfl⟩

theorem part_exactly {m : MsgRef} {l : Line} (hr : Represents m l) :
    Exactly (Part.parse m) (fun p => l.command = b!"PART" ∧ PartOf l p) := by
  refine guard_exactly (c := .part) hr (by simp) (fun e => ?_)
  rw [channel_eq hr e (by simp) (by simp)]
  simp only [run_req, nick_req hr, run_pure]
  refine ⟨fun p => ?_, .elim fun _ => .elim fun _ => .ok _⟩
  simp only [elim_some, Except.ok.injEq, Option.some.injEq]
  constructor
  · rintro ⟨c, h1, n, h2, rfl⟩; exact ⟨h1, h2⟩
  · rintro ⟨h1, h2⟩; exact ⟨_, h1, _, h2, rfl⟩

theorem notice_exactly {m : MsgRef} {l : Line} (hr : Represents m l) :
    Exactly (Notice.parse m) (fun p => l.command = b!"NOTICE" ∧ NoticeOf l p) := by
  refine guard_exactly (c := .notice) hr (by simp) (fun e => ?_)
  rw [channel_eq hr e (by simp) (by simp)]
  simp only [run_get, text_req hr, tag_get hr, run_pure]
  refine ⟨fun p => ?_, .elim fun _ => .ok _⟩
  simp only [elim_some, Except.ok.injEq, Option.some.injEq]
  constructor
  · rintro ⟨c, h1, rfl⟩; exact ⟨rfl, h1, rfl⟩
  · rintro ⟨h1, h2, h3⟩
    refine ⟨_, h2, ?_⟩
    cases p; simp at h1 h3 ⊢; exact ⟨h1, h3⟩

theorem clearMsg_exactly {m : MsgRef} {l : Line} (hr : Represents m l) :
    Exactly (ClearMsg.parse m) (fun p => l.command = b!"CLEARMSG" ∧ ClearMsgOf l p) := by
  refine guard_exactly (c := .clearMsg) hr (by simp) (fun e => ?_)
  rw [channel_eq hr e (by simp) (by simp)]
  simp only [run_req, run_some?, text_req hr, tag_req hr, run_pure]
  refine ⟨fun p => ?_, .elim fun _ => .elim fun _ => .elim fun _ => .elim fun _ => .elim fun _ =>
    .elim fun _ => .elim fun _ => .ok _⟩
  simp only [elim_some, Except.ok.injEq, Option.some.injEq]
  constructor
  · rintro ⟨t, h1, c, h2, i, h3, s, h4, j, h5, v, h6, ts, h7, rfl⟩
    exact ⟨h2, h3, h4, h5, ⟨t, h1, (text_iff _ _ _).1 rfl⟩, (timestamp_iff' _ _).1 ⟨v, h6, h7⟩⟩
  · rintro ⟨h2, h3, h4, h5, ⟨t, h1, ht⟩, h6⟩
    obtain ⟨v, h6, h7⟩ := (timestamp_iff' _ _).2 h6
    refine ⟨t, h1, _, h2, _, h3, _, h4, _, h5, v, h6, _, h7, ?_⟩
    rw [(text_iff _ _ _).2 ht]

theorem globalUserState_exactly {m : MsgRef} {l : Line} (hr : Represents m l) :
    Exactly (GlobalUserState.parse m)
      (fun p => l.command = b!"GLOBALUSERSTATE" ∧ GlobalUserStateOf l p) := by
  refine guard_exactly (c := .globalUserState) hr (by simp) (fun e => ?_)
  obtain ⟨bs, hb1, hb2⟩ := badgesOf_iff hr
  rw [hb1]
  simp only [run_get, tag_req hr, tag_get hr, run_pure]
  refine ⟨fun p => ?_, .elim fun _ => .elim fun _ => .ok _⟩
  simp only [elim_some, Except.ok.injEq, Option.some.injEq]
  constructor
  · rintro ⟨c, h1, n, h2, rfl⟩
    exact ⟨h1, h2, (hb2 _).1 rfl, (emoteSets_iff _ _).1 rfl, (optText_iff _ _).1 rfl⟩
  · rintro ⟨h1, h2, h3, h4, h5⟩
    refine ⟨_, h1, _, h2, ?_⟩
    rw [← hb2] at h3
    rw [← emoteSets_iff] at h4
    rw [← optText_iff] at h5
    cases p; rw [GlobalUserState.mk.injEq]; exact ⟨rfl, rfl, h3, h4, h5⟩

theorem userState_exactly {m : MsgRef} {l : Line} (hr : Represents m l) :
    Exactly (UserState.parse m) (fun p => l.command = b!"USERSTATE" ∧ UserStateOf l p) := by
  refine guard_exactly (c := .userState) hr (by simp) (fun e => ?_)
  rw [channel_eq hr e (by simp) (by simp)]
  obtain ⟨bs, hb1, hb2⟩ := badgesOf_iff hr
  rw [hb1]
  simp only [run_req, run_get, tag_req hr, tag_get hr, run_pure]
  refine ⟨fun p => ?_, .elim fun _ => .elim fun _ => .ok _⟩
  simp only [elim_some, Except.ok.injEq, Option.some.injEq]
  constructor
  · rintro ⟨c, h1, n, h2, rfl⟩
    exact ⟨h1, h2, (hb2 _).1 rfl, (emoteSets_iff _ _).1 rfl, (optText_iff _ _).1 rfl⟩
  · rintro ⟨h1, h2, h3, h4, h5⟩
    refine ⟨_, h1, _, h2, ?_⟩
    rw [← hb2] at h3
    rw [← emoteSets_iff] at h4
    rw [← optText_iff] at h5
    cases p; rw [UserState.mk.injEq]; exact ⟨rfl, rfl, h3, h4, h5⟩

theorem clearChat_exactly {m : MsgRef} {l : Line} (hr : Represents m l) :
    Exactly (ClearChat.parse m) (fun p => l.command = b!"CLEARCHAT" ∧ ClearChatOf l p) := by
  refine guard_exactly (c := .clearChat) hr (by simp) (fun e => ?_)
  rw [channel_eq hr e (by simp) (by simp)]
  simp only [run_req, text_get hr, tag_req hr, tag_get hr]
  have hd : ∀ r, (l.tag Tag.banDuration.asStr).bind parseDuration = r ↔
      OptSecs (l.tag (b!"ban-duration")) r := fun r => by
    rw [← optSecs_iff]
    show (l.tag (b!"ban-duration")).bind parseDuration = r ↔ _
    cases l.tag (b!"ban-duration") <;> rfl
  cases h1 : l.text with
  | none =>
    simp only [run_pure_bind, run_some?, tag_req hr, run_pure]
    refine ⟨fun p => ?_, .elim fun _ => .elim fun _ => .elim fun _ => .elim fun _ => .ok _⟩
    simp only [elim_some, Except.ok.injEq, Option.some.injEq]
    constructor
    · rintro ⟨c, h2, i, h3, v, h4, ts, h5, rfl⟩
      exact ⟨h2, h3, h1, (timestamp_iff' _ _).1 ⟨v, h4, h5⟩⟩
    · rintro ⟨h2, h3, h, h4⟩
      obtain ⟨v, h4, h5⟩ := (timestamp_iff' _ _).2 h4
      refine ⟨_, h2, _, h3, v, h4, _, h5, ?_⟩
      split at h <;> rename_i ha
      · cases p; simp at ha; simp [ha]
      · rw [h1] at h; simp at h
      · rw [h1] at h; simp at h
  | some t =>
    cases h2 : (l.tag Tag.banDuration.asStr).bind parseDuration with
    | none =>
      have hn := (hd _).1 h2
      simp only [run_pure_bind, run_some?, tag_req hr, run_pure]
      refine ⟨fun p => ?_, .elim fun _ => .elim fun _ => .elim fun _ => .elim fun _ =>
        .elim fun _ => .ok _⟩
      simp only [elim_some, Except.ok.injEq, Option.some.injEq]
      constructor
      · rintro ⟨c, h3, i, h4, j, h5, v, h6, ts, h7, rfl⟩
        exact ⟨h3, h4, ⟨h1, h5, hn⟩, (timestamp_iff' _ _).1 ⟨v, h6, h7⟩⟩
      · rintro ⟨h3, h4, h, h6⟩
        obtain ⟨v, h6, h7⟩ := (timestamp_iff' _ _).2 h6
        split at h <;> rename_i ha
        · rw [h1] at h; simp at h
        · refine ⟨_, h3, _, h4, _, h.2.1, v, h6, _, h7, ?_⟩
          rw [h1] at h; simp at h
          cases p; simp at ha; simp [ha, h.1]
        · rw [← hd, h2] at h; simp at h
    | some d =>
      have hn := (hd _).1 h2
      simp only [run_pure_bind, run_some?, tag_req hr, run_pure]
      refine ⟨fun p => ?_, .elim fun _ => .elim fun _ => .elim fun _ => .elim fun _ =>
        .elim fun _ => .ok _⟩
      simp only [elim_some, Except.ok.injEq, Option.some.injEq]
      constructor
      · rintro ⟨c, h3, i, h4, j, h5, v, h6, ts, h7, rfl⟩
        exact ⟨h3, h4, ⟨h1, h5, hn⟩, (timestamp_iff' _ _).1 ⟨v, h6, h7⟩⟩
      · rintro ⟨h3, h4, h, h6⟩
        obtain ⟨v, h6, h7⟩ := (timestamp_iff' _ _).2 h6
        split at h <;> rename_i ha
        · rw [h1] at h; simp at h
        · rw [← hd, h2] at h; simp at h
        · refine ⟨_, h3, _, h4, _, h.2.1, v, h6, _, h7, ?_⟩
          have hd' := (hd _).2 h.2.2
          rw [h2] at hd'; simp at hd'
          rw [h1] at h; simp at h
          cases p; simp at ha; simp [ha, h.1, hd']

theorem reply_exactly {m : MsgRef} {l : Line} (hr : Represents m l) :
    Exactly (parseReply m) (ReplyOf l) := by
  unfold parseReply
  simp only [tag_req hr, run_pure]
  refine ⟨fun p => ?_, .elim fun _ => .elim fun _ => .elim fun _ => .elim fun _ => .elim fun _ =>
    .elim fun _ => .elim fun _ => .ok _⟩
  simp only [elim_some, Except.ok.injEq, Option.some.injEq]
  constructor
  · rintro ⟨_, h1, _, h2, _, h3, _, h4, _, h5, _, h6, _, h7, rfl⟩
    exact ⟨h1, h2, h3, h4, h5, h6, h7⟩
  · rintro ⟨h1, h2, h3, h4, h5, h6, h7⟩
    exact ⟨_, h1, _, h2, _, h3, _, h4, _, h5, _, h6, _, h7, rfl⟩

theorem level_iff (s : Bytes) (l : PinnedChatLevel) :
    PinnedChatLevel.fromStr s = some l ↔ s = levelName l := by
  constructor
  · intro h
    unfold PinnedChatLevel.fromStr at h
    repeat' split at h
    all_goals first
      | (rename_i h'; simp at h; subst h; exact h')
      | simp at h
  · rintro rfl; cases l <;> decide

theorem pinned_exactly {m : MsgRef} {l : Line} (hr : Represents m l) :
    Exactly (parsePinned m) (PinnedOf l) := by
  unfold parsePinned
  simp only [tag_req hr, run_some?, run_pure]
  refine ⟨fun p => ?_, .elim fun _ => .elim fun _ => .elim fun _ => .elim fun _ => .elim fun _ =>
    .elim fun _ => .elim fun _ => .elim fun _ => .ok _⟩
  simp only [elim_some, Except.ok.injEq, Option.some.injEq, level_iff, i64_iff]
  constructor
  · rintro ⟨_, h1, _, h2, _, h3, _, h4, _, h5, _, h6, _, h7, _, h8, rfl⟩
    exact ⟨⟨_, h1, h2⟩, h3, ⟨_, h4, h5⟩, h7 ▸ h6, ⟨_, h8, C33_bool _⟩⟩
  · rintro ⟨⟨_, h1, h2⟩, h3, ⟨_, h4, h5⟩, h6, ⟨_, h8, h9⟩⟩
    refine ⟨_, h1, _, h2, _, h3, _, h4, _, h5, _, h6, _, rfl, _, h8, ?_⟩
    cases p
    simp only [PinnedChat.mk.injEq, true_and]
    rw [Bool.eq_iff_iff, C33_bool]
    exact h9.symm

theorem privmsg_exactly {m : MsgRef} {l : Line} (hr : Represents m l) :
    Exactly (Privmsg.parse m) (fun p => l.command = b!"PRIVMSG" ∧ PrivmsgOf l p) := by
  refine guard_exactly (c := .privmsg) hr (by simp) (fun e => ?_)
  rw [channel_eq hr e (by simp) (by simp)]
  obtain ⟨bs, hb1, hb2⟩ := badgesOf_iff hr
  obtain ⟨hr1, rep, hrep⟩ := reply_exactly hr
  obtain ⟨hp1, pin, hpin⟩ := pinned_exactly hr
  rw [hb1, hrep, hpin]
  rw [hrep] at hr1
  rw [hpin] at hp1
  simp only [Except.ok.injEq] at hr1 hp1
  simp only [run_req, run_get, run_some?, text_req hr, nick_req hr, tag_req hr, tag_get hr, run_pure]
  refine ⟨fun p => ?_, .elim fun _ => .elim fun _ => .elim fun _ => .elim fun _ => .elim fun _ =>
    .elim fun _ => .elim fun _ => .elim fun _ => .elim fun _ => .ok _⟩
  simp only [elim_some, Except.ok.injEq, Option.some.injEq]
  constructor
  · rintro ⟨_, h1, _, h2, _, h3, _, h4, _, h5, _, h6, _, h7, _, h8, _, h9, rfl⟩
    exact {
      text := ⟨_, h1, (text_iff _ _ _).1 rfl⟩, channel := h2, channelId := h3, msgId := rfl
      id := h4, senderId := h5, senderLogin := h6, senderName := h7, replyTo := hr1
      pinnedChat := hp1, badges := (hb2 _).1 rfl, color := (optText_iff _ _).1 rfl
      customRewardId := (optText_iff _ _).1 rfl, bits := optU64 _, emotes := rfl
      timestamp := (timestamp_iff' _ _).1 ⟨_, h8, h9⟩ }
  · rintro ⟨⟨t, h1, ht⟩, h2, h3, hm, h4, h5, h6, h7, hre, hpi, hb, hc, hcr, hbi, hem, hts⟩
    obtain ⟨v, h8, h9⟩ := (timestamp_iff' _ _).2 hts
    refine ⟨_, h1, _, h2, _, h3, _, h4, _, h5, _, h6, _, h7, _, h8, _, h9, ?_⟩
    rw [(text_iff _ _ _).2 ht]
    rw [← hb2] at hb
    rw [← optText_iff] at hc hcr
    rw [← optU64_iff] at hbi
    have e1 : rep = p.replyTo := Option.ext fun r => (hr1 r).trans (hre r).symm
    have e2 : pin = p.pinnedChat := Option.ext fun r => (hp1 r).trans (hpi r).symm
    cases p
    rw [Privmsg.mk.injEq]
    exact ⟨rfl, rfl, hm, rfl, rfl, e1, e2, rfl, rfl, hb, hc, hcr, hbi, hem.symm, rfl⟩

theorem find2_iff (x y : UInt8) : ∀ (s : Bytes),
    (∀ i, find2 x y s = some i → s = s.take i ++ x :: y :: s.drop (i + 2) ∧
      i + 2 ≤ s.length ∧ ∀ a b, s = a ++ x :: y :: b → i ≤ a.length) ∧
    (find2 x y s = none → ∀ a b, s ≠ a ++ x :: y :: b)
  | [] => ⟨fun i h => by simp [find2] at h, fun _ a b h => by simp at h⟩
  | [c] => by
    refine ⟨fun i h => by simp [find2] at h, fun _ a b h => ?_⟩
    have := congrArg List.length h
    simp at this; omega
  | c :: d :: t => by
    have ih := find2_iff x y (d :: t)
    unfold find2
    split
    · rename_i h
      refine ⟨fun i hi => ?_, fun h => by simp at h⟩
      simp at hi; subst hi
      simp [h.1, h.2]
    · rename_i hne
      have step : ∀ a b, c :: d :: t = a ++ x :: y :: b →
          ∃ a', a = c :: a' ∧ d :: t = a' ++ x :: y :: b := by
        intro a b h
        cases a with
        | nil => simp at h; exact absurd ⟨h.1, h.2.1⟩ hne
        | cons z a' => simp at h; exact ⟨a', by rw [h.1], h.2⟩
      constructor
      · intro i hi
        rw [Option.map_eq_some_iff] at hi
        obtain ⟨j, hj, rfl⟩ := hi
        obtain ⟨h1, h2, h3⟩ := ih.1 j hj
        refine ⟨?_, by simp at h2 ⊢; omega, fun a b h => ?_⟩
        · rw [show j + 1 + 2 = (j + 2) + 1 by omega, List.take_succ_cons, List.drop_succ_cons,
            List.cons_append, ← h1]
        · obtain ⟨a', rfl, h'⟩ := step a b h
          have := h3 a' b h'
          simp; omega
      · intro hn a b h
        rw [Option.map_eq_none_iff] at hn
        obtain ⟨a', _, h'⟩ := step a b h
        exact ih.2 hn a' b h'

theorem splitOnce2_iff (x y : UInt8) (s a b : Bytes) :
    splitOnce2 x y s = some (a, b) ↔ s = a ++ x :: y :: b ∧
      ∀ a' b', s = a' ++ x :: y :: b' → a.length ≤ a'.length := by
  obtain ⟨h1, h2⟩ := find2_iff x y s
  unfold splitOnce2
  rw [Option.map_eq_some_iff]
  constructor
  · rintro ⟨i, hi, h⟩
    simp at h
    obtain ⟨e1, e2, e3⟩ := h1 i hi
    rw [← h.1, ← h.2]
    refine ⟨e1, fun a' b' h' => ?_⟩
    have := e3 a' b' h'
    rw [List.length_take]; omega
  · rintro ⟨e, hmin⟩
    cases hf : find2 x y s with
    | none => exact absurd e (h2 hf a b)
    | some i =>
      obtain ⟨e1, e2, e3⟩ := h1 i hf
      refine ⟨i, rfl, ?_⟩
      have l1 := e3 a b e
      have l2 := hmin _ _ e1
      rw [List.length_take] at l2
      have hi : i = a.length := by omega
      subst hi
      subst e
      simp [List.drop_append]

theorem whisper_exactly {m : MsgRef} {l : Line} (hr : Represents m l) :
    Exactly (Whisper.parse m) (fun p => l.command = b!"WHISPER" ∧ WhisperOf l p) := by
  refine guard_exactly (c := .whisper) hr (by simp) (fun e => ?_)
  obtain ⟨bs, hb1, hb2⟩ := badgesOf_iff hr
  rw [hb1]
  simp only [run_get, run_some?, params_req hr, nick_req hr, tag_req hr, tag_get hr, run_pure]
  refine ⟨fun p => ?_, .elim fun _ => .elim fun _ => .elim fun _ => .elim fun _ => .elim fun _ =>
    .ok _⟩
  simp only [elim_some, Except.ok.injEq, Option.some.injEq]
  constructor
  · rintro ⟨_, h1, ⟨a, b⟩, h2, _, h3, _, h4, _, h5, rfl⟩
    obtain ⟨rfl, h2⟩ := (splitOnce2_iff _ _ _ _ _).1 h2
    exact ⟨h1, h2, h3, h4, h5, (hb2 _).1 rfl, rfl, (optText_iff _ _).1 rfl⟩
  · rintro ⟨h1, h2, h3, h4, h5, hb, he, hc⟩
    refine ⟨_, h1, (p.recipient, p.text), (splitOnce2_iff _ _ _ _ _).2 ⟨rfl, h2⟩, _, h3, _, h4, _, h5, ?_⟩
    rw [← hb2] at hb
    rw [← optText_iff] at hc
    cases p
    rw [Whisper.mk.injEq]
    exact ⟨rfl, rfl, rfl, hb, he.symm, hc⟩

/-! ### ROOMSTATE -/

theorem followers_small {checks : Bool} {n : Int} (h0 : -2 ^ 63 ≤ n) (h : n ≤ maxMinutes) :
    ∃ f, followersFrom checks n = .ok f ∧
      ∀ f', f = f' ↔ ((n < 0 ∧ f' = .disabled) ∨ (n = 0 ∧ f' = .enabled none) ∨
        (0 < n ∧ f' = .enabled (some ((n * 60).toNat * 1000000000)))) := by
  unfold maxMinutes at h
  unfold followersFrom
  split
  · rename_i hn
    have : mulI64 checks n 60 = .ok (n * 60) := by
      unfold mulI64 i64Min i64Max
      rw [if_pos (by omega)]
    rw [this, bind_ok]
    have e : i64AsU64 (n * 60) = (n * 60).toNat := by
      unfold i64AsU64
      rw [Int.emod_eq_of_lt (by omega) (by omega)]
    rw [e]
    refine ⟨_, rfl, fun f' => ⟨?_, ?_⟩⟩
    · rintro rfl; exact .inr (.inr ⟨by omega, rfl⟩)
    · rintro (h | h | h)
      · omega
      · omega
      · exact h.2.symm
  · split
    · refine ⟨_, rfl, fun f' => ⟨?_, ?_⟩⟩
      · rintro rfl; exact .inr (.inl ⟨by omega, rfl⟩)
      · rintro (h | h | h)
        · omega
        · exact h.2.symm
        · omega
    · refine ⟨_, rfl, fun f' => ⟨?_, ?_⟩⟩
      · rintro rfl; exact .inl ⟨by omega, rfl⟩
      · rintro (h | h | h)
        · exact h.2.symm
        · omega
        · omega

theorem isInt_unique {s : Bytes} {a b : Int} (ha : I64 s a) (hb : I64 s b) : a = b := by
  have ha := (i64_iff _ _).2 ha
  rw [(i64_iff _ _).2 hb] at ha
  simpa using ha.symm

theorem followers_exactly {m : MsgRef} {l : Line} (hr : Represents m l) (ho : ¬ FollowersOverflow l) :
    ∃ f : Option FollowersOnly, followersOnlyOf m = .ok f ∧
      ∀ f', f = some f' ↔ ∃ v, l.tag (b!"followers-only") = some v ∧ FollowersOf v f' := by
  unfold followersOnlyOf
  rw [hr.tag, bind_ok]
  have e1 : lookup (Tag.followersOnly.asStr) l.tags = l.tag (b!"followers-only") := rfl
  rw [e1]
  cases h : l.tag (b!"followers-only") with
  | none => exact ⟨none, rfl, fun f' => by simp⟩
  | some v =>
    simp only [Option.bind_some]
    cases h1 : parseI64 v with
    | none =>
      refine ⟨none, rfl, fun f' => ⟨fun h' => by simp at h', ?_⟩⟩
      rintro ⟨v', h2, n, h3, _⟩
      simp at h2; subst h2
      rw [(i64_iff _ _).2 h3] at h1; simp at h1
    | some n =>
      have hn := (i64_iff _ _).1 h1
      have hle : n ≤ maxMinutes := by
        apply Int.not_lt.1
        intro hlt; exact ho ⟨v, n, h, hn, hlt⟩
      obtain ⟨f, hf1, hf2⟩ := followers_small (checks := m.checks) hn.2.1 hle
      simp only [hf1, bind_ok]
      refine ⟨some f, rfl, fun f' => ?_⟩
      rw [Option.some.injEq, hf2 f']
      constructor
      · intro h'; exact ⟨v, rfl, n, hn, h'⟩
      · rintro ⟨v', h2, n', h3, h4⟩
        simp at h2; subst h2
        rw [isInt_unique hn h3]; exact h4

theorem roomState_exactly {m : MsgRef} {l : Line} (hr : Represents m l) (ho : ¬ FollowersOverflow l) :
    Exactly (RoomState.parse m) (fun p => l.command = b!"ROOMSTATE" ∧ RoomStateOf l p) := by
  refine guard_exactly (c := .roomState) hr (by simp) (fun e => ?_)
  rw [channel_eq hr e (by simp) (by simp)]
  obtain ⟨f, hf1, hf2⟩ := followers_exactly hr ho
  rw [hf1]
  simp only [run_req, run_get, tag_req hr, tag_get hr, run_pure]
  refine ⟨fun p => ?_, .elim fun _ => .elim fun _ => .ok _⟩
  simp only [elim_some, Except.ok.injEq, Option.some.injEq]
  constructor
  · rintro ⟨_, h1, _, h2, rfl⟩
    exact ⟨h1, h2, (optBool_iff _ _).1 rfl, hf2, (optBool_iff _ _).1 rfl, optSecs _,
      (optBool_iff _ _).1 rfl⟩
  · rintro ⟨h1, h2, h3, h4, h5, h6, h7⟩
    refine ⟨_, h1, _, h2, ?_⟩
    rw [← optBool_iff] at h3 h5 h7
    rw [← optSecs_iff] at h6
    have e1 : f = p.followersOnly := Option.ext fun r => (hf2 r).trans (h4 r).symm
    cases p
    rw [RoomState.mk.injEq]
    exact ⟨rfl, rfl, h3, e1, h5, h6, h7⟩

/-- With an overflowing `followers-only`, a build with overflow checks panics; another one returns
the product modulo 2^64. -/
theorem roomState_overflow {m : MsgRef} {l : Line} (hr : Represents m l) {v : Bytes} {n : Int}
    (hv : l.tag (b!"followers-only") = some v) (hn : I64 v n) (hlt : maxMinutes < n)
    (hc : l.command = b!"ROOMSTATE") {c i : Bytes} (hch : l.channel = some c)
    (hi : l.tag (b!"room-id") = some i) :
    (m.checks = true → RoomState.parse m = .error .overflow) ∧
    (m.checks = false → ∃ p, RoomState.parse m = .ok (some p) ∧
      p.followersOnly = some (.enabled (some ((n * 60 % 2 ^ 64).toNat * 1000000000)))) := by
  unfold maxMinutes at hlt
  have e : commandOf l.command = .roomState := (commandOf_known (by simp) _).2 hc
  have hp : followersOnlyOf m = (do return some (← followersFrom m.checks n)) := by
    unfold followersOnlyOf
    rw [hr.tag, bind_ok]
    have e1 : lookup (Tag.followersOnly.asStr) l.tags = some v := hv
    rw [e1, Option.bind_some, (i64_iff _ _).2 hn]
  have hn' := hn.2
  unfold RoomState.parse
  rw [hr.command, run_get, e, if_neg (by simp), channel_eq hr e (by simp) (by simp)]
  have hi' : l.tag Tag.roomId.asStr = some i := hi
  rw [run_req, hch, Option.elim_some, tag_req hr, hi', Option.elim_some, tag_get hr]
  have hf : ∀ checks, followersFrom checks n = if checks = true then .error .overflow else
      .ok (.enabled (some ((n * 60 % 2 ^ 64).toNat * 1000000000))) := by
    intro checks
    unfold followersFrom mulI64 i64Min i64Max
    rw [if_pos (by omega), if_neg (by omega)]
    cases checks
    · simp only [Bool.false_eq_true, if_false, bind_ok]
      have : i64AsU64 ((n * 60 - -9223372036854775808) % 18446744073709551616 + -9223372036854775808)
          = (n * 60 % 2 ^ 64).toNat := by
        unfold i64AsU64
        congr 1
        omega
      rw [this]; rfl
    · simp only [if_true]; rfl
  rw [hp, hf]
  constructor
  · intro h; simp only [h, if_true]; rfl
  · intro h
    simp only [h, Bool.false_eq_true, if_false, bind_ok, pure, Except.pure]
    simp only [run_get, tag_get hr]
    exact ⟨_, rfl, rfl⟩

/-- With an overflowing `followers-only` but without channel or room id there is no result. -/
theorem roomState_missing {m : MsgRef} {l : Line} (hr : Represents m l)
    (h : l.command ≠ b!"ROOMSTATE" ∨ l.channel = none ∨ l.tag (b!"room-id") = none) :
    RoomState.parse m = .ok none := by
  unfold RoomState.parse
  rw [hr.command, run_get]
  by_cases e : commandOf l.command = .roomState
  · rw [if_neg (fun h => h e), channel_eq hr e (by simp) (by simp), run_req]
    cases hc : l.channel with
    | none => rfl
    | some c =>
      rw [Option.elim_some, tag_req hr]
      rcases h with h | h | h
      · exact absurd ((commandOf_known (by simp) _).1 e) h
      · rw [hc] at h; simp at h
      · have h' : l.tag Tag.roomId.asStr = none := h
        rw [h']; rfl
  · rw [if_pos e]; rfl

end Tmi.Proofs
