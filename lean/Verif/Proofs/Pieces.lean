/-
Every text of a message is a piece of its line.
-/
import Verif.Spec.Pieces
import Verif.Proofs.Parsed
import Verif.Proofs.Tags

namespace Tmi.Proofs
open Model Spec


theorem slice_piece {s v : Bytes} {a b : Nat} (h : strSlice s a b = .ok v) : v <:+: s := by
  unfold strSlice at h
  split at h
  · cases h
    exact (List.take_prefix _ _).isInfix.trans (List.drop_suffix _ _).isInfix
  · cases h

theorem from_piece {s v : Bytes} {a : Nat} (h : strFrom s a = .ok v) : v <:+: s := by
  unfold strFrom at h
  split at h
  · cases h; exact (List.drop_suffix _ _).isInfix
  · cases h

theorem optSlice_piece {s : Bytes} {sp : Option Span} {o : Option Bytes} (h : optSlice s sp = .ok o) :
    ∀ v, o = some v → v <:+: s := by
  intro v hv
  subst hv
  cases sp with
  | none => cases h
  | some sp =>
    simp only [optSlice, Span.get] at h
    cases e : strSlice s sp.start sp.stop with
    | error f => rw [e] at h; cases h
    | ok x => rw [e] at h; cases h; exact slice_piece e

theorem value_piece {m : MsgRef} {t : Tag} {o : Option Bytes} (h : m.tag t = .ok o) : ∀ v, o = some v → v <:+: m.src := by
  intro v hv
  subst hv
  unfold MsgRef.tag at h
  cases e : findTag m.checks m.src t.asStr m.parts.tags with
  | error f => rw [e] at h; cases h
  | ok q =>
    rw [e] at h
    cases q with
    | none => cases h
    | some p =>
      simp only [bind_ok] at h
      cases e2 : p.value m.checks with
      | error f => rw [e2] at h; cases h
      | ok sp =>
        rw [e2] at h
        simp only [bind_ok, Span.get] at h
        cases e3 : strSlice m.src sp.start sp.stop with
        | error f => rw [e3] at h; cases h
        | ok x => rw [e3] at h; cases h; exact slice_piece e3

theorem tag_piece {m : MsgRef} {t : Tag} {v : Bytes} (h : m.tag t = .ok (some v)) : v <:+: m.src := value_piece h v rfl

theorem splitWs_piece : ∀ (r : Bytes) (skip : Nat) (cur : Bytes), (skip = 0 ∨ cur = []) →
    ∀ w ∈ splitWsGo r skip cur, w <:+: cur.reverse ++ r := by
  intro r
  induction r with
  | nil =>
    intro skip cur _ w hw
    unfold splitWsGo at hw
    split at hw
    · cases hw
    · rw [List.mem_singleton.1 hw, List.append_nil]; exact List.infix_rfl
  | cons c t ih =>
    intro skip cur hs w hw
    unfold splitWsGo at hw
    split at hw
    · rename_i k
      rcases hs with hs | rfl
      · cases hs
      · exact (ih k [] (.inr rfl) w hw).trans (List.suffix_cons c t).isInfix
    · split at hw
      · rename_i k _
        split at hw
        · exact ((ih k [] (.inr rfl) w hw).trans (List.suffix_cons c t).isInfix).trans (List.suffix_append _ _).isInfix
        · rcases List.mem_cons.1 hw with rfl | hw
          · exact (List.prefix_append _ _).isInfix
          · exact ((ih k [] (.inr rfl) w hw).trans (List.suffix_cons c t).isInfix).trans (List.suffix_append _ _).isInfix
      · have := ih 0 (c :: cur) (.inl rfl) w hw
        rwa [List.reverse_cons, List.append_assoc] at this

theorem ws_piece {p w : Bytes} {i : Nat} (h : (splitWhitespace p)[i]? = some w) : w <:+: p :=
  splitWs_piece p 0 [] (.inl rfl) w (List.mem_of_getElem? h)

theorem params_piece {m : MsgRef} {o : Option Bytes} (h : m.params = .ok o) : ∀ v, o = some v → v <:+: m.src :=
  optSlice_piece h

theorem channel_pieces {m : MsgRef} {o : Option Bytes} (h : m.channel = .ok o) : ∀ v, o = some v → v <:+: m.src := by
  intro v hv
  subst hv
  unfold MsgRef.channel at h
  cases e : m.command with
  | error f => rw [e] at h; cases h
  | ok c =>
    rw [e, bind_ok] at h
    split at h
    · cases e2 : m.params with
      | error f => rw [e2] at h; cases h
      | ok q =>
        rw [e2] at h
        cases q with
        | none => cases h
        | some p =>
          simp only [bind_ok, Option.bind_some, pure, Except.pure, Except.ok.injEq] at h
          exact (ws_piece h).trans (params_piece e2 p rfl)
    · cases e2 : m.params with
      | error f => rw [e2] at h; cases h
      | ok q =>
        rw [e2] at h
        cases q with
        | none => cases h
        | some p =>
          simp only [bind_ok, Option.bind_some, pure, Except.pure, Except.ok.injEq] at h
          exact (ws_piece h).trans (params_piece e2 p rfl)
    · exact optSlice_piece h v rfl

theorem channel_piece {m : MsgRef} {v : Bytes} (h : m.channel = .ok (some v)) : v <:+: m.src := channel_pieces h v rfl

theorem text_pieces {m : MsgRef} {o : Option Bytes} (h : m.text = .ok o) : ∀ v, o = some v → v <:+: m.src := by
  intro v hv
  subst hv
  unfold MsgRef.text at h
  split at h
  · rename_i sp _
    cases e : sp.get m.src with
    | error f => rw [e] at h; cases h
    | ok p =>
      rw [e, bind_ok] at h
      have hp : p <:+: m.src := slice_piece e
      split at h
      · rename_i i _
        cases e2 : strFrom p (i + 1) with
        | error f => rw [e2] at h; cases h
        | ok x => rw [e2] at h; cases h; exact (from_piece e2).trans hp
      · cases h; exact hp
  · cases h

theorem text_piece {m : MsgRef} {v : Bytes} (h : m.text = .ok (some v)) : v <:+: m.src := text_pieces h v rfl

theorem prefix_pieces {m : MsgRef} {p : Prefix} (h : m.prefix? = .ok (some p)) :
    (∀ v, p.nick = some v → v <:+: m.src) ∧ (∀ v, p.user = some v → v <:+: m.src) ∧ p.host <:+: m.src := by
  unfold MsgRef.prefix? at h
  split at h
  · cases h
  · rename_i q _
    cases e : q.get m.src with
    | error f => rw [e] at h; cases h
    | ok x =>
      rw [e] at h
      cases h
      unfold RawPrefix.get at e
      cases e1 : optSlice m.src q.nick with
      | error f => rw [e1] at e; cases e
      | ok n =>
        rw [e1, bind_ok] at e
        cases e2 : optSlice m.src q.user with
        | error f => rw [e2] at e; cases e
        | ok u =>
          rw [e2, bind_ok] at e
          cases e3 : q.host.get m.src with
          | error f => rw [e3] at e; cases e
          | ok x =>
            rw [e3] at e
            cases e
            exact ⟨optSlice_piece e1, optSlice_piece e2, slice_piece e3⟩

theorem nick_piece {m : MsgRef} {v : Bytes} (h : nickOf? m = .ok (some v)) : v <:+: m.src := by
  unfold nickOf? at h
  cases e : m.prefix? with
  | error f => rw [e] at h; cases h
  | ok q =>
    rw [e] at h
    cases q with
    | none => cases h
    | some p =>
      simp only [bind_ok, Option.bind_some, pure, Except.pure, Except.ok.injEq] at h
      exact (prefix_pieces e).1 v h

/-! ### Parts of texts -/

theorem nonEmpty_piece {m : MsgRef} {t : Tag} {o : Option Bytes} (h : m.tag t = .ok o) :
    ∀ v ∈ (nonEmpty o).toList, v <:+: m.src := by
  intro v hv
  refine value_piece h v ?_
  unfold nonEmpty at hv
  rw [Option.mem_toList, Option.filter_eq_some_iff] at hv
  exact hv.1

theorem getD_piece {m : MsgRef} {t : Tag} {o : Option Bytes} (h : m.tag t = .ok o) : o.getD [] <:+: m.src := by
  cases o with
  | none => exact List.nil_infix
  | some v => exact tag_piece h

theorem splitOn_piece {x : UInt8} : ∀ {s : Bytes}, (∀ w ∈ splitOn x s, w <:+: s) ∧ ∀ p ps, splitOn x s = p :: ps → p <+: s
  | [] => by simp [splitOn]
  | c :: t => by
    have ih := splitOn_piece (x := x) (s := t)
    rw [splitOn]
    by_cases e : c = x
    · rw [if_pos e]
      refine ⟨fun w hw => ?_, fun p ps h => ?_⟩
      · rcases List.mem_cons.1 hw with rfl | hw
        · exact List.nil_infix
        · exact (ih.1 w hw).trans (List.suffix_cons c t).isInfix
      · cases h; exact List.nil_prefix
    · rw [if_neg e]
      split
      · refine ⟨fun w hw => ?_, fun p ps h => ?_⟩
        · rw [List.mem_singleton.1 hw]; exact (List.cons_prefix_cons.2 ⟨rfl, List.nil_prefix⟩).isInfix
        · cases h; exact List.cons_prefix_cons.2 ⟨rfl, List.nil_prefix⟩
      · rename_i p ps h
        have hp : c :: p <+: c :: t := List.cons_prefix_cons.2 ⟨rfl, ih.2 p ps h⟩
        refine ⟨fun w hw => ?_, fun q qs h => ?_⟩
        · rcases List.mem_cons.1 hw with rfl | hw
          · exact hp.isInfix
          · exact (ih.1 w (by rw [h]; exact .tail _ hw)).trans (List.suffix_cons c t).isInfix
        · cases h; exact hp

theorem splitOnce_piece {x : UInt8} {s a b : Bytes} (h : splitOnce x s = some (a, b)) : a <:+: s ∧ b <:+: s := by
  unfold splitOnce at h
  obtain ⟨i, _, h⟩ := Option.map_eq_some_iff.1 h
  cases h
  exact ⟨(List.take_prefix _ _).isInfix, (List.drop_suffix _ _).isInfix⟩

theorem splitOnce2_piece {x y : UInt8} {s a b : Bytes} (h : splitOnce2 x y s = some (a, b)) : a <:+: s ∧ b <:+: s := by
  unfold splitOnce2 at h
  obtain ⟨i, _, h⟩ := Option.map_eq_some_iff.1 h
  cases h
  exact ⟨(List.take_prefix _ _).isInfix, (List.drop_suffix _ _).isInfix⟩

theorem stripPrefix_piece : ∀ {p s t : Bytes}, stripPrefix p s = some t → t <:+ s
  | [], s, t, h => by cases h; exact List.suffix_rfl
  | _ :: _, [], t, h => by cases h
  | a :: p, c :: s, t, h => by
    rw [stripPrefix] at h
    split at h
    · exact (stripPrefix_piece h).trans (List.suffix_cons c s)
    · cases h

theorem messageText_piece (s : Bytes) : (parseMessageText s).1 <:+: s := by
  unfold parseMessageText
  split
  · exact List.infix_rfl
  · rename_i r h
    split
    · exact List.infix_rfl
    · rename_i u h2
      unfold stripSuffix at h2
      split at h2
      · cases h2
        exact (List.dropLast_prefix _).isInfix.trans (stripPrefix_piece h).isInfix
      · cases h2

theorem sets_piece {m : MsgRef} {t : Tag} {o : Option Bytes} (h : m.tag t = .ok o) :
    ∀ w ∈ (o.map splitComma).getD [], w <:+: m.src := by
  intro w hw
  cases o with
  | none => cases hw
  | some v => exact (splitOn_piece.1 w hw).trans (tag_piece h)

theorem toBadge_pieces {d : BadgeData} {s : Bytes} (h1 : d.name <:+: s) (h2 : d.version <:+: s)
    (h3 : ∀ x, d.extra = some x → x <:+: s) : ∀ t ∈ badgeTexts d.toBadge,
    t <:+: s ∨ (t = b!"1" ∧ ∃ v, d.toBadge = .subscriber v ∧ v.months = t) := by
  intro t ht
  unfold BadgeData.toBadge at ht ⊢
  by_cases e1 : d.name = b!"staff"
  · rw [if_pos e1] at ht; cases ht
  by_cases e2 : d.name = b!"turbo"
  · rw [if_neg e1, if_pos e2] at ht; cases ht
  by_cases e3 : d.name = b!"broadcaster"
  · rw [if_neg e1, if_neg e2, if_pos e3] at ht; cases ht
  by_cases e4 : d.name = b!"moderator"
  · rw [if_neg e1, if_neg e2, if_neg e3, if_pos e4] at ht; cases ht
  rw [if_neg e1, if_neg e2, if_neg e3, if_neg e4] at ht ⊢
  by_cases e5 : d.name = b!"subscriber"
  · rw [if_pos e5] at ht ⊢
    simp only [badgeTexts, List.mem_cons, List.not_mem_nil, or_false] at ht
    rcases ht with rfl | rfl
    · exact .inl h2
    · cases e : d.extra with
      | none => exact .inr ⟨rfl, _, rfl, rfl⟩
      | some x => exact .inl (h3 x e)
  · rw [if_neg e5] at ht
    simp only [badgeTexts, List.mem_append, List.mem_cons, List.not_mem_nil, or_false, Option.mem_toList,
      Option.mem_def] at ht
    rcases ht with (rfl | rfl) | ht
    · exact .inl h1
    · exact .inl h2
    · exact .inl (h3 t ht)

theorem badges_pieces {m : MsgRef} {l : List Badge} (h : Model.badgesOf m = .ok l) :
    ∀ x ∈ l, ∀ t ∈ badgeTexts x, t <:+: m.src ∨ (t = b!"1" ∧ ∃ v, x = .subscriber v ∧ v.months = t) := by
  unfold Model.badgesOf at h
  cases h1 : m.tag .badges with
  | error e => simp [h1, bind, Except.bind] at h
  | ok a =>
    cases h2 : m.tag .badgeInfo with
    | error e => simp [h1, h2, bind, Except.bind] at h
    | ok i =>
      simp only [h1, h2, bind, Except.bind, pure, Except.pure] at h
      split at h
      · rename_i bs info
        cases h
        intro x hx
        unfold parseBadges at hx
        split at hx
        · cases hx
        · simp only [List.mem_map, List.mem_filterMap] at hx
          obtain ⟨⟨n, v⟩, ⟨w, hw, hs⟩, rfl⟩ := hx
          have hb := (splitOn_piece.1 w hw).trans (tag_piece h1)
          refine toBadge_pieces ((splitOnce_piece hs).1.trans hb) ((splitOnce_piece hs).2.trans hb) ?_
          intro e he
          obtain ⟨⟨n', e'⟩, hf, rfl⟩ := Option.map_eq_some_iff.1 he
          obtain ⟨w', hw', hs'⟩ := List.mem_filterMap.1 (List.mem_of_find?_eq_some hf)
          exact (splitOnce_piece hs').2.trans ((splitOn_piece.1 w' hw').trans (tag_piece h2))
      · cases h; intro x hx; cases hx

/-! ### Messages -/

/-- All of some texts are pieces. -/
abbrev Each (s : Bytes) (ts : List Bytes) : Prop := ∀ t ∈ ts, t <:+: s

theorem Each.nil {s : Bytes} : Each s [] := nofun
theorem Each.cons {s t : Bytes} {ts : List Bytes} (h : t <:+: s) (hs : Each s ts) : Each s (t :: ts) := by
  intro x hx
  rcases List.mem_cons.1 hx with rfl | hx
  · exact h
  · exact hs x hx
theorem Each.app {s : Bytes} {ts us : List Bytes} (h : Each s ts) (hs : Each s us) : Each s (ts ++ us) := by
  intro x hx
  rcases List.mem_append.1 hx with hx | hx
  · exact h x hx
  · exact hs x hx
theorem Each.opt {s : Bytes} {o : Option Bytes} (h : ∀ v, o = some v → v <:+: s) : Each s o.toList := by
  intro x hx
  exact h x (Option.mem_toList.1 hx)
theorem Each.user {s a b c : Bytes} (h : a <:+: s) (h' : b <:+: s) (h'' : c <:+: s) : Each s (userTexts ⟨a, b, c⟩) :=
  .cons h (.cons h' (.cons h'' .nil))

/-- Closes goals about texts that come from the line as they are. -/
macro "piece" : tactic => `(tactic| first
  | exact tag_piece (by assumption)
  | exact channel_piece (by assumption)
  | exact text_piece (by assumption)
  | exact nick_piece (by assumption)
  | exact getD_piece (by assumption)
  | exact nonEmpty_piece (by assumption)
  | exact sets_piece (by assumption)
  | exact Each.opt (value_piece (by assumption))
  | exact Each.opt (channel_pieces (by assumption))
  | exact Each.opt (text_pieces (by assumption)))

theorem clearChat_pieces {m : MsgRef} {v : ClearChat} (h : ClearChat.parse m = .ok (some v)) :
    Each m.src (messageTexts (.clearChat v)) := by
  simp only [ClearChat.parse, ok_bind, ok_guard, ok_get] at h
  obtain ⟨_, _, _, c, hc, i, hi, text, ht, dur, _, h⟩ := h
  rw [ok_req] at hc hi
  cases text with
  | none =>
    simp only [ok_bind, ok_pure, ok_some, ok_req] at h
    obtain ⟨_, rfl, _, _, _, _, rfl⟩ := h
    exact .app (.cons (by piece) (.cons (by piece) .nil)) .nil
  | some t =>
    cases hd : dur.bind parseDuration with
    | none =>
      simp only [hd, ok_bind, ok_pure, ok_some, ok_req] at h
      obtain ⟨_, u, _, rfl, _, _, _, _, rfl⟩ := h
      exact .app (.cons (by piece) (.cons (by piece) .nil)) (.cons (by piece) (.cons (by piece) .nil))
    | some d =>
      simp only [hd, ok_bind, ok_pure, ok_some, ok_req] at h
      obtain ⟨_, u, _, rfl, _, _, _, _, rfl⟩ := h
      exact .app (.cons (by piece) (.cons (by piece) .nil)) (.cons (by piece) (.cons (by piece) .nil))

theorem clearMsg_pieces {m : MsgRef} {v : ClearMsg} (h : ClearMsg.parse m = .ok (some v)) :
    Each m.src (messageTexts (.clearMsg v)) := by
  simp only [ClearMsg.parse, ok_bind, ok_guard, ok_get, ok_pure, ok_some, ok_req] at h
  obtain ⟨_, _, _, t, ht, _, _, _, _, _, _, _, _, _, _, _, _, rfl⟩ := h
  exact .cons (by piece) (.cons (by piece) (.cons (by piece) (.cons (by piece)
    (.cons ((messageText_piece t).trans (by piece)) .nil))))

theorem globalUserState_pieces {m : MsgRef} {v : GlobalUserState} (h : GlobalUserState.parse m = .ok (some v)) :
    Each m.src (messageTexts (.globalUserState v)) := by
  simp only [GlobalUserState.parse, ok_bind, ok_guard, ok_get, ok_pure, ok_req] at h
  obtain ⟨_, _, _, _, _, _, _, _, _, _, _, _, _, rfl⟩ := h
  exact .app (.app (.cons (by piece) (.cons (by piece) .nil)) (by piece)) (by piece)

theorem userState_pieces {m : MsgRef} {v : UserState} (h : UserState.parse m = .ok (some v)) :
    Each m.src (messageTexts (.userState v)) := by
  simp only [UserState.parse, ok_bind, ok_guard, ok_get, ok_pure, ok_req] at h
  obtain ⟨_, _, _, _, _, _, _, _, _, _, _, _, _, rfl⟩ := h
  exact .app (.app (.cons (by piece) (.cons (by piece) .nil)) (by piece)) (by piece)

theorem join_pieces {m : MsgRef} {v : Model.Join} (h : Model.Join.parse m = .ok (some v)) :
    Each m.src (messageTexts (.join v)) := by
  simp only [Model.Join.parse, ok_bind, ok_guard, ok_get, ok_pure, ok_req] at h
  obtain ⟨_, _, _, _, _, _, _, rfl⟩ := h
  exact .cons (by piece) (.cons (by piece) .nil)

theorem part_pieces {m : MsgRef} {v : Part} (h : Part.parse m = .ok (some v)) :
    Each m.src (messageTexts (.part v)) := by
  simp only [Part.parse, ok_bind, ok_guard, ok_get, ok_pure, ok_req] at h
  obtain ⟨_, _, _, _, _, _, _, rfl⟩ := h
  exact .cons (by piece) (.cons (by piece) .nil)

theorem notice_pieces {m : MsgRef} {v : Notice} (h : Notice.parse m = .ok (some v)) :
    Each m.src (messageTexts (.notice v)) := by
  simp only [Notice.parse, ok_bind, ok_guard, ok_get, ok_pure, ok_req] at h
  obtain ⟨_, _, _, _, _, _, _, _, _, rfl⟩ := h
  exact .app (.app (by piece) (.cons (by piece) .nil)) (by piece)

theorem ping_pieces {m : MsgRef} {v : Ping} (h : Ping.parse m = .ok (some v)) :
    Each m.src (messageTexts (.ping v)) := by
  simp only [Ping.parse, ok_bind, ok_guard, ok_get, ok_pure] at h
  obtain ⟨_, _, _, _, _, rfl⟩ := h
  exact Each.opt (text_pieces (by assumption))

theorem pong_pieces {m : MsgRef} {v : Pong} (h : Pong.parse m = .ok (some v)) :
    Each m.src (messageTexts (.pong v)) := by
  simp only [Pong.parse, ok_bind, ok_guard, ok_get, ok_pure] at h
  obtain ⟨_, _, _, _, _, rfl⟩ := h
  exact Each.opt (text_pieces (by assumption))

theorem roomState_pieces {m : MsgRef} {v : RoomState} (h : RoomState.parse m = .ok (some v)) :
    Each m.src (messageTexts (.roomState v)) := by
  simp only [RoomState.parse, ok_bind, ok_guard, ok_get, ok_pure, ok_req] at h
  obtain ⟨_, _, _, _, _, _, _, _, _, _, _, _, _, _, _, _, _, rfl⟩ := h
  exact .cons (by piece) (.cons (by piece) .nil)

theorem whisper_pieces {m : MsgRef} {v : Whisper} (h : Whisper.parse m = .ok (some v)) :
    Each m.src (messageTexts (.whisper v)) := by
  simp only [Whisper.parse, ok_bind, ok_guard, ok_get, ok_pure, ok_some, ok_req] at h
  obtain ⟨_, _, _, p, hp, ⟨r, t⟩, hs, _, _, _, _, _, _, _, _, _, _, _, _, rfl⟩ := h
  have hp := params_piece hp p rfl
  exact .app (.app (.app (.cons ((splitOnce2_piece hs).1.trans hp) .nil) (.user (by piece) (by piece) (by piece)))
    (.cons ((splitOnce2_piece hs).2.trans hp) (.cons (by piece) .nil))) (by piece)

theorem reply_pieces {m : MsgRef} {v : Reply} (h : parseReply m = .ok (some v)) : Each m.src (replyTexts v) := by
  simp only [parseReply, ok_bind, ok_pure, ok_req] at h
  obtain ⟨_, _, _, _, _, _, _, _, _, _, _, _, _, _, rfl⟩ := h
  exact .app (.app (.cons (by piece) (.cons (by piece) (.cons (by piece) .nil)))
    (.user (by piece) (by piece) (by piece))) (.cons (by piece) .nil)

theorem pinned_piece {m : MsgRef} {v : PinnedChat} (h : parsePinned m = .ok (some v)) : v.paidCurrency <:+: m.src := by
  simp only [parsePinned, ok_bind, ok_pure, ok_some, ok_req] at h
  obtain ⟨_, _, _, _, _, _, _, _, _, _, _, _, _, _, _, _, rfl⟩ := h
  piece

theorem privmsg_pieces {m : MsgRef} {v : Privmsg} (h : Privmsg.parse m = .ok (some v)) :
    Each m.src (messageTexts (.privmsg v)) := by
  simp only [Privmsg.parse, ok_bind, ok_guard, ok_get, ok_pure, ok_some, ok_req] at h
  obtain ⟨_, _, _, t, ht, _, _, _, _, _, _, _, _, _, _, _, _, _, _, r, hr, p, hp, _, hb, _, _, _, _, _,
    _, _, _, _, _, _, _, rfl⟩ := h
  refine .app (.app (.app (.app (.app (.app (.app (.app (.app (.cons (by piece) (.cons (by piece) .nil)) (by piece))
    (.cons (by piece) .nil)) (.user (by piece) (by piece) (by piece))) ?_) ?_)
    (.cons ((messageText_piece t).trans (by piece)) .nil)) (by piece)) (by piece)) (.cons (by piece) .nil)
  · cases r with
    | none => exact .nil
    | some r => exact reply_pieces hr
  · cases p with
    | none => exact .nil
    | some p => exact .cons (pinned_piece hp) .nil

theorem promotion_pieces {m : MsgRef} {p : Option SubGiftPromo} (h : parsePromotion m = .ok p) :
    Each m.src (p.map (·.promoName)).toList := by
  unfold parsePromotion at h
  cases h1 : m.tag .msgParamPromoGiftTotal with
  | error e => simp [h1, bind, Except.bind] at h
  | ok a =>
    cases h2 : m.tag .msgParamPromoName with
    | error e => simp [h1, h2, bind, Except.bind] at h
    | ok i =>
      simp only [h1, h2, bind, Except.bind, pure, Except.pure] at h
      split at h
      · cases h
        exact .cons (by piece) .nil
      · cases h; exact .nil

theorem Each.mem {s : Bytes} {l : List Bytes} (h : Each s l) {t : Bytes} (ht : t ∈ l) : t <:+: s := h t ht

theorem event_pieces {m : MsgRef} {e : Bytes} {s : Option Bytes} {ev : Event} {anon : Bool}
    (h : (parseEvent m e s).run = .ok (some (ev, anon))) :
    ∀ t ∈ eventTexts ev, t <:+: m.src ∨ (t = b!"PRIMARY" ∧ ev = .announcement t) := by
  unfold parseEvent at h
  by_cases h1 : e = b!"sub" ∨ e = b!"resub"
  · rw [if_pos h1] at h
    simp only [ok_bind, ok_get, ok_pure, ok_some, ok_req] at h
    obtain ⟨_, hc, s, _, _, _, _, _, h⟩ := h
    cases h
    exact fun t ht => .inl (Each.mem (.cons (by piece) (.cons (by piece) .nil)) ht)
  rw [if_neg h1] at h
  by_cases h1 : e = b!"raid"
  · rw [if_pos h1] at h
    simp only [ok_bind, ok_get, ok_pure, ok_some, ok_req] at h
    obtain ⟨_, hc, _, _, h⟩ := h
    cases h
    exact fun t ht => .inl (Each.mem (.cons (by piece) .nil) ht)
  rw [if_neg h1] at h
  by_cases h1 : e = b!"subgift" ∨ e = b!"anonsubgift"
  · rw [if_pos h1] at h
    simp only [ok_bind, ok_get, ok_pure, ok_some, ok_req] at h
    obtain ⟨_, hc, _, _, _, _, _, _, _, _, _, _, _, hg, h⟩ := h
    cases h
    exact fun t ht => .inl (Each.mem (.app (.user (by piece) (by piece) (by piece)) (.cons (by piece) (.cons (by piece) .nil))) ht)
  rw [if_neg h1] at h
  by_cases h1 : e = b!"anonsubmysterygift"
  · rw [if_pos h1] at h
    simp only [ok_bind, ok_get, ok_pure, ok_some, ok_req] at h
    obtain ⟨_, hc, _, _, h⟩ := h
    cases h
    exact fun t ht => .inl (Each.mem (.cons (by piece) .nil) ht)
  rw [if_neg h1] at h
  by_cases h1 : e = b!"submysterygift" ∧ s = anAnonymousGifter
  · rw [if_pos h1] at h
    simp only [ok_bind, ok_get, ok_pure, ok_some, ok_req] at h
    obtain ⟨_, hc, _, _, h⟩ := h
    cases h
    exact fun t ht => .inl (Each.mem (.cons (by piece) .nil) ht)
  rw [if_neg h1] at h
  by_cases h1 : e = b!"submysterygift"
  · rw [if_pos h1] at h
    simp only [ok_bind, ok_get, ok_pure, ok_some, ok_req] at h
    obtain ⟨_, hc, _, hg, _, _, h⟩ := h
    cases h
    exact fun t ht => .inl (Each.mem (.cons (by piece) .nil) ht)
  rw [if_neg h1] at h
  by_cases h1 : e = b!"giftpaidupgrade"
  · rw [if_pos h1] at h
    simp only [ok_bind, ok_get, ok_pure, ok_some, ok_req] at h
    obtain ⟨_, _, _, _, _, hp, h⟩ := h
    cases h
    exact fun t ht => .inl (Each.mem (.app (.cons (by piece) (.cons (by piece) .nil)) (promotion_pieces hp)) ht)
  rw [if_neg h1] at h
  by_cases h1 : e = b!"anongiftpaidupgrade"
  · rw [if_pos h1] at h
    simp only [ok_bind, ok_get, ok_pure, ok_some, ok_req] at h
    obtain ⟨_, hp, h⟩ := h
    cases h
    exact fun t ht => .inl (Each.mem (promotion_pieces hp) ht)
  rw [if_neg h1] at h
  by_cases h1 : e = b!"ritual"
  · rw [if_pos h1] at h
    simp only [ok_bind, ok_get, ok_pure, ok_some, ok_req] at h
    obtain ⟨_, _, h⟩ := h
    cases h
    exact fun t ht => .inl (Each.mem (.cons (by piece) .nil) ht)
  rw [if_neg h1] at h
  by_cases h1 : e = b!"bitsbadgetier"
  · rw [if_pos h1] at h
    simp only [ok_bind, ok_get, ok_pure, ok_some, ok_req] at h
    obtain ⟨_, hc, h⟩ := h
    cases h
    exact fun t ht => .inl (Each.mem (.nil) ht)
  rw [if_neg h1] at h
  by_cases h1 : e = b!"announcement"
  · rw [if_pos h1] at h
    simp only [ok_bind, ok_get, ok_pure, ok_some, ok_req] at h
    obtain ⟨_, _, h⟩ := h
    cases h
    intro t ht
    rw [List.mem_singleton.1 ht]
    rename_i c hc
    cases c with
    | none => exact .inr ⟨rfl, rfl⟩
    | some c => exact .inl (tag_piece hc)
  rw [if_neg h1] at h
  simp only [ok_pure] at h
  cases h
  intro t ht
  cases ht

theorem sender_pieces {m : MsgRef} {anon : Bool} {u : Option User} (h : (senderOf m anon).run = .ok (some u)) :
    ∀ v, u = some v → Each m.src (userTexts v) := by
  intro v hv
  subst hv
  unfold senderOf at h
  split at h
  · simp only [ok_bind, ok_pure, ok_req] at h
    obtain ⟨_, _, _, _, _, _, h⟩ := h
    cases h
    exact .user (by piece) (by piece) (by piece)
  · rw [ok_pure] at h; cases h

theorem userNotice_pieces {m : MsgRef} {v : UserNotice} (h : UserNotice.parse m = .ok (some v)) :
    ∀ t ∈ messageTexts (.userNotice v), t <:+: m.src ∨ (t = b!"PRIMARY" ∧ v.event = .announcement t) := by
  simp only [UserNotice.parse, ok_bind, ok_guard, ok_get, ok_pure, ok_some, ok_req] at h
  obtain ⟨_, _, _, _, _, _, _, ⟨ev, anon⟩, he, u, hu, _, _, _, _, _, _, _, _, _, _, _, _, _, _, _, _, _, _, _, _, rfl⟩ := h
  intro t ht
  simp only [messageTexts, List.mem_append] at ht
  rcases ht with ((((((ht | ht) | ht) | ht) | ht) | ht) | ht) | ht
  · exact .inl (Each.mem (.cons (by piece) (.cons (by piece) .nil)) ht)
  · cases u with
    | none => cases ht
    | some u => exact .inl (sender_pieces hu u rfl t ht)
  · exact .inl (Each.mem (by piece) ht)
  · exact .inl (Each.mem (by piece) ht)
  · exact event_pieces he t ht
  · exact .inl (Each.mem (.cons (by piece) (.cons (by piece) .nil)) ht)
  · exact .inl (Each.mem (by piece) ht)
  · exact .inl (Each.mem (.cons (by piece) .nil) ht)

/-! ### Badges, and the message as a whole -/

/-- What is shown of the badges. -/
def BadgesPieces (s : Bytes) (l : List Badge) : Prop :=
  ∀ x ∈ l, ∀ t ∈ badgeTexts x, t <:+: s ∨ (t = b!"1" ∧ ∃ v, x = .subscriber v ∧ v.months = t)

theorem globalUserState_badges {m : MsgRef} {v : GlobalUserState} (h : GlobalUserState.parse m = .ok (some v)) :
    BadgesPieces m.src v.badges := by
  simp only [GlobalUserState.parse, ok_bind, ok_guard, ok_get, ok_pure, ok_req] at h
  obtain ⟨_, _, _, _, _, _, _, _, _, _, _, _, _, rfl⟩ := h
  exact badges_pieces (by assumption)

theorem userState_badges {m : MsgRef} {v : UserState} (h : UserState.parse m = .ok (some v)) :
    BadgesPieces m.src v.badges := by
  simp only [UserState.parse, ok_bind, ok_guard, ok_get, ok_pure, ok_req] at h
  obtain ⟨_, _, _, _, _, _, _, _, _, _, _, _, _, rfl⟩ := h
  exact badges_pieces (by assumption)

theorem whisper_badges {m : MsgRef} {v : Whisper} (h : Whisper.parse m = .ok (some v)) :
    BadgesPieces m.src v.badges := by
  simp only [Whisper.parse, ok_bind, ok_guard, ok_get, ok_pure, ok_some, ok_req] at h
  obtain ⟨_, _, _, p, hp, ⟨r, t⟩, hs, _, _, _, _, _, _, _, _, _, _, _, _, rfl⟩ := h
  exact badges_pieces (by assumption)

theorem privmsg_badges {m : MsgRef} {v : Privmsg} (h : Privmsg.parse m = .ok (some v)) :
    BadgesPieces m.src v.badges := by
  simp only [Privmsg.parse, ok_bind, ok_guard, ok_get, ok_pure, ok_some, ok_req] at h
  obtain ⟨_, _, _, t, ht, _, _, _, _, _, _, _, _, _, _, _, _, _, _, r, hr, p, hp, _, hb, _, _, _, _, _,
    _, _, _, _, _, _, _, rfl⟩ := h
  exact badges_pieces (by assumption)

theorem userNotice_badges {m : MsgRef} {v : UserNotice} (h : UserNotice.parse m = .ok (some v)) :
    BadgesPieces m.src v.badges := by
  simp only [UserNotice.parse, ok_bind, ok_guard, ok_get, ok_pure, ok_some, ok_req] at h
  obtain ⟨_, _, _, _, _, _, _, ⟨ev, anon⟩, he, u, hu, _, _, _, _, _, _, _, _, _, _, _, _, _, _, _, _, _, _, _, _, rfl⟩ := h
  exact badges_pieces (by assumption)

theorem Each.pieces {s : Bytes} {M : Message} (h : Each s (messageTexts M)) (hb : BadgesPieces s (messageBadges M)) :
    Pieces s M := ⟨fun t ht => .inl (h t ht), hb⟩

theorem fromIrc_pieces {m : MsgRef} {M : Message} (h : Message.fromIrc m = .ok (some M)) : Pieces m.src M := by
  have none {s : Bytes} : BadgesPieces s [] := fun x hx => by cases hx
  have key : ∀ {α : Type} {x : R (Option α)} {f : α → Message}, into x f = .ok (some M) →
      ∃ v, x = .ok (some v) ∧ M = f v := by
    intro α x f hx
    match x, hx with
    | .ok (some v), hx => cases hx; exact ⟨v, rfl, rfl⟩
    | .ok Option.none, hx => cases hx
    | .error e, hx => cases hx
  unfold Message.fromIrc at h
  cases hc : m.command with
  | error e => rw [hc] at h; cases h
  | ok c =>
    rw [hc, bind_ok] at h
    split at h
    · obtain ⟨v, hv, rfl⟩ := key h; exact (clearChat_pieces hv).pieces none
    · obtain ⟨v, hv, rfl⟩ := key h; exact (clearMsg_pieces hv).pieces none
    · obtain ⟨v, hv, rfl⟩ := key h; exact (globalUserState_pieces hv).pieces (globalUserState_badges hv)
    · obtain ⟨v, hv, rfl⟩ := key h; exact (join_pieces hv).pieces none
    · obtain ⟨v, hv, rfl⟩ := key h; exact (notice_pieces hv).pieces none
    · obtain ⟨v, hv, rfl⟩ := key h; exact (part_pieces hv).pieces none
    · obtain ⟨v, hv, rfl⟩ := key h; exact (ping_pieces hv).pieces none
    · obtain ⟨v, hv, rfl⟩ := key h; exact (pong_pieces hv).pieces none
    · obtain ⟨v, hv, rfl⟩ := key h; exact (privmsg_pieces hv).pieces (privmsg_badges hv)
    · cases h; exact Each.pieces .nil none
    · obtain ⟨v, hv, rfl⟩ := key h; exact (roomState_pieces hv).pieces none
    · obtain ⟨v, hv, rfl⟩ := key h
      refine ⟨fun t ht => ?_, userNotice_badges hv⟩
      rcases userNotice_pieces hv t ht with h' | ⟨h1, h2⟩
      · exact .inl h'
      · exact .inr ⟨h1, v, rfl, h2⟩
    · obtain ⟨v, hv, rfl⟩ := key h; exact (userState_pieces hv).pieces (userState_badges hv)
    · obtain ⟨v, hv, rfl⟩ := key h; exact (whisper_pieces hv).pieces (whisper_badges hv)
    · cases h; exact Each.pieces (.cons (List.infix_refl _) .nil) none

/-! ### Raw messages -/

theorem pair_pieces {p : TagPair} {c : Bool} {s k v : Bytes} (h : p.get c s = .ok (k, v)) : k <:+: s ∧ v <:+: s := by
  unfold TagPair.get at h
  cases h1 : p.key c with
  | error e => rw [h1] at h; cases h
  | ok a =>
    rw [h1, bind_ok] at h
    cases h2 : a.get s with
    | error e => rw [h2] at h; cases h
    | ok k' =>
      rw [h2, bind_ok] at h
      cases h3 : p.value c with
      | error e => rw [h3] at h; cases h
      | ok a' =>
        rw [h3, bind_ok] at h
        cases h4 : a'.get s with
        | error e => rw [h4] at h; cases h
        | ok v' =>
          rw [h4] at h
          cases h
          exact ⟨slice_piece h2, slice_piece h4⟩

theorem pairs_pieces {c : Bool} {s : Bytes} : ∀ {ps : List TagPair} {l : List (Bytes × Bytes)},
    (ps.mapM (fun p => p.get c s) : R _) = .ok l → ∀ k v, (k, v) ∈ l → k <:+: s ∧ v <:+: s
  | [], l, h, k, v, hm => by rw [List.mapM_nil] at h; cases h; cases hm
  | p :: ps, l, h, k, v, hm => by
    rw [List.mapM_cons] at h
    cases h1 : p.get c s with
    | error e => rw [h1] at h; cases h
    | ok a =>
      rw [h1, bind_ok] at h
      cases h2 : ps.mapM (fun p => p.get c s) with
      | error e => rw [h2] at h; cases h
      | ok r =>
        rw [h2] at h
        cases h
        rcases List.mem_cons.1 hm with rfl | hm
        · exact pair_pieces h1
        · exact pairs_pieces h2 k v hm

theorem command_piece {m : MsgRef} {w : Bytes} (h : m.command = .ok (.other w)) : w <:+: m.src := by
  unfold MsgRef.command RawCommand.get at h
  split at h
  case h_25 =>
    rename_i sp _
    cases e : sp.get m.src with
    | error f => rw [e] at h; cases h
    | ok x => rw [e] at h; cases h; exact slice_piece e
  all_goals cases h

theorem raw_pieces (m : MsgRef) : RawPieces m.src m where
  tags _ h := pairs_pieces h
  tag _ _ h := tag_piece h
  nick _ v h := (prefix_pieces h).1 v
  user _ v h := (prefix_pieces h).2.1 v
  host _ h := (prefix_pieces h).2.2
  command _ h := command_piece h
  channel _ h := channel_piece h
  params v h := params_piece h v rfl
  text _ h := text_piece h

end Tmi.Proofs
