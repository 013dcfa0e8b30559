/-
Lemmas: the lines in which the server passes on what chatters write.
-/
import Verif.Spec.Chatter
import Verif.Proofs.CommandLine
import Verif.Proofs.TagsRead
import Verif.Props.Escape

namespace Tmi.Proofs
open Tmi.Model Tmi.Spec

theorem takePrefix_space {p : Bytes} (rest : Bytes) (hp : SP ∉ p) :
    takePrefix (COLON :: (p ++ SP :: rest)) = (some p, rest) := by
  unfold takePrefix
  simp only [if_true]
  rw [cut_append rest hp]

theorem frame_eq (f : Frame) (t : Bytes) : f.line t =
    AT :: (renderTags f.tags ++ SP :: (COLON :: (f.pfx ++ SP :: (f.command ++ SP :: (f.target ++ SP :: (COLON :: t)))))) := by
  simp [Frame.line]

/-- The tags of a frame. -/
theorem frame_tags {f : Frame} (h : f.Ok) (t : Bytes) : tagPairs (f.line t) = f.tags := by
  unfold tagPairs
  rw [frame_eq, takeTags_space _ (renderTags_no_space _ fun p hp => ⟨(h.keys p hp).2, (h.values p hp).2⟩)]
  exact splitTags_render _ fun p hp => ⟨(h.keys p hp).1, (h.values p hp).1⟩

/-- A frame, read by the line grammar. -/
theorem frame_line {f : Frame} (h : f.Ok) (t : Bytes) : Spec.line (f.line t) = some
    { tags := f.tags, prefix? := some f.pfx, command := f.command,
      channel := (takeChannel (f.target ++ SP :: (COLON :: t))).1,
      params := if (takeChannel (f.target ++ SP :: (COLON :: t))).2 = [] then none
        else some (takeChannel (f.target ++ SP :: (COLON :: t))).2 } := by
  have ht := frame_tags h t
  unfold tagPairs at ht
  rw [frame_eq] at ht ⊢
  unfold Spec.line
  rw [takeTags_space _ (renderTags_no_space _ fun p hp => ⟨(h.keys p hp).2, (h.values p hp).2⟩)] at ht ⊢
  simp only [] at ht ⊢
  rw [takePrefix_space _ h.pfx]
  simp only []
  rw [takeToken_space h.command.1]
  simp only []
  rw [if_neg h.command.2, ht]

/-- A frame with a channel. -/
theorem frame_channel {f : Frame} (h : f.Ok) (hc : f.target.head? = some HASH) (t : Bytes) :
    Spec.line (f.line t) = some ⟨f.tags, some f.pfx, f.command, some f.target, some (COLON :: t)⟩ := by
  rw [frame_line h, takeChannel_space hc h.target]
  simp

/-- A frame without a channel. -/
theorem frame_other {f : Frame} (h : f.Ok) (hc : f.target.head? ≠ some HASH) (t : Bytes) :
    Spec.line (f.line t) = some ⟨f.tags, some f.pfx, f.command, none, some (f.target ++ SP :: (COLON :: t))⟩ := by
  rw [frame_line h]
  have : takeChannel (f.target ++ SP :: (COLON :: t)) = (none, f.target ++ SP :: (COLON :: t)) := by
    unfold takeChannel
    cases hf : f.target with
    | nil => simp only [List.nil_append]; rw [if_neg (by decide)]
    | cons x r =>
      rw [hf] at hc
      simp only [List.cons_append]
      rw [if_neg (fun h => hc (by rw [h]; rfl))]
  rw [this]
  simp

/-- Whatever text is chosen, the frame is as it should be. -/
theorem gap_ok {g : Gap} (h : g.Ok) (n : List Char) : (g.fill n).Ok := by
  have hs := Props.C18_escape_safe n
  have h := h.frame
  constructor
  · intro q hq
    simp only [Gap.fill, List.mem_append, List.mem_cons] at hq
    rcases hq with hq | rfl | hq
    · exact h.keys q (by simp [Gap.fill, hq])
    · exact h.keys (g.key, enc (escape [])) (by simp [Gap.fill])
    · exact h.keys q (by simp [Gap.fill, hq])
  · intro q hq
    simp only [Gap.fill, List.mem_append, List.mem_cons] at hq
    rcases hq with hq | rfl | hq
    · exact h.values q (by simp [Gap.fill, hq])
    · exact ⟨hs.2.1, hs.1⟩
    · exact h.values q (by simp [Gap.fill, hq])
  · exact h.pfx
  · exact h.command
  · exact h.target

/-- The tag that was chosen. -/
theorem gap_tag {g : Gap} (h : g.Ok) (n : List Char) : lookup g.key (g.fill n).tags = some (enc (escape n)) := by
  have : lookup g.key g.before = none := lookup_eq_none.2 fun v hv hk => h.once (hk ▸ List.mem_map_of_mem hv)
  rw [Gap.fill, lookup_append, this]
  simp [lookup]

/-- The other tags. -/
theorem gap_other {g : Gap} {j : Bytes} (n n' : List Char) (h : j ≠ g.key) :
    lookup j (g.fill n).tags = lookup j (g.fill n').tags := by
  rw [Gap.fill, Gap.fill, lookup_append, lookup_append]
  simp [lookup, Ne.symm h]

/-- The event of a USERNOTICE depends only on its tags. -/
theorem eventOf_tags {l l' : Line} (h : ∀ k, k ≠ b!"display-name" → k ≠ b!"system-msg" → l'.tag k = l.tag k) {id : Bytes}
    {e : Event} {a : Bool} (he : EventOf l id e a) : EventOf l' id e a := by
  have hn : ∀ k n, k ≠ b!"display-name" → k ≠ b!"system-msg" → (l'.num k n ↔ l.num k n) := by
    intro k n h1 h2; unfold Line.num; rw [h k h1 h2]
  cases he with
  | subOrResub h1 h2 h3 h4 h5 =>
    exact .subOrResub h1 ((hn _ _ (by decide) (by decide)).2 h2)
      (fun n => by rw [hn _ _ (by decide) (by decide)]; exact h3 n)
      (by rw [h _ (by decide) (by decide)]; exact h4) (by rw [h _ (by decide) (by decide)]; exact h5)
  | raid h1 h2 => exact .raid ((hn _ _ (by decide) (by decide)).2 h1) (by rw [h _ (by decide) (by decide)]; exact h2)
  | subGift h1 h2 h3 h4 h5 h6 h7 h8 h9 =>
    refine .subGift h1 ((hn _ _ (by decide) (by decide)).2 h2) ?_ ?_ ?_ ?_ ?_ ((hn _ _ (by decide) (by decide)).2 h8) ?_ <;>
      rw [h _ (by decide) (by decide)] <;> assumption
  | anonSubMysteryGift h1 h2 h3 =>
    exact .anonSubMysteryGift (by rw [h _ (by decide) (by decide)]; exact h1) ((hn _ _ (by decide) (by decide)).2 h2)
      (by rw [h _ (by decide) (by decide)]; exact h3)
  | subMysteryGift h1 h2 h3 h4 =>
    exact .subMysteryGift (by rw [h _ (by decide) (by decide)]; exact h1) ((hn _ _ (by decide) (by decide)).2 h2)
      ((hn _ _ (by decide) (by decide)).2 h3) (by rw [h _ (by decide) (by decide)]; exact h4)
  | giftPaidUpgrade h1 h2 h3 =>
    refine .giftPaidUpgrade (by rw [h _ (by decide) (by decide)]; exact h1)
      (by rw [h _ (by decide) (by decide)]; exact h2) fun p => ?_
    rw [hn _ _ (by decide) (by decide), h _ (by decide) (by decide)]; exact h3 p
  | anonGiftPaidUpgrade h1 =>
    refine .anonGiftPaidUpgrade fun p => ?_
    rw [hn _ _ (by decide) (by decide), h _ (by decide) (by decide)]; exact h1 p
  | ritual h1 => exact .ritual (by rw [h _ (by decide) (by decide)]; exact h1)
  | bitsBadgeTier h1 => exact .bitsBadgeTier ((hn _ _ (by decide) (by decide)).2 h1)
  | announcement h1 => exact .announcement (by rw [h _ (by decide) (by decide)]; exact h1)
  | unknown h1 => exact .unknown h1

/-- In a text that begins with a word, the first `" :"` is not before the end of the word. -/
theorem first_of_space {w a t b : Bytes} (hw : SP ∉ w) (h : w ++ SP :: COLON :: t = a ++ SP :: COLON :: b) :
    w.length ≤ a.length := by
  rcases List.append_eq_append_iff.1 h with ⟨c, rfl, -⟩ | ⟨c, hc, h2⟩
  · simp
  · cases c with
    | nil => simp [hc]
    | cons z c =>
      simp only [List.cons_append, List.cons.injEq] at h2
      rw [hc, ← h2.1] at hw
      simp at hw

/-- Splitting at the first `" :"` of a text that begins with a word and `" :"`. -/
theorem first_space {w t r u : Bytes} (h : w ++ SP :: COLON :: t = r ++ SP :: COLON :: u) (hw : SP ∉ w)
    (hf : ∀ a b, r ++ SP :: COLON :: u = a ++ SP :: COLON :: b → r.length ≤ a.length) : w = r ∧ t = u := by
  have h1 := first_of_space hw h
  have h2 := hf w t h.symm
  obtain ⟨e1, e2⟩ := List.append_inj h (by omega)
  simp at e2
  exact ⟨e1, e2⟩

/-- The tags that chatters choose the text of. -/
def free : List Bytes :=
  [b!"display-name", b!"reply-parent-display-name", b!"reply-parent-msg-body", b!"system-msg"]

/-- The hype chat is not made of such tags. -/
theorem pinnedOf_free {l l' : Line} (h : ∀ k, k ∉ free → l'.tag k = l.tag k) (r : PinnedChat) :
    PinnedOf l r ↔ PinnedOf l' r := by
  constructor <;> intro P <;> refine ⟨?_, ?_, ?_, ?_, ?_⟩
  · rw [h _ (by decide)]; exact P.amount
  · rw [h _ (by decide)]; exact P.currency
  · rw [h _ (by decide)]; exact P.exponent
  · rw [h _ (by decide)]; exact P.level
  · rw [h _ (by decide)]; exact P.isSystemMessage
  · rw [← h _ (by decide)]; exact P.amount
  · rw [← h _ (by decide)]; exact P.currency
  · rw [← h _ (by decide)]; exact P.exponent
  · rw [← h _ (by decide)]; exact P.level
  · rw [← h _ (by decide)]; exact P.isSystemMessage

theorem timestampOf_free {l l' : Line} (h : ∀ k, k ∉ free → l'.tag k = l.tag k) {t : Timestamp} (T : TimestampOf l t) :
    TimestampOf l' t := by
  unfold TimestampOf; rw [h _ (by decide)]; exact T

/-- A chat message with another text, name or reply. -/
theorem privmsgOf_free {l l' : Line} {p p' : Privmsg} (P : PrivmsgOf l p) (h : ∀ k, k ∉ free → l'.tag k = l.tag k)
    (hc : l'.channel = l.channel) (hn : l'.nick = l.nick)
    (hs : p' = { p with text := p'.text, isAction := p'.isAction, replyTo := p'.replyTo,
                        sender := { p.sender with name := p'.sender.name } })
    (ht : ∃ t, l'.text = some t ∧ TextOf t p'.text p'.isAction)
    (hd : l'.tag (b!"display-name") = some p'.sender.name) (hr : ∀ r, p'.replyTo = some r ↔ ReplyOf l' r) :
    PrivmsgOf l' p' := by
  refine ⟨ht, ?_, ?_, ?_, ?_, ?_, ?_, hd, hr, ?_, ?_, ?_, ?_, ?_, ?_, ?_⟩ <;> rw [hs] <;> simp only []
  · rw [hc]; exact P.channel
  · rw [h _ (by decide)]; exact P.channelId
  · rw [h _ (by decide)]; exact P.msgId
  · rw [h _ (by decide)]; exact P.id
  · rw [h _ (by decide)]; exact P.senderId
  · rw [hn]; exact P.senderLogin
  · intro r; rw [← pinnedOf_free h]; exact P.pinnedChat r
  · rw [h _ (by decide), h _ (by decide)]; exact P.badges
  · rw [h _ (by decide)]; exact P.color
  · rw [h _ (by decide)]; exact P.customRewardId
  · rw [h _ (by decide)]; exact P.bits
  · rw [h _ (by decide)]; exact P.emotes
  · exact timestampOf_free h P.timestamp

/-- A reply does not depend on the tags that have nothing to do with it. -/
theorem replyOf_other {l l' : Line}
    (h : ∀ k, k ∉ [b!"display-name", b!"system-msg"] → l'.tag k = l.tag k) (r : Reply) : ReplyOf l r ↔ ReplyOf l' r := by
  constructor <;> intro P <;> refine ⟨?_, ?_, ?_, ?_, ?_, ?_, ?_⟩
  · rw [h _ (by decide)]; exact P.messageId
  · rw [h _ (by decide)]; exact P.threadParentMessageId
  · rw [h _ (by decide)]; exact P.threadParentUserLogin
  · rw [h _ (by decide)]; exact P.senderId
  · rw [h _ (by decide)]; exact P.senderLogin
  · rw [h _ (by decide)]; exact P.senderName
  · rw [h _ (by decide)]; exact P.text
  · rw [← h _ (by decide)]; exact P.messageId
  · rw [← h _ (by decide)]; exact P.threadParentMessageId
  · rw [← h _ (by decide)]; exact P.threadParentUserLogin
  · rw [← h _ (by decide)]; exact P.senderId
  · rw [← h _ (by decide)]; exact P.senderLogin
  · rw [← h _ (by decide)]; exact P.senderName
  · rw [← h _ (by decide)]; exact P.text

/-- A reply with another text. -/
theorem replyOf_text {l l' : Line} {v v' : Bytes} (h : ∀ k, k ≠ b!"reply-parent-msg-body" → l'.tag k = l.tag k)
    (hv : l.tag (b!"reply-parent-msg-body") = some v) (hv' : l'.tag (b!"reply-parent-msg-body") = some v')
    {o : Option Reply} (ho : ∀ r, o = some r ↔ ReplyOf l r) (r : Reply) :
    o.map (fun r => { r with text := v' }) = some r ↔ ReplyOf l' r := by
  rw [Option.map_eq_some_iff]
  constructor
  · rintro ⟨q, hq, rfl⟩
    have P := (ho q).1 hq
    refine ⟨?_, ?_, ?_, ?_, ?_, ?_, hv'⟩ <;> rw [h _ (by decide)]
    · exact P.messageId
    · exact P.threadParentMessageId
    · exact P.threadParentUserLogin
    · exact P.senderId
    · exact P.senderLogin
    · exact P.senderName
  · intro P
    have ht := P.text
    rw [hv'] at ht
    refine ⟨{ r with text := v }, (ho _).2 ⟨?_, ?_, ?_, ?_, ?_, ?_, hv⟩, ?_⟩
    · rw [← h _ (by decide)]; exact P.messageId
    · rw [← h _ (by decide)]; exact P.threadParentMessageId
    · rw [← h _ (by decide)]; exact P.threadParentUserLogin
    · rw [← h _ (by decide)]; exact P.senderId
    · rw [← h _ (by decide)]; exact P.senderLogin
    · rw [← h _ (by decide)]; exact P.senderName
    · cases r; simp at ht; simp [ht]

/-- A reply with another name. -/
theorem replyOf_name {l l' : Line} {v v' : Bytes} (h : ∀ k, k ≠ b!"reply-parent-display-name" → l'.tag k = l.tag k)
    (hv : l.tag (b!"reply-parent-display-name") = some v) (hv' : l'.tag (b!"reply-parent-display-name") = some v')
    {o : Option Reply} (ho : ∀ r, o = some r ↔ ReplyOf l r) (r : Reply) :
    o.map (fun r => { r with sender := { r.sender with name := v' } }) = some r ↔ ReplyOf l' r := by
  rw [Option.map_eq_some_iff]
  constructor
  · rintro ⟨q, hq, rfl⟩
    have P := (ho q).1 hq
    refine ⟨?_, ?_, ?_, ?_, ?_, hv', ?_⟩ <;> rw [h _ (by decide)]
    · exact P.messageId
    · exact P.threadParentMessageId
    · exact P.threadParentUserLogin
    · exact P.senderId
    · exact P.senderLogin
    · exact P.text
  · intro P
    have ht := P.senderName
    rw [hv'] at ht
    refine ⟨{ r with sender := { r.sender with name := v } }, (ho _).2 ⟨?_, ?_, ?_, ?_, ?_, hv, ?_⟩, ?_⟩
    · rw [← h _ (by decide)]; exact P.messageId
    · rw [← h _ (by decide)]; exact P.threadParentMessageId
    · rw [← h _ (by decide)]; exact P.threadParentUserLogin
    · rw [← h _ (by decide)]; exact P.senderId
    · rw [← h _ (by decide)]; exact P.senderLogin
    · rw [← h _ (by decide)]; exact P.text
    · obtain ⟨_, _, _, ⟨_, _, _⟩, _⟩ := r; simp at ht; simp [ht]

/-- Only the empty text is escaped to nothing. -/
theorem enc_escape_nil (n : List Char) : enc (escape n) = [] ↔ n = [] := by
  constructor
  · intro h
    have h := enc_injective (b := []) (by rw [h]; rfl)
    cases n with
    | nil => rfl
    | cons c r =>
      have hc : escapeChar c ≠ [] := by
        unfold escapeChar
        repeat' (split <;> try simp only [ne_eq, reduceCtorEq, not_false_eq_true])
      simp [escape, hc] at h
  · rintro rfl; rfl

/-- A user notice with another text, name or system message. -/
theorem userNoticeOf_free {l l' : Line} {p p' : UserNotice} (P : UserNoticeOf l p)
    (h : ∀ k, k ≠ b!"display-name" → k ≠ b!"system-msg" → l'.tag k = l.tag k) (hc : l'.channel = l.channel)
    (ht : l'.text = p'.text)
    (hs : p' = { p with text := p'.text, systemMessage := p'.systemMessage, sender := p'.sender })
    (hd : ∀ u, p.sender = some u → ∃ v, l'.tag (b!"display-name") = some v ∧ p'.sender = some { u with name := v })
    (hd' : p.sender = none → p'.sender = none) (hm : OptText (l'.tag (b!"system-msg")) p'.systemMessage) :
    UserNoticeOf l' p' := by
  obtain ⟨anon, he, hp⟩ := P.event
  refine ⟨?_, ?_, ⟨anon, ?_, ?_⟩, ht, hm, ?_, ?_, ?_, ?_, ?_, ?_⟩
  · rw [hs, hc]; exact P.channel
  · rw [hs, h _ (by decide) (by decide)]; exact P.channelId
  · rw [hs]; exact eventOf_tags h he
  · cases hq : p.sender with
    | none => rw [hd' hq]; rw [hq] at hp; exact hp
    | some u =>
      obtain ⟨v, h1, h2⟩ := hd u hq
      rw [h2]
      rw [hq] at hp
      simp only [] at hp ⊢
      rw [h _ (by decide) (by decide), h _ (by decide) (by decide)]
      exact ⟨hp.1, hp.2.1, hp.2.2.1, h1⟩
  · rw [hs, h _ (by decide) (by decide)]; exact P.eventId
  · rw [hs, h _ (by decide) (by decide), h _ (by decide) (by decide)]; exact P.badges
  · rw [hs, h _ (by decide) (by decide)]; exact P.emotes
  · rw [hs, h _ (by decide) (by decide)]; exact P.color
  · rw [hs, h _ (by decide) (by decide)]; exact P.messageId
  · rw [hs]
    unfold TimestampOf
    rw [h _ (by decide) (by decide)]; exact P.timestamp

end Tmi.Proofs
