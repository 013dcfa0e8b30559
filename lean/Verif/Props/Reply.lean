/-
Properties C92 and C93: replies, and the tags of sent messages.
-/
import Verif.Props.Send
import Verif.Props.Documented
import Verif.Props.Getters
import Verif.Proofs.Arrives

namespace Tmi.Props
open Tmi.Model Tmi.Spec Tmi.Proofs

/-! ## C92: a reply refers to the message it replies to -/

/-- The value of a tag of a line. -/
theorem line_tag_facts {s : Bytes} (hu : Utf8 s) (hw : Within s) {l : Line} (hl : line s = some l) {k v : Bytes}
    (h : l.tag k = some v) : Utf8 v ∧ SEMI ∉ v ∧ SP ∉ v ∧ v.length < 65536 := by
  have ht : l.tags = tagPairs s := by
    unfold line at hl
    simp only [] at hl
    split at hl
    · simp at hl
    · rw [← Option.some.inj hl]; rfl
  have hm : (k, v) ∈ tagPairs s := ht ▸ lookup_mem h
  refine ⟨?_, ?_, line_tag_no_space hl h, (hw.sizes _ hm).2⟩
  · obtain ⟨m, hm, hsrc, R⟩ := parse_line (b := ⟨.simd .sse2 0, true⟩) hl hu hw (fun h => by cases h)
    exact (tags_utf8 (hsrc ▸ hu) R.tags _ (lookup_mem h)).2
  · unfold tagPairs at hm
    cases hc : (takeTags s).1 with
    | none => rw [hc] at hm; simp at hm
    | some t =>
      rw [hc] at hm
      exact (splitTags_mem _ t (Nat.le_refl _) _ hm).2.1

/-- The channel of a line. -/
theorem line_channel_facts {s : Bytes} (hu : Utf8 s) (hw : Within s) {l : Line} (hl : line s = some l) {c : Bytes}
    (h : l.channel = some c) : Utf8 c ∧ c.head? = some HASH ∧ SP ∉ c := by
  obtain ⟨m, hm, hsrc, R⟩ := parse_line (b := ⟨.simd .sse2 0, true⟩) hl hu hw (fun h => by cases h)
  refine ⟨optSlice_utf8 (hsrc ▸ hu) R.rawChannel c h, ?_⟩
  unfold line at hl
  simp only [] at hl
  split at hl
  · simp at hl
  · rw [← Option.some.inj hl] at h
    simp only [] at h
    rcases takeChannel_cases (takeToken (takePrefix (takeTags s).2).2).2 with ⟨d, _, _, hd, e⟩ | ⟨d, _, hd, e⟩ | ⟨_, e⟩ <;>
      rw [e] at h
    · cases h; exact ⟨rfl, by simp [hd]; decide⟩
    · cases h; exact ⟨rfl, by simp [hd]; decide⟩
    · cases h

/-- C92: for every received chat message and every text, `privmsg(msg.channel(), text).reply_to(msg.id())` sends, if it
succeeds, a line that every build reads as a chat message with that text, in the channel of the received message and with
its id as the message that is replied to. -/
theorem C92_reply (b b' : Build) (s : Bytes) (hs : Readable b s) (msg : Privmsg)
    (hmsg : parseAs Privmsg.parse b s = .ok (some msg)) (text : Bytes) (hut : Utf8 text) (w w' : World)
    (h0 : w.client.scratch = [])
    (hsend : Cmd.send (.privmsg (Getter.Privmsg.channel msg) text (some (Getter.Privmsg.id msg)) none) w = (.ok (.ok ()), w'))
    (hlen : (wire w w').length < 4294967296) :
    ∃ l s' m, line s = some l ∧ wire w w' = s' ++ [CR, LF] ∧ MsgRef.parse b' s' = .ok (some m) ∧
      m.command = .ok .privmsg ∧ m.channel = .ok l.channel ∧ m.text = .ok (some text) ∧
      m.tag .replyParentMsgId = .ok (l.tag (b!"id")) := by
  obtain ⟨l, hl, -, P⟩ := ((C23_privmsg b s hs.1 hs.2.1 hs.2.2).2 msg).1 hmsg
  obtain ⟨c1, c2, c3⟩ := line_channel_facts hs.1 hs.2.1 hl P.channel
  have hid := line_tag_facts hs.1 hs.2.1 hl P.id
  obtain ⟨s', m, e1, e2, e3, e4, e5, -, -, e6, -⟩ := C35_privmsg b' _ text _ none w w' h0 hsend c2 c3 c1 hut
    (fun v hv => by rcases hv with hv | hv <;> cases hv; exact hid) hlen
  exact ⟨l, s', m, hl, e1, e2, e3, by rw [P.channel]; exact e4, e5, by rw [P.id]; exact e6⟩

/-- The reply to a chat message. -/
example : (Cmd.send (.privmsg (b!"#c") (b!"yo") (some (b!"m1")) none) (sampleWorld [.accept 7, .accept 1000])).1 = .ok (.ok ()) ∧
    wire (sampleWorld []) (Cmd.send (.privmsg (b!"#c") (b!"yo") (some (b!"m1")) none) (sampleWorld [.accept 7, .accept 1000])).2 =
      b!"@reply-parent-msg-id=m1 PRIVMSG #c :yo\r\n" ∧
    (parseAs Privmsg.parse ⟨.scalar, true⟩ samplePriv).map (·.map fun m => (Getter.Privmsg.channel m, Getter.Privmsg.id m)) =
      .ok (some (b!"#c", b!"m1")) := by decide +kernel

example := C92_reply ⟨.scalar, true⟩ ⟨.simd .avx2 7, false⟩ samplePriv (readable_of samplePriv_ok _) _
  (given_eq _ samplePriv_parsed) (b!"yo") (.of_ascii (by decide)) (sampleWorld [.accept 7, .accept 1000])
  (Cmd.send (.privmsg (Getter.Privmsg.channel (given _ samplePriv_parsed)) (b!"yo")
    (some (Getter.Privmsg.id (given _ samplePriv_parsed))) none) (sampleWorld [.accept 7, .accept 1000])).2
  rfl (by decide +kernel) (by decide +kernel)

/-! ## C93: the id and the nonce given to a message arrive -/

theorem sent_line {c : Cmd} (hc : ∀ s, c ≠ .raw s) {w w' : World} (h0 : w.client.scratch = [])
    (hsend : Cmd.send c w = (.ok (.ok ()), w')) : wire w w' = commandLine c ++ [CR, LF] := by
  have hw := (C34_one_call c w h0).2.1 (by rw [hsend])
  rw [hsend] at hw
  rw [hw]
  cases c <;> first | rfl | exact absurd rfl (hc _)

theorem unesc_literally {t : List Char} (h : ∀ c ∈ t, Literally c) : unesc t = t :=
  (unesc_eq_iff t).2 ⟨fun hc => (h _ hc).2.2.1 rfl, fun hc => (h _ hc).2.2.2 rfl⟩

theorem enc_literally {t : List Char} (h : ∀ c ∈ t, Literally c) : SEMI ∉ enc t ∧ SP ∉ enc t := by
  rw [ascii_mem_enc (by decide), ascii_mem_enc (by decide)]
  exact ⟨fun hc => (h _ hc).1 rfl, fun hc => (h _ hc).2.1 rfl⟩

/-- C93, the part that holds, and exactly where: the id given to `reply_to` is what the receiver reads in
`reply-parent-msg-id` if and only if it contains no `;`, no space, no backslash and no `⸝`. -/
theorem C93_reply_partial (ch text : Bytes) (t : List Char) (nonce : Option Bytes) (w w' : World)
    (h0 : w.client.scratch = []) (hsend : Cmd.send (.privmsg ch text (some (enc t)) nonce) w = (.ok (.ok ()), w'))
    (hch : ch.head? = some HASH) (hsp : SP ∉ ch) (hn : ∀ v, nonce = some v → SEMI ∉ v ∧ SP ∉ v) :
    ∃ s, wire w w' = s ++ [CR, LF] ∧ (ReadsTag s (b!"reply-parent-msg-id") t ↔ ∀ c ∈ t, Literally c) := by
  refine ⟨_, sent_line (by simp) h0 hsend, fun h => ?_, fun h => ?_⟩
  · rw [privmsg_shape] at h
    cases nonce with
    | none =>
      refine first_tag_literally (k := b!"reply-parent-msg-id") (.inr rfl) (by decide) (by decide)
        (rest := b!"PRIVMSG" ++ SP :: (ch ++ SP :: (COLON :: text))) ?_
      simpa [sentTags, renderTags] using h
    | some n =>
      refine first_tag_literally (k := b!"reply-parent-msg-id") (.inl rfl) (by decide) (by decide)
        (rest := b!"client-nonce=" ++ n ++ SP :: (b!"PRIVMSG" ++ SP :: (ch ++ SP :: (COLON :: text)))) ?_
      simpa [sentTags, renderTags] using h
  · have hl := privmsg_line (text := text) (reply := some (enc t)) (nonce := nonce) hch hsp
      (fun v hv => by
        rcases hv with hv | hv
        · cases hv; exact enc_literally h
        · exact hn v hv)
    exact ⟨_, t, hl, by simp [Line.tag, sentTags, lookup], unesc_literally h⟩

/-- An id that arrives, with a nonce. -/
example := (C93_reply_partial (b!"#c") (b!"yo") "m=1,é".toList (some (b!"n")) (sampleWorld [.accept 7, .accept 1000])
  (Cmd.send (.privmsg (b!"#c") (b!"yo") (some (enc "m=1,é".toList)) (some (b!"n"))) (sampleWorld [.accept 7, .accept 1000])).2
  rfl (by decide +kernel) rfl (by decide) (by decide))
example : ∀ c ∈ "m=1,é".toList, Literally c := by unfold Literally; decide

/-- C93, the part that holds, and exactly where: likewise the nonce given to `client_nonce`, in a message that is not
a reply or is a reply to a message whose id can be sent. -/
theorem C93_nonce_partial (ch text : Bytes) (t : List Char) (reply : Option Bytes) (w w' : World)
    (h0 : w.client.scratch = []) (hsend : Cmd.send (.privmsg ch text reply (some (enc t))) w = (.ok (.ok ()), w'))
    (hch : ch.head? = some HASH) (hsp : SP ∉ ch) (hr : ∀ v, reply = some v → SEMI ∉ v ∧ SP ∉ v) :
    ∃ s, wire w w' = s ++ [CR, LF] ∧ (ReadsTag s (b!"client-nonce") t ↔ ∀ c ∈ t, Literally c) := by
  refine ⟨_, sent_line (by simp) h0 hsend, fun h => ?_, fun h => ?_⟩
  · rw [privmsg_shape] at h
    cases reply with
    | none =>
      refine first_tag_literally (k := b!"client-nonce") (.inr rfl) (by decide) (by decide)
        (rest := b!"PRIVMSG" ++ SP :: (ch ++ SP :: (COLON :: text))) ?_
      simpa [sentTags, renderTags] using h
    | some r =>
      refine second_tag_literally (k := b!"client-nonce") (j := b!"reply-parent-msg-id") (r := r) (by decide) (by decide)
        (by decide) (by decide) (by decide) (hr r rfl).1 (hr r rfl).2
        (rest := b!"PRIVMSG" ++ SP :: (ch ++ SP :: (COLON :: text))) ?_
      simpa [sentTags, renderTags] using h
  · have hl := privmsg_line (text := text) (reply := reply) (nonce := some (enc t)) hch hsp
      (fun v hv => by
        rcases hv with hv | hv
        · exact hr v hv
        · cases hv; exact enc_literally h)
    refine ⟨_, t, hl, ?_, unesc_literally h⟩
    cases reply <;> simp [Line.tag, sentTags, lookup]

/-- A nonce that arrives, with the id of a message. -/
example := (C93_nonce_partial (b!"#c") (b!"yo") "n1".toList (some (b!"m1")) (sampleWorld [.accept 7, .accept 1000])
  (Cmd.send (.privmsg (b!"#c") (b!"yo") (some (b!"m1")) (some (enc "n1".toList))) (sampleWorld [.accept 7, .accept 1000])).2
  rfl (by decide +kernel) rfl (by decide) (by decide))

/-- C93 is false: the nonce `a;reply-parent-msg-id=m` turns the message into a reply, `a b` ends the tags early and
makes another command of the message, and `a\sb` arrives as `a b`. -/
theorem C93_negation :
    (∃ l, line (commandLine (.privmsg (b!"#c") (b!"yo") none (some (b!"a;reply-parent-msg-id=m")))) = some l ∧
      l.tag (b!"client-nonce") = some (b!"a") ∧ l.tag (b!"reply-parent-msg-id") = some (b!"m")) ∧
    (∃ l, line (commandLine (.privmsg (b!"#c") (b!"yo") none (some (b!"a PART")))) = some l ∧
      l.command = b!"PART") ∧
    ReadsTag (commandLine (.privmsg (b!"#c") (b!"yo") none (some (enc "a\\sb".toList)))) (b!"client-nonce") "a b".toList :=
  ⟨⟨_, rfl, by decide +kernel, by decide +kernel⟩, ⟨_, rfl, by decide +kernel⟩,
    ⟨_, "a\\sb".toList, rfl, by decide +kernel, by decide⟩⟩

end Tmi.Props
