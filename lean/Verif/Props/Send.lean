/-
Properties C34-C38 and C45-C47, C49: sending.
-/
import Verif.Proofs.CommandLine
import Verif.Props.Sizes

namespace Tmi.Props
open Tmi.Model Tmi.Spec Tmi.Proofs

theorem wire_of {w w' : World} {ev : List Effect} (h : w'.log = w.log ++ ev) : wire w w' = written ev := by
  unfold wire; rw [h, List.drop_left]

/-! ## C34: each send writes exactly its own line -/

/-- A configuration for the examples: at most two attempts. -/
def sampleConfig : Config :=
  ⟨⟨b!"forsen", some (b!"secret")⟩, 1000, ⟨some 2, 10, 3, 50⟩⟩

/-- A connected client. -/
def sampleWorld (script : List Answer) : World := ⟨⟨false, [], sampleConfig⟩, [], script⟩

/-- One call on a client with an empty buffer: whatever happens (errors, cancellation at any point),
only a prefix of the command's bytes reaches the socket, and all of them if the call returns `Ok`.
Nothing else happens: no connection is opened, nothing is read, nothing is waited for. -/
theorem C34_one_call (c : Cmd) (w : World) (h0 : w.client.scratch = []) :
    wire w (c.send w).2 <+: commandBytes c ∧
    ((c.send w).1 = .ok (.ok ()) → wire w (c.send w).2 = commandBytes c) ∧
    (∃ ev, (c.send w).2.log = w.log ++ ev ∧ ∀ e ∈ ev, ∃ bs, e = .wrote bs) ∧
    (c.send w).2.client = w.client ∧ (∀ f, (c.send w).1 ≠ .error (.panic f)) := by
  by_cases hraw : ∃ s, c = .raw s
  · obtain ⟨s, rfl⟩ := hraw
    show wire w (sendRaw s w).2 <+: s ∧ ((sendRaw s w).1 = _ → wire w (sendRaw s w).2 = s) ∧
      (∃ ev, (sendRaw s w).2.log = w.log ++ ev ∧ ∀ e ∈ ev, ∃ bs, e = .wrote bs) ∧
      (sendRaw s w).2.client = w.client ∧ (∀ f, (sendRaw s w).1 ≠ .error (.panic f))
    by_cases hs : endsWith [CR, LF] s = true
    · obtain ⟨he, hc⟩ := sendRaw_effect hs w
      obtain ⟨ev, l1, l2, l3, l4⟩ := he.log
      rw [wire_of l1]
      exact ⟨l3, l4, ⟨ev, l1, l2⟩, hc, he.noPanic⟩
    · rw [sendRaw_invalid hs, wire_of (ev := []) (by simp)]
      exact ⟨List.nil_prefix, by simp, ⟨[], by simp, by simp⟩, rfl, by simp⟩
  · obtain ⟨he, hc⟩ := send_effect c (fun s h => hraw ⟨s, h⟩) w
    obtain ⟨ev, l1, l2, l3, l4⟩ := he.log
    rw [h0, List.nil_append] at l3 l4
    rw [wire_of l1]
    refine ⟨l3, l4, ⟨ev, l1, l2⟩, ?_, he.noPanic⟩
    have e1 := he.config
    have e2 := he.closed
    rw [← h0] at hc
    generalize (c.send w).2.client = x at *
    obtain ⟨x1, x2, x3⟩ := x
    simp only [] at e1 e2 hc
    rw [e1, e2, hc]

example := C34_one_call (.ping (b!"x")) (sampleWorld [.accept 3, .writeFailed ⟨.timedOut, 1⟩]) rfl

/-- C34, the part that holds: on a client on which any calls were made, with any outcomes, such that
no `reconnect` failed since the last successful one or since the last command was sent. -/
theorem C34_own_line_partial (w₀ w : World) (h : List (Op × Bool)) (h₀ : w₀.client.scratch = [])
    (hist : History w₀ h w) (hs : settled h = true) (c : Cmd) (answers : List Answer) :
    wire w (c.send { w with script := answers }).2 <+: commandBytes c ∧
    ((c.send { w with script := answers }).1 = .ok (.ok ()) →
      wire w (c.send { w with script := answers }).2 = commandBytes c) := by
  have := C34_one_call c { w with script := answers } ((history_pending hist h₀).2.2 hs)
  exact ⟨this.1, this.2.1⟩

/-- C34, all histories: what is sent is the command, preceded by some number of copies of the greeting
(with the token) left over by failed reconnects; `send_raw` is not affected. -/
theorem C34_leftovers (w₀ w : World) (h : List (Op × Bool)) (h₀ : w₀.client.scratch = [])
    (hist : History w₀ h w) :
    ∃ k, (settled h = true → k = 0) ∧ ∀ (c : Cmd) (answers : List Answer), (∀ s, c ≠ .raw s) →
      wire w (c.send { w with script := answers }).2 <+:
        copies k (hello w₀.client.config.credentials) ++ commandBytes c ∧
      ((c.send { w with script := answers }).1 = .ok (.ok ()) →
        wire w (c.send { w with script := answers }).2 =
          copies k (hello w₀.client.config.credentials) ++ commandBytes c) ∧
      (c.send { w with script := answers }).2.client.scratch = [] := by
  obtain ⟨h1, ⟨k, h2⟩, h3⟩ := history_pending hist h₀
  have hk : settled h = true → k = 0 := by
    intro hs
    have := h3 hs
    rw [h2] at this
    cases k with
    | zero => rfl
    | succ k =>
      rw [copies_succ] at this
      exact absurd (List.append_eq_nil_iff.1 this).2 (hello_ne_nil _)
  refine ⟨k, hk, fun c answers hc => ?_⟩
  obtain ⟨he, hz⟩ := send_effect c hc { w with script := answers }
  obtain ⟨ev, l1, l2, l3, l4⟩ := he.log
  rw [h1] at h2
  have e : ({ w with script := answers } : World).client.scratch = w.client.scratch := rfl
  rw [e, h2] at l3 l4
  have hw : wire w (c.send { w with script := answers }).2 = written ev := wire_of l1
  rw [hw]
  exact ⟨l3, l4, hz⟩

/-- Non-vacuity: a history with a failed send, a cancelled send, a successful reconnect and a received
line is settled, and the next command is sent whole although the socket takes it in pieces. -/
example : settled [(.send (.ping (b!"a")), false), (.reconnect ⟨.scalar, true⟩, true),
    (.recv ⟨.scalar, true⟩, true), (.send (.join (b!"b")), false)] = true := by decide
example : (Cmd.send (.privmsg (b!"#a") (b!"hi") none (some (b!"n")))
    (sampleWorld [.accept 3, .accept 20, .accept 1000])).1 = .ok (.ok ()) := by decide +kernel
example : written (Cmd.send (.privmsg (b!"#a") (b!"hi") none (some (b!"n")))
    (sampleWorld [.accept 3, .accept 20, .accept 1000])).2.log
      = b!"@client-nonce=n PRIVMSG #a :hi\r\n" := by decide +kernel

/-- C34 is false: when the handshake of a `reconnect` times out while writing, the next command sends
the whole greeting, with the token, before its own line. -/
theorem C34_negation :
    (reconnect ⟨.scalar, true⟩ (sampleWorld [.slept, .opened, .elapsed 0])).1 = .ok (.error .timeout) ∧
    wire (reconnect ⟨.scalar, true⟩ (sampleWorld [.slept, .opened, .elapsed 0])).2
      (Cmd.send (.ping (b!"x"))
        { (reconnect ⟨.scalar, true⟩ (sampleWorld [.slept, .opened, .elapsed 0])).2 with
          script := [.accept 1000] }).2 =
      b!"CAP REQ :twitch.tv/commands twitch.tv/tags twitch.tv/membership\r\nPASS oauth:secret\r\nNICK forsen\r\nPING :x\r\n" := by
  decide +kernel

/-! ## C35: sent commands parse back -/

/-- C35: `privmsg`.  The line that a successful call writes parses, in every build, to a PRIVMSG with
the given channel, text and tags. -/
theorem C35_privmsg (b : Build) (ch text : Bytes) (reply nonce : Option Bytes) (w w' : World)
    (h0 : w.client.scratch = [])
    (hsend : Cmd.send (.privmsg ch text reply nonce) w = (.ok (.ok ()), w'))
    (hch : ch.head? = some HASH) (hsp : SP ∉ ch)
    (huc : Utf8 ch) (hut : Utf8 text)
    (hv : ∀ v, reply = some v ∨ nonce = some v → Utf8 v ∧ SEMI ∉ v ∧ SP ∉ v ∧ v.length < 65536)
    (hlen : (wire w w').length < 4294967296) :
    ∃ s m, wire w w' = s ++ [CR, LF] ∧ MsgRef.parse b s = .ok (some m) ∧
      m.command = .ok .privmsg ∧ m.channel = .ok (some ch) ∧ m.text = .ok (some text) ∧
      m.prefix? = .ok none ∧
      m.tags = .ok ((reply.map fun v => (b!"reply-parent-msg-id", v)).toList ++
        (nonce.map fun v => (b!"client-nonce", v)).toList) ∧
      m.tag .replyParentMsgId = .ok reply ∧ m.tag .clientNonce = .ok nonce := by
  have hw := (C34_one_call (.privmsg ch text reply nonce) w h0).2.1 (by rw [hsend])
  rw [hsend] at hw
  simp only [commandBytes] at hw
  rw [hw] at hlen
  have hlen : (commandLine (.privmsg ch text reply nonce)).length < 4294967296 := by
    simp at hlen; omega
  obtain ⟨hl, hu, hwi, ht⟩ := privmsg_reads (b := b) hch hsp huc hut hv hlen
  obtain ⟨m, hm, _, R⟩ := parse_line hl hu hwi ht
  refine ⟨_, m, hw, hm, ?_, ?_, ?_, ?_, ?_, ?_, ?_⟩
  · rw [R.command]; rfl
  · exact channel_eq R (c := .privmsg) rfl (by decide) (by decide)
  · rw [R.text]; simp [textOf_colon]
  · rw [R.prefix?]; rfl
  · exact R.tags
  · rw [R.tag]
    cases reply <;> cases nonce <;> simp [sentTags, lookup, Tag.asStr]
  · rw [R.tag]
    cases reply <;> cases nonce <;> simp [sentTags, lookup, Tag.asStr]

/-- Non-vacuity of C35. -/
example : ∃ w', Cmd.send (.privmsg (b!"#chan") (b!"a :b") (some (b!"id")) (some (b!"n")))
    (sampleWorld [.accept 7, .accept 1000]) = (.ok (.ok ()), w') := ⟨_, rfl⟩

/-- C35: `ping` and `pong`. -/
theorem C35_ping_pong (b : Build) (n : Bytes) (hu : Utf8 n) (w w' : World) (h0 : w.client.scratch = [])
    (hlen : (wire w w').length < 4294967296) :
    (Cmd.send (.ping n) w = (.ok (.ok ()), w') →
      ∃ s, wire w w' = s ++ [CR, LF] ∧ parseAs Ping.parse b s = .ok (some ⟨some n⟩)) ∧
    (Cmd.send (.pong (some n)) w = (.ok (.ok ()), w') →
      ∃ s, wire w w' = s ++ [CR, LF] ∧ parseAs Pong.parse b s = .ok (some ⟨some n⟩)) ∧
    (Cmd.send (.pong none) w = (.ok (.ok ()), w') →
      ∃ s, wire w w' = s ++ [CR, LF] ∧ parseAs Pong.parse b s = .ok (some ⟨none⟩)) := by
  have hl : ∀ cmd : Bytes, SP ∉ cmd → cmd ≠ [] → cmd.head? ≠ some AT → cmd.head? ≠ some COLON →
      line (cmd ++ SP :: (COLON :: n)) = some ⟨[], none, cmd, none, some (COLON :: n)⟩ := by
    intro cmd h1 h2 h3 h4
    rw [line_plain h1 h2 h3 h4, takeChannel_other (by simp; decide)]
    simp
  have hsent : ∀ c, Cmd.send c w = (.ok (.ok ()), w') → wire w w' = commandBytes c := by
    intro c hc
    have := (C34_one_call c w h0).2.1 (by rw [hc])
    rwa [hc] at this
  refine ⟨fun h => ?_, fun h => ?_, fun h => ?_⟩
  · have hw := hsent _ h
    rw [hw] at hlen ⊢
    refine ⟨_, rfl, ?_⟩
    have e : commandLine (.ping n) = b!"PING" ++ SP :: (COLON :: n) := rfl
    simp only [commandBytes, List.length_append] at hlen
    rw [((C32_ping b _ ?_ (within_plain (by rw [e]; exact (by decide : some (80 : UInt8) ≠ some AT)) (by omega))
      (terminated_plain (by rw [e]; exact (by decide : some (80 : UInt8) ≠ some AT)))).2 _)]
    · rw [e, hl _ (by decide) (by decide) (by decide) (by decide)]
      exact ⟨_, rfl, rfl, ⟨by simp [Line.text, textOf_colon]⟩⟩
    · rw [e]; exact (Utf8.of_ascii (by decide)).append (.cons (by decide) (.cons (by decide) hu))
  · have hw := hsent _ h
    rw [hw] at hlen ⊢
    refine ⟨_, rfl, ?_⟩
    have e : commandLine (.pong (some n)) = b!"PONG" ++ SP :: (COLON :: n) := rfl
    simp only [commandBytes, List.length_append] at hlen
    rw [((C32_pong b _ ?_ (within_plain (by rw [e]; exact (by decide : some (80 : UInt8) ≠ some AT)) (by omega))
      (terminated_plain (by rw [e]; exact (by decide : some (80 : UInt8) ≠ some AT)))).2 _)]
    · rw [e, hl _ (by decide) (by decide) (by decide) (by decide)]
      exact ⟨_, rfl, rfl, ⟨by simp [Line.text, textOf_colon]⟩⟩
    · rw [e]; exact (Utf8.of_ascii (by decide)).append (.cons (by decide) (.cons (by decide) hu))
  · have hw := hsent _ h
    rw [hw]
    refine ⟨_, rfl, ?_⟩
    rw [((C32_pong b _ ?_ (within_plain (by decide) (by decide)) (terminated_plain (by decide))).2 _)]
    · exact ⟨⟨[], none, b!"PONG", none, none⟩, by decide, rfl, ⟨rfl⟩⟩
    · exact Utf8.of_ascii (by decide)

example := (C35_ping_pong ⟨.scalar, true⟩ (b!"a :b") (.of_ascii (by decide)) (sampleWorld [.accept 3, .accept 1000])
  (Cmd.send (.ping (b!"a :b")) (sampleWorld [.accept 3, .accept 1000])).2 rfl (by decide +kernel)).1 (by decide +kernel)

/-- C35: `join`. -/
theorem C35_join (b : Build) (c : Bytes) (hu : Utf8 c) (hsp : SP ∉ c) (w w' : World)
    (h0 : w.client.scratch = []) (hsend : Cmd.send (.join c) w = (.ok (.ok ()), w'))
    (hlen : (wire w w').length < 4294967296) :
    ∃ s m, wire w w' = s ++ [CR, LF] ∧ MsgRef.parse b s = .ok (some m) ∧
      m.command = .ok .join ∧ m.params = .ok none ∧ m.tags = .ok [] ∧
      m.channel = .ok (some (if c.head? = some HASH then c else HASH :: c)) := by
  have hw := (C34_one_call (.join c) w h0).2.1 (by rw [hsend])
  rw [hsend] at hw
  simp only at hw
  rw [hw] at hlen ⊢
  simp only [commandBytes, List.length_append] at hlen
  have e : commandLine (.join c) = b!"JOIN" ++ SP :: channelName c := rfl
  have hn : (channelName c).head? = some HASH ∧ SP ∉ channelName c ∧ Utf8 (channelName c) := by
    unfold channelName
    split
    · exact ⟨‹_›, hsp, hu⟩
    · exact ⟨rfl, by simp; exact ⟨by decide, hsp⟩, .cons (by decide) hu⟩
  have hl : line (commandLine (.join c)) = some
      { tags := [], prefix? := none, command := b!"JOIN", channel := some (channelName c),
        params := none } := by
    rw [e, line_plain (by decide) (by decide) (by decide) (by decide), takeChannel_end hn.1 hn.2.1]
    rfl
  obtain ⟨m, hm, _, R⟩ := parse_line (b := b) hl
    (by rw [e]; exact (Utf8.of_ascii (by decide)).append (.cons (by decide) hn.2.2))
    (within_plain (by rw [e]; exact (by decide : some (74 : UInt8) ≠ some AT)) (by omega))
    (terminated_plain (by rw [e]; exact (by decide : some (74 : UInt8) ≠ some AT)))
  refine ⟨_, m, rfl, hm, ?_, R.params, R.tags, channel_eq R (c := .join) rfl (by decide) (by decide)⟩
  rw [R.command]; rfl

/-- Non-vacuity: both kinds of names. -/
example : (Cmd.send (.join (b!"forsen")) (sampleWorld [.accept 1000])).1 = .ok (.ok ()) ∧
    wire (sampleWorld []) (Cmd.send (.join (b!"forsen")) (sampleWorld [.accept 1000])).2
      = b!"JOIN #forsen\r\n" ∧
    wire (sampleWorld []) (Cmd.send (.join (b!"#forsen")) (sampleWorld [.accept 1000])).2
      = b!"JOIN #forsen\r\n" := by decide +kernel

/-! ## C36: one call, one line -/

/-- The bytes of a sequence of successful calls. -/
theorem C36_bytes (w w' : World) (cs : List Cmd) (h0 : w.client.scratch = []) (h : Sent w cs w') :
    wire w w' = cs.flatMap commandBytes := by
  have key : ∀ (w w' : World) (cs : List Cmd), Sent w cs w' → w.client.scratch = [] →
      ∃ ev, w'.log = w.log ++ ev ∧ written ev = cs.flatMap commandBytes := by
    intro w w' cs h
    induction h with
    | none w => intro _; exact ⟨[], by simp, rfl⟩
    | @more w w' cs answers c hc h ih =>
      intro h0
      obtain ⟨_, h2, ⟨ev, h3, _⟩, h4, _⟩ := C34_one_call c { w with script := answers } h0
      obtain ⟨ev', i1, i2⟩ := ih (by rw [h4]; exact h0)
      have h2 := h2 hc
      rw [wire_of h3] at h2
      exact ⟨ev ++ ev', by rw [i1, h3]; simp, by rw [written_append, h2, i2, List.flatMap_cons]⟩
  obtain ⟨ev, h1, h2⟩ := key w w' cs h h0
  rw [wire_of h1, h2]

example := C36_bytes (sampleWorld []) _ [.ping (b!"a"), .raw (b!"QUIT\r\n")] rfl
  (.more [.accept 1000] _ (by decide +kernel) <| .more [.accept 2, .accept 9] _ (by decide +kernel) (.none _))

/-- C36: the receiver sees exactly the lines of the calls, in order, iff no argument contains LF. -/
theorem C36_one_line_iff (w w' : World) (cs : List Cmd) (h0 : w.client.scratch = [])
    (h : Sent w cs w') :
    receivedLines (wire w w') = cs.map commandLine ↔ ∀ c ∈ cs, LF ∉ commandLine c := by
  have hb : ∀ (w w' : World) (cs : List Cmd), Sent w cs w' → w.client.scratch = [] →
      cs.flatMap commandBytes = (cs.map commandLine).flatMap fun l => l ++ [CR, LF] := by
    intro w w' cs h
    induction h with
    | none w => intro _; rfl
    | @more w w' cs answers c hc h ih =>
      intro h0
      obtain ⟨_, h2, _, h4, _⟩ := C34_one_call c { w with script := answers } h0
      rw [List.flatMap_cons, List.map_cons, List.flatMap_cons, ih (by rw [h4]; exact h0)]
      congr 1
      cases c with
      | raw s =>
        have hs : endsWith [CR, LF] s = true := by
          by_cases hs : endsWith [CR, LF] s = true
          · exact hs
          · have : Cmd.send (.raw s) { w with script := answers } = _ := sendRaw_invalid hs _
            rw [this] at hc; simp at hc
        obtain ⟨t, rfl⟩ := (endsWith_iff _ _).1 hs
        simp [commandBytes, commandLine]
      | _ => rfl
  rw [C36_bytes w w' cs h0 h, hb w w' cs h h0, receivedLines_join]
  simp

example := C36_one_line_iff (sampleWorld []) _ [.ping (b!"a"), .raw (b!"a\nb\r\n")] rfl
  (.more [.accept 1000] _ (by decide +kernel) <| .more [.accept 2, .accept 9] _ (by decide +kernel) (.none _))

/-- C36, the part that holds, for arguments: without LF in any argument, every call is one line. -/
theorem C36_one_line_partial (w w' : World) (cs : List Cmd) (h0 : w.client.scratch = [])
    (h : Sent w cs w')
    (hargs : ∀ c ∈ cs, match c with
      | .privmsg ch text r n => LF ∉ ch ∧ LF ∉ text ∧ (∀ v, r = some v → LF ∉ v) ∧ ∀ v, n = some v → LF ∉ v
      | .ping n => LF ∉ n
      | .pong n => ∀ v, n = some v → LF ∉ v
      | .join ch => LF ∉ ch
      | .joinAll chs => ∀ ch ∈ chs, LF ∉ ch
      | .raw s => LF ∉ s.take (s.length - 2)) :
    receivedLines (wire w w') = cs.map commandLine := by
  rw [C36_one_line_iff w w' cs h0 h]
  intro c hc
  have := hargs c hc
  have hn : ∀ ch : Bytes, LF ∉ ch → LF ∉ channelName ch := by
    intro ch h
    unfold channelName
    split
    · exact h
    · simp; exact ⟨by decide, h⟩
  have hj : ∀ l : List Bytes, (∀ x ∈ l, LF ∉ x) → LF ∉ joinWith COMMA l := by
    intro l
    induction l with
    | nil => simp [joinWith]
    | cons a l ih =>
      intro h
      cases l with
      | nil => simpa [joinWith] using h a (by simp)
      | cons a' l =>
        rw [joinWith]
        · simp only [List.mem_append, List.mem_cons, not_or]
          exact ⟨h a (by simp), by decide, ih fun x hx => h x (List.mem_cons_of_mem _ hx)⟩
        · simp
  have lit : ∀ a b : Bytes, LF ∉ a → LF ∉ b → LF ∉ a ++ b := by
    intro a b ha hb; simp only [List.mem_append, not_or]; exact ⟨ha, hb⟩
  cases c with
  | privmsg ch text r n =>
    obtain ⟨h1, h2, h3, h4⟩ := this
    have base := lit _ _ (lit _ _ h1 (by decide : LF ∉ b!" :")) h2
    cases r with
    | none =>
      cases n with
      | none => exact lit _ _ (lit _ _ (lit _ _ (by decide) h1) (by decide)) h2
      | some n =>
        exact lit _ _ (lit _ _ (lit _ _ (lit _ _ (lit _ _ (by decide) (h4 _ rfl)) (by decide)) h1) (by decide)) h2
    | some r =>
      cases n with
      | none =>
        exact lit _ _ (lit _ _ (lit _ _ (lit _ _ (lit _ _ (by decide) (h3 _ rfl)) (by decide)) h1) (by decide)) h2
      | some n =>
        exact lit _ _ (lit _ _ (lit _ _ (lit _ _ (lit _ _ (lit _ _ (lit _ _ (by decide) (h3 _ rfl)) (by decide))
          (h4 _ rfl)) (by decide)) h1) (by decide)) h2
  | ping n => exact lit _ _ (by decide) this
  | pong n => cases n with
    | none => exact (by decide : LF ∉ b!"PONG")
    | some n => exact lit _ _ (by decide) (this _ rfl)
  | join ch => exact lit _ _ (by decide) (hn _ this)
  | joinAll chs =>
    refine lit _ _ (by decide) (hj _ ?_)
    intro x hx
    obtain ⟨y, hy, rfl⟩ := List.mem_map.1 hx
    exact hn _ (this y hy)
  | raw s => exact this

/-- Non-vacuity: three successful calls, with their lines. -/
example : ∃ w', Sent (sampleWorld []) [.ping (b!"a"), .raw (b!"QUIT\r\n"), .joinAll [b!"x", b!"#y"]] w' ∧
    receivedLines (wire (sampleWorld []) w') = [b!"PING :a", b!"QUIT", b!"JOIN #x,#y"] := by
  have h : Sent (sampleWorld []) [.ping (b!"a"), .raw (b!"QUIT\r\n"), .joinAll [b!"x", b!"#y"]] _ :=
    .more [.accept 1000] _ (by decide +kernel) <| .more [.accept 2, .accept 9] _ (by decide +kernel) <|
    .more [.accept 1000] _ (by decide +kernel) (.none _)
  refine ⟨_, h, ?_⟩
  rw [(C36_one_line_iff _ _ _ rfl h).2 (by decide)]
  decide

/-- C36 is false for arbitrary arguments: a text with a line break sends a command of its own. -/
theorem C36_negation : ∃ w', Sent (sampleWorld []) [.privmsg (b!"#a") (b!"hi\r\nQUIT") none none] w' ∧
    receivedLines (wire (sampleWorld []) w') = [b!"PRIVMSG #a :hi", b!"QUIT"] := by
  have h : Sent (sampleWorld []) [.privmsg (b!"#a") (b!"hi\r\nQUIT") none none] _ :=
    .more [.accept 1000] _ (by decide +kernel) (.none _)
  refine ⟨_, h, ?_⟩
  rw [C36_bytes _ _ _ rfl h]
  have e : List.flatMap commandBytes [Cmd.privmsg (b!"#a") (b!"hi\r\nQUIT") none none]
      = (b!"PRIVMSG #a :hi" ++ [CR, LF]) ++ ((b!"QUIT" ++ [CR, LF]) ++ []) := by decide +kernel
  rw [e, receivedLines_cons _ _ (by decide), receivedLines_cons _ _ (by decide), receivedLines_nil]

/-! ## C37: `send_raw` -/

/-- C37: without a final CRLF nothing happens and the error is `InvalidMessage`; with it the string is
handed over unchanged, completely if the network accepts it, and the buffer plays no role. -/
theorem C37_send_raw (s : Bytes) (w : World) :
    (¬ [CR, LF] <:+ s → Cmd.send (.raw s) w = (.ok (.error .invalidMessage), w)) ∧
    ([CR, LF] <:+ s →
      wire w (Cmd.send (.raw s) w).2 <+: s ∧
      (Cmd.send (.raw s) w).2.client = w.client ∧
      (Cmd.send (.raw s) w).1 ≠ .ok (.error .invalidMessage) ∧
      ((Cmd.send (.raw s) w).1 = .ok (.ok ()) → wire w (Cmd.send (.raw s) w).2 = s) ∧
      (∀ rest, Accepts s w.script rest → (Cmd.send (.raw s) w).1 = .ok (.ok ())) ∧
      (∀ e rest, Rejects s w.script e rest → (Cmd.send (.raw s) w).1 = .ok (.error (.io e)))) := by
  refine ⟨fun h => sendRaw_invalid (fun h' => h ((endsWith_iff _ _).1 h')) w, fun h => ?_⟩
  have hs := (endsWith_iff _ _).2 h
  obtain ⟨he, hc⟩ := sendRaw_effect hs w
  obtain ⟨ev, l1, l2, l3, l4⟩ := he.log
  show wire w (sendRaw s w).2 <+: s ∧ (sendRaw s w).2.client = w.client ∧
      (sendRaw s w).1 ≠ .ok (.error .invalidMessage) ∧ ((sendRaw s w).1 = _ → wire w (sendRaw s w).2 = s) ∧
      (∀ rest, Accepts s w.script rest → (sendRaw s w).1 = .ok (.ok ())) ∧
      (∀ e rest, Rejects s w.script e rest → (sendRaw s w).1 = .ok (.error (.io e)))
  rw [wire_of l1]
  refine ⟨l3, hc, ?_, l4, ?_, ?_⟩
  · intro h'
    obtain ⟨e, h''⟩ := he.error _ h'
    simp at h''
  · intro rest ha
    obtain ⟨w', h1, _⟩ := writeAll_accepts w ha
    unfold sendRaw rawMessage
    rw [if_pos hs]
    simp only []
    rw [act_bind_ok h1]
    rfl
  · intro e rest ha
    obtain ⟨w', h1, _⟩ := writeAll_rejects w ha
    unfold sendRaw rawMessage
    rw [if_pos hs]
    simp only []
    rw [act_bind_ok h1]
    rfl

/-- Non-vacuity of C37: both kinds of strings, a network that accepts and one that fails half-way. -/
example : ¬ [CR, LF] <:+ b!"QUIT\n" ∧ [CR, LF] <:+ b!"QUIT\r\n" ∧
    Accepts (b!"QUIT\r\n") [.accept 2, .accept 100] [] ∧
    Rejects (b!"QUIT\r\n") [.accept 2, .writeFailed ⟨.timedOut, 1⟩] ⟨.timedOut, 1⟩ [] := by
  refine ⟨by decide, by decide, .more (by decide) (by decide) (.more (by decide) (by decide) (.done _)),
    .more (by decide) (by decide) (.now _ _ (by decide))⟩

/-! ## C38: channel names -/

/-- C38: what `join` and `join_all` send. -/
theorem C38_names (w w' : World) (h0 : w.client.scratch = []) :
    (∀ c, Cmd.send (.join (HASH :: c)) w = (.ok (.ok ()), w') →
      wire w w' = b!"JOIN #" ++ c ++ b!"\r\n") ∧
    (∀ c, c.head? ≠ some HASH → Cmd.send (.join c) w = (.ok (.ok ()), w') →
      wire w w' = b!"JOIN #" ++ c ++ b!"\r\n") ∧
    (∀ cs, cs ≠ [] → (∀ c ∈ cs, COMMA ∉ c) → Cmd.send (.joinAll cs) w = (.ok (.ok ()), w') →
      ∃ list, wire w w' = b!"JOIN " ++ list ++ b!"\r\n" ∧
        fields COMMA list = cs.map fun c => if c.head? = some HASH then c else HASH :: c) ∧
    (Cmd.send (.joinAll []) w = (.ok (.ok ()), w') → wire w w' = b!"JOIN \r\n") := by
  have hsent : ∀ c, Cmd.send c w = (.ok (.ok ()), w') → wire w w' = commandBytes c := by
    intro c hc
    have := (C34_one_call c w h0).2.1 (by rw [hc])
    rwa [hc] at this
  refine ⟨fun c h => ?_, fun c hc h => ?_, fun cs hne hc h => ?_, fun h => ?_⟩
  · rw [hsent _ h]
    simp [commandBytes, commandLine, channelName]
  · rw [hsent _ h]
    simp [commandBytes, commandLine, channelName, hc]
  · rw [hsent _ h]
    refine ⟨joinWith COMMA (cs.map channelName), rfl, ?_⟩
    rw [fields_joinWith]
    · rfl
    · simpa using hne
    · intro x hx
      obtain ⟨c, hcm, rfl⟩ := List.mem_map.1 hx
      unfold channelName
      split
      · exact hc c hcm
      · simp; exact ⟨by decide, hc c hcm⟩
  · rw [hsent _ h]; rfl

example := (C38_names (sampleWorld [.accept 5, .accept 1000])
  (Cmd.send (.joinAll [b!"a", b!"#b"]) (sampleWorld [.accept 5, .accept 1000])).2 rfl).2.2.1 [b!"a", b!"#b"]
  (by decide) (by decide) (by decide +kernel)

/-- The addition is done once: names are left alone when they are already normalised. -/
theorem C38_idempotent (c : Bytes) : displayChannel (displayChannel c) = displayChannel c ∧
    (displayChannel c).head? = some HASH := by
  rw [displayChannel_eq, displayChannel_eq]
  unfold channelName
  by_cases h : c.head? = some HASH
  · simp [h]
  · simp [h]

/-- Non-vacuity of C38. -/
example : (Cmd.send (.joinAll [b!"a", b!"#b", b!"c"]) (sampleWorld [.accept 5, .accept 1000])).1
    = .ok (.ok ()) ∧
  wire (sampleWorld []) (Cmd.send (.joinAll [b!"a", b!"#b", b!"c"])
    (sampleWorld [.accept 5, .accept 1000])).2 = b!"JOIN #a,#b,#c\r\n" := by decide +kernel

/-! ## C45: PING is answered with its nonce -/

/-- C45: for every line that parses to a PING, `pong` writes a line that parses to a PONG with the
nonce of the PING, or without one if it had none. -/
theorem C45_pong (b b' : Build) (s : Bytes) (hu : Utf8 s) (hlt : s.length < 4294967296)
    (p : Ping) (hp : parseAs Ping.parse b s = .ok (some p)) (w w' : World)
    (h0 : w.client.scratch = []) (hsend : pong p w = (.ok (.ok ()), w'))
    (hlen : (wire w w').length < 4294967296) :
    ∃ s', wire w w' = s' ++ [CR, LF] ∧ parseAs Pong.parse b' s' = .ok (some ⟨p.nonce⟩) := by
  obtain ⟨l, hl, hn⟩ : ∃ l, line s = some l ∧ l.text = p.nonce := by
    unfold parseAs at hp
    cases hm : MsgRef.parse b s with
    | error e => rw [hm] at hp; cases hp
    | ok r =>
      cases r with
      | none => rw [hm] at hp; cases hp
      | some m =>
        rw [hm, bind_ok] at hp
        obtain ⟨l, hl, hr⟩ := returned_some hu hlt hm
        refine ⟨l, hl, ?_⟩
        have hp : Ping.parse m = .ok (some p) := hp
        have hg : get' m.command = (pure (commandOf l.command) : OptionT R Command) := by rw [hr.command]; rfl
        have hx : get' m.text = (pure l.text : OptionT R (Option Bytes)) := by rw [hr.text]; rfl
        unfold Ping.parse at hp
        rw [hg, pure_bind, hx] at hp
        by_cases hc : commandOf l.command ≠ .ping
        · rw [if_pos hc] at hp; cases hp
        · rw [if_neg hc] at hp; cases hp; rfl
  cases hpn : p.nonce with
  | none =>
    have e : Cmd.send (.pong none) w = (.ok (.ok ()), w') := by rw [← hpn]; exact hsend
    exact (C35_ping_pong b' [] .nil w w' h0 hlen).2.2 e
  | some n =>
    have e : Cmd.send (.pong (some n)) w = (.ok (.ok ()), w') := by rw [← hpn]; exact hsend
    have hnt : l.text = some n := by rw [hn, hpn]
    exact (C35_ping_pong b' n (line_text_utf8 hu hl hnt) w w' h0 hlen).2.1 e

/-- Non-vacuity of C45: a PING with prefix and tags, and a PING without nonce. -/
example : parseAs Ping.parse ⟨.simd .sse2 5, true⟩ (b!"@a=b :tmi.twitch.tv PING :a :b")
      = .ok (some ⟨some (b!"a :b")⟩) ∧
    (pong ⟨some (b!"a :b")⟩ (sampleWorld [.accept 1000])).1 = .ok (.ok ()) ∧
    wire (sampleWorld []) (pong ⟨some (b!"a :b")⟩ (sampleWorld [.accept 1000])).2 = b!"PONG :a :b\r\n" ∧
    parseAs Ping.parse ⟨.scalar, true⟩ (b!"PING") = .ok (some ⟨none⟩) ∧
    wire (sampleWorld []) (pong ⟨none⟩ (sampleWorld [.accept 1000])).2 = b!"PONG\r\n" := by decide +kernel

/-! ## C46: same-message bypass -/

/-- C46: the results alternate between nothing and U+0020 U+2800 (which is not empty), so equal texts
sent one after the other differ as messages. -/
theorem C46_alternates (n : Nat) :
    (bypassNth (2 * n)).1 = [] ∧ (bypassNth (2 * n + 1)).1 = b!" ⠀" ∧
    ∀ text : Bytes, text ++ (bypassNth n).1 ≠ text ++ (bypassNth (n + 1)).1 := by
  have key : ∀ n, (bypassNth (2 * n)).1 = [] ∧ (bypassNth (2 * n)).2 = ⟨true⟩ ∧
      (bypassNth (2 * n + 1)).1 = b!" ⠀" ∧ (bypassNth (2 * n + 1)).2 = ⟨false⟩ := by
    intro n
    induction n with
    | zero => exact ⟨rfl, rfl, rfl, rfl⟩
    | succ n ih =>
      have e : 2 * (n + 1) = 2 * n + 1 + 1 := by omega
      have h1 : bypassNth (2 * (n + 1)) = ([], ⟨true⟩) := by rw [e, bypassNth, ih.2.2.2]; rfl
      have h2 : bypassNth (2 * (n + 1) + 1) = (b!" ⠀", ⟨false⟩) := by rw [bypassNth, h1]; rfl
      rw [h1, h2]
      exact ⟨rfl, rfl, rfl, rfl⟩
  refine ⟨(key n).1, (key n).2.2.1, fun text h => ?_⟩
  have h := List.append_cancel_left h
  rcases Nat.mod_two_eq_zero_or_one n with h' | h'
  · have e : n = 2 * (n / 2) := by omega
    rw [e, (key _).1, (key _).2.2.1] at h
    simp at h
  · have e : n = 2 * (n / 2) + 1 := by omega
    have e' : n + 1 = 2 * (n / 2 + 1) := by omega
    rw [e', (key _).1] at h
    rw [e, (key _).2.2.1] at h
    simp at h

/-- Non-vacuity of C46: the first four results. -/
example : (List.range 4).map (fun n => (bypassNth n).1) = [[], b!" ⠀", [], b!" ⠀"] := by decide

/-! ## C47: the token is not shown -/

/-- C47: the `Debug` text of credentials, with any `Debug` for strings, is a function of the login. -/
theorem C47_debug (debugStr : Bytes → Bytes) (login : Bytes) (t₁ t₂ : Option Bytes) :
    Credentials.debug debugStr ⟨login, t₁⟩ = Credentials.debug debugStr ⟨login, t₂⟩ := rfl

/-- The text itself, for one login. -/
example : Credentials.debug (fun s => [0x22] ++ s ++ [0x22]) ⟨b!"forsen", some (b!"secret")⟩
    = b!"Credentials { nick: \"forsen\", .. }" := by decide +kernel

/-! ## C49: joined iterators -/

/-- C49: the items in order with the separator between them, once; afterwards formatting fails. -/
theorem C49_join (items : List Bytes) (sep : Bytes) :
    (joinIter items sep).fmt.1 = some (sep.intercalate items) ∧
    (joinIter items sep).fmt.2.fmt.1 = none ∧
    (joinIter items sep).fmt.2.fmt.2 = (joinIter items sep).fmt.2 := by
  refine ⟨?_, rfl, rfl⟩
  have : ∀ items : List Bytes, joinLoop sep items = sep.intercalate items := by
    intro items
    induction items with
    | nil => rfl
    | cons a l ih =>
      cases l with
      | nil => simp [joinLoop, List.intercalate]
      | cons a' l => rw [joinLoop, ih]; simp [List.intercalate]
  show some (joinLoop sep items) = _
  rw [this]

/-- Non-vacuity of C49: with a separator of two characters and an empty item. -/
example : (joinIter [b!"a", [], b!"c"] (b!", ")).fmt.1 = some (b!"a, , c") := by decide

end Tmi.Props
