/-
Properties C60 and C61: receiving from a connection, byte by byte.
-/
import Verif.Proofs.Lines
import Verif.Props.Send
import Verif.Props.Connect

namespace Tmi.Props
open Tmi.Model Tmi.Spec Tmi.Proofs

theorem map_recvItem (b : Build) (items : List (Except IoError Bytes)) :
    (items.map some).map (recvItem b) = items.map (expected b) := by
  rw [List.map_map]
  refine List.map_congr_left fun x _ => ?_
  cases x with
  | error e => rfl
  | ok s =>
    simp only [Function.comp, recvItem, expected]
    generalize MsgOwned.parse b s = p
    rcases p with _ | _ | _ <;> rfl

theorem recvPolls_mono (b : Build) (r : Reader) (net : List Net) {n m : Nat} (h : n ≤ m) :
    recvPolls b n r net <+: recvPolls b m r net := by
  rw [recvPolls_eq, recvPolls_eq]
  exact (pollMany_mono r net n m h).map _

/-! ## C60 -/

/-- C60, a connection that is still open: however the bytes are cut into pieces, however often the calls of `recv` are
polled, dropped and made again, they return the results for a beginning of the sequence of complete lines that have
arrived; polled often enough, for all of them. -/
theorem C60_open (b : Build) (net : List Net) (he : ending net = .open_) :
    (∀ n, recvPolls b n .new net <+: (delivered (arrived net)).map (expected b)) ∧
    ∃ N, ∀ n, N ≤ n → recvPolls b n .new net = (delivered (arrived net)).map (expected b) := by
  obtain ⟨N, hN⟩ := pollMany_open .new net (by simp [Reader.new]) rfl he
  have hall : ∀ n, N ≤ n → recvPolls b n .new net = (delivered (arrived net)).map (expected b) := by
    intro n hn
    have := hN (n - N)
    rw [Nat.add_sub_cancel' hn] at this
    rw [recvPolls_eq, this, text_new, map_recvItem]
  refine ⟨fun n => ?_, N, hall⟩
  rw [← hall (N + n) (by omega)]
  exact recvPolls_mono b _ _ (by omega)

/-- C60, a connection that the other side closes: the results for all lines, including text after the last line end,
then `StreamClosed` for ever. -/
theorem C60_closed (b : Build) (net : List Net) (he : ending net = .closed) :
    (∀ n, recvPolls b n .new net <+:
      (deliveredAll (arrived net)).map (expected b) ++ List.replicate n (.ok (.error .streamClosed))) ∧
    ∃ N, ∀ k, recvPolls b (N + k) .new net =
      (deliveredAll (arrived net)).map (expected b) ++ List.replicate k (.ok (.error .streamClosed)) := by
  obtain ⟨N, hN⟩ := pollMany_closed .new net (by simp [Reader.new]) rfl he
  have hall : ∀ k, recvPolls b (N + k) .new net =
      (deliveredAll (arrived net)).map (expected b) ++ List.replicate k (.ok (.error .streamClosed)) := by
    intro k
    rw [recvPolls_eq, hN k, text_new, List.map_append, map_recvItem, List.map_replicate]
    rfl
  refine ⟨fun n => ?_, N, hall⟩
  rw [← hall n]
  exact recvPolls_mono b _ _ (by omega)

/-- C60, a connection that fails: the results for the complete lines, then the error. -/
theorem C60_failed (b : Build) (net : List Net) (e : IoError) (he : ending net = .failed e) :
    ∃ N, recvPolls b N .new net = (delivered (arrived net)).map (expected b) ++ [.ok (.error (.io e))] ∧
      ∀ n, n ≤ N → recvPolls b n .new net <+: recvPolls b N .new net := by
  obtain ⟨N, hN⟩ := pollMany_failed .new net (by simp [Reader.new]) rfl e he
  refine ⟨N, ?_, fun n hn => recvPolls_mono b _ _ hn⟩
  rw [recvPolls_eq, hN, text_new, List.map_append, map_recvItem]
  rfl

/-- C60: if the same bytes arrive on two connections, cut into pieces in different ways and with different waits in
between, and both stay open or both are closed, then all that is received from one is also received from the other. -/
theorem C60_chunks (b : Build) (net₁ net₂ : List Net) (hb : arrived net₁ = arrived net₂) (he : ending net₁ = ending net₂)
    (hf : ∀ e, ending net₁ ≠ .failed e) (n : Nat) : ∃ m, recvPolls b n .new net₁ <+: recvPolls b m .new net₂ := by
  cases h : ending net₁ with
  | open_ =>
    obtain ⟨N, hN⟩ := (C60_open b net₂ (he ▸ h)).2
    exact ⟨N, by rw [hN N (Nat.le_refl _), ← hb]; exact (C60_open b net₁ h).1 n⟩
  | closed =>
    obtain ⟨N, hN⟩ := (C60_closed b net₂ (he ▸ h)).2
    exact ⟨N + n, by rw [hN n, ← hb]; exact (C60_closed b net₁ h).1 n⟩
  | failed e => exact absurd h (hf e)

/-- C60: lines that are UTF-8 are delivered as they are; one that is not costs an `InvalidData` error, and the lines
after it are delivered. -/
theorem C60_utf8 (l wire : Bytes) (hl : LF ∉ l) :
    (Utf8 l → delivered (l ++ [CR, LF] ++ wire) = .ok l :: delivered wire) ∧
    (¬ Utf8 l → delivered (l ++ [CR, LF] ++ wire) = .error ⟨.invalidData, 0⟩ :: delivered wire) := by
  have e : l ++ [CR, LF] ++ wire = (l ++ [CR]) ++ LF :: wire := by simp
  have hl' : LF ∉ l ++ [CR] := by simp; exact ⟨hl, by decide⟩
  have hs : stripCR (l ++ [CR]) = l := by simp [stripCR]
  rw [e, (delivered_line wire hl').1, hs]
  unfold deliver
  exact ⟨fun h => by rw [if_pos h], fun h => by rw [if_neg h]⟩

/-- C60: the coarser view of the connection in the properties about whole sessions, a list of lines, is right: on a
connection that is closed, `recv` of that view returns what `recv` returns byte by byte. -/
theorem C60_script (b : Build) (net : List Net) (he : ending net = .closed) (w : World) (hc : w.client.closed = false)
    (hs : w.script = (deliveredAll (arrived net)).map toAnswer ++ [.eof]) :
    ∃ N, ∀ k, recvPolls b (N + (k + 1)) .new net =
      (recvMany b ((deliveredAll (arrived net)).length + (k + 1)) w).1 := by
  obtain ⟨N, hN⟩ := (C60_closed b net he).2
  exact ⟨N, fun k => by rw [hN, (C43_in_order b _ [] w hc hs k).1]⟩

/-- Non-vacuity of C60: a line cut inside its terminator, a wait, a line without terminator, the end. -/
example : ending [.data (b!"PING :a\r"), .pending, .data (b!"\nPO"), .data (b!"NG"), .eof] = .closed ∧
    arrived [.data (b!"PING :a\r"), .pending, .data (b!"\nPO"), .data (b!"NG"), .eof] = b!"PING :a\r\nPONG" ∧
    pollMany 5 .new [.data (b!"PING :a\r"), .pending, .data (b!"\nPO"), .data (b!"NG"), .eof] =
      [some (.ok (b!"PING :a")), some (.ok (b!"PONG")), none, none] := by decide +kernel

/-- Non-vacuity of C60: a line that is not UTF-8, then one that is, then a failure in the middle of a line. -/
example : pollMany 3 .new [.data ([0x41, 0xFF, LF] ++ b!"PI"), .data (b!"NG\nPO"), .fail ⟨.timedOut, 7⟩] =
    [some (.error ⟨.invalidData, 0⟩), some (.ok (b!"PING")), some (.error ⟨.timedOut, 7⟩)] := by decide +kernel

/-! ## C61 -/

/-- C61: what a client has sent, a receiver gets: if the calls all returned `Ok`, the commands have no line feed in them
and are UTF-8, then however the connection cuts the bytes into pieces, on the sending and on the receiving side, `recv`
at the other end returns the results for the lines of the commands, one for each, in order. -/
theorem C61_commands (b : Build) (w w' : World) (cs : List Cmd) (h0 : w.client.scratch = []) (h : Sent w cs w')
    (hc : ∀ c ∈ cs, LF ∉ commandLine c ∧ Utf8 (commandLine c)) (net : List Net) (hn : arrived net = wire w w')
    (he : ending net = .open_) :
    ∃ N, ∀ n, N ≤ n → recvPolls b n .new net = cs.map fun c => expected b (.ok (commandLine c)) := by
  obtain ⟨N, hN⟩ := (C60_open b net he).2
  refine ⟨N, fun n hn' => ?_⟩
  rw [hN n hn', hn]
  unfold delivered
  rw [(C36_one_line_iff w w' cs h0 h).2 fun c hc' => (hc c hc').1, List.map_map, List.map_map]
  refine List.map_congr_left fun c hc' => ?_
  simp only [Function.comp, deliver]
  rw [if_pos (hc c hc').2]

/-- C61: chat messages.  The receiver gets, for each message sent, one PRIVMSG with that channel, text and tags. -/
theorem C61_chat (b : Build) (w w' : World) (cs : List (Bytes × Bytes × Option Bytes × Option Bytes))
    (h0 : w.client.scratch = []) (h : Sent w (cs.map fun c => .privmsg c.1 c.2.1 c.2.2.1 c.2.2.2) w')
    (hch : ∀ c ∈ cs, c.1.head? = some HASH ∧ SP ∉ c.1 ∧ LF ∉ c.1 ∧ Utf8 c.1)
    (htext : ∀ c ∈ cs, LF ∉ c.2.1 ∧ Utf8 c.2.1)
    (htags : ∀ c ∈ cs, ∀ v, c.2.2.1 = some v ∨ c.2.2.2 = some v →
      Utf8 v ∧ SEMI ∉ v ∧ SP ∉ v ∧ LF ∉ v ∧ v.length < 65536)
    (hlen : (wire w w').length < 4294967296) (net : List Net) (hn : arrived net = wire w w')
    (he : ending net = .open_) :
    ∃ ms : List MsgOwned, (∃ N, ∀ n, N ≤ n → recvPolls b n .new net = ms.map fun m => .ok (.ok m)) ∧
      ms.map (fun m => (m.asRef.command, m.asRef.channel, m.asRef.text, m.asRef.tag .replyParentMsgId,
          m.asRef.tag .clientNonce)) =
        cs.map fun c => (.ok .privmsg, .ok (some c.1), .ok (some c.2.1), .ok c.2.2.1, .ok c.2.2.2) := by
  have hlf : ∀ c ∈ cs, LF ∉ commandLine (.privmsg c.1 c.2.1 c.2.2.1 c.2.2.2) := by
    intro c hc
    have h1 := (hch c hc).2.2.1
    have h2 := (htext c hc).1
    have h3 := htags c hc
    obtain ⟨ch, text, reply, nonce⟩ := c
    simp only [] at h1 h2 h3 ⊢
    cases reply <;> cases nonce <;> simp only [commandLine, List.mem_append, not_or]
    · exact ⟨⟨⟨by decide, h1⟩, by decide⟩, h2⟩
    · rename_i v
      exact ⟨⟨⟨⟨⟨by decide, (h3 v (.inr rfl)).2.2.2.1⟩, by decide⟩, h1⟩, by decide⟩, h2⟩
    · rename_i v
      exact ⟨⟨⟨⟨⟨by decide, (h3 v (.inl rfl)).2.2.2.1⟩, by decide⟩, h1⟩, by decide⟩, h2⟩
    · rename_i v v'
      exact ⟨⟨⟨⟨⟨⟨⟨by decide, (h3 v (.inl rfl)).2.2.2.1⟩, by decide⟩, (h3 v' (.inr rfl)).2.2.2.1⟩, by decide⟩, h1⟩,
        by decide⟩, h2⟩
  have hbytes := C36_bytes w w' _ h0 h
  have hreads : ∀ c ∈ cs, _ := fun c hc => privmsg_reads (b := b) (hch c hc).1 (hch c hc).2.1 (hch c hc).2.2.2
    (htext c hc).2 (fun v hv => by
      obtain ⟨a1, a2, a3, _, a4⟩ := htags c hc v hv
      exact ⟨a1, a2, a3, a4⟩) (by
      have hm : (commandBytes (.privmsg c.1 c.2.1 c.2.2.1 c.2.2.2)).length ≤ (wire w w').length := by
        rw [hbytes, List.flatMap_map]
        clear hbytes hlen hn h hlf hch htext htags
        induction cs with
        | nil => simp at hc
        | cons x cs ih =>
          rw [List.flatMap_cons, List.length_append]
          rcases List.mem_cons.1 hc with rfl | hc
          · omega
          · have := ih hc; omega
      simp only [commandBytes, List.length_append] at hm
      omega)
  refine ⟨cs.map fun c => parsed b (commandLine (.privmsg c.1 c.2.1 c.2.2.1 c.2.2.2)), ?_, ?_⟩
  · obtain ⟨N, hN⟩ := C61_commands b w w' _ h0 h (by
      intro c hc
      obtain ⟨x, hx, rfl⟩ := List.mem_map.1 hc
      exact ⟨hlf x hx, (hreads x hx).2.1⟩) net hn he
    refine ⟨N, fun n hn' => ?_⟩
    rw [hN n hn', List.map_map, List.map_map]
    refine List.map_congr_left fun c hc => ?_
    have := (owned_parse_some (hreads c hc).2 (hreads c hc).1).1
    simp only [Function.comp, expected, this]
  · rw [List.map_map]
    refine List.map_congr_left fun c hc => ?_
    have R := (owned_parse_some (hreads c hc).2 (hreads c hc).1).2.2
    simp only [Function.comp]
    obtain ⟨ch, text, reply, nonce⟩ := c
    simp only [] at R ⊢
    refine Prod.ext ?_ (Prod.ext ?_ (Prod.ext ?_ (Prod.ext ?_ ?_)))
    · simp only []; rw [R.command]; rfl
    · exact channel_eq R (c := .privmsg) rfl (by decide) (by decide)
    · simp only []; rw [R.text]; simp [textOf_colon]
    · simp only []; rw [R.tag]
      cases reply <;> cases nonce <;> simp [sentTags, lookup, Tag.asStr]
    · simp only []; rw [R.tag]
      cases reply <;> cases nonce <;> simp [sentTags, lookup, Tag.asStr]

/-- Non-vacuity of C61: two messages, written in four pieces, received in three. -/
example : ∃ w', Sent (sampleWorld []) ([(b!"#a", b!"hi", none, some (b!"n")), (b!"#b", b!"x :y", none, none)].map
      fun c : Bytes × Bytes × Option Bytes × Option Bytes => .privmsg c.1 c.2.1 c.2.2.1 c.2.2.2) w' ∧
    arrived [.data (b!"@client-nonce=n PRIVMSG #a "), .pending, .data (b!":hi\r"), .data (b!"\nPRIVMSG #b :x :y\r\n")] =
      wire (sampleWorld []) w' := by
  refine ⟨_, .more [.accept 5, .accept 100] _ (by decide +kernel) (.more [.accept 1, .accept 99] _ (by decide +kernel)
    (.none _)), ?_⟩
  decide +kernel

end Tmi.Props
