/-
Properties C87 to C89: how tags are looked up by name, what a failed command reports, when `reconnect` gives up.
-/
import Verif.Spec.Reports
import Verif.Model.Keys
import Verif.Props.Line
import Verif.Props.Connect
import Verif.Proofs.Bot

namespace Tmi.Props
open Tmi.Model Tmi.Spec Tmi.Proofs

/-! ## C87: looking up a tag by its name -/

theorem firstPair_lookup (l : List (Bytes × Bytes)) (key : Bytes) : FirstPair l key (lookup key l) :=
  ⟨fun _ => lookup_eq_some, lookup_eq_none⟩

theorem owned_tag (m : MsgRef) (t : Tag) : m.intoOwned.tag t = m.tag t := rfl

/-- C87, names: `tag("name")` gives the value of the first pair with that key, for every name but one. -/
theorem C87_named_partial (m : MsgRef) (l : List (Bytes × Bytes)) (hm : m.tags = .ok l) (name : Bytes)
    (hn : name ≠ b!"pinned-chat-paid-canonical-amount") :
    ∃ r, m.tagNamed name = .ok r ∧ m.intoOwned.tagNamed name = .ok r ∧ FirstPair l name r := by
  have h := tag_of_tags hm (.ofStr name)
  rw [show (Tag.ofStr name).asStr = name from (C10_parse_as_str_iff name).2 hn] at h
  exact ⟨_, h, h, firstPair_lookup l name⟩

/-- C87, variants: looking up a variant is looking up its name. -/
theorem C87_variant (m : MsgRef) (t : Tag) (ht : Known t) :
    m.tag t = m.tagNamed (tagName t) ∧ m.intoOwned.tag t = m.intoOwned.tagNamed (tagName t) := by
  have h : Tag.ofStr (tagName t) = t := (C10_names t ht).1
  unfold MsgRef.tagNamed MsgOwned.tagNamed
  rw [h]
  exact ⟨rfl, rfl⟩

/-- C87, unknown tags: `tag(Tag::Unknown("name"))` gives the value of the first pair with that key, for every name,
whether or not it is the name of a variant. -/
theorem C87_unknown (m : MsgRef) (l : List (Bytes × Bytes)) (hm : m.tags = .ok l) (name : Bytes) :
    ∃ r, m.tag (.unknown name) = .ok r ∧ m.intoOwned.tag (.unknown name) = .ok r ∧ FirstPair l name r :=
  have h := tag_of_tags hm (.unknown name)
  ⟨_, h, h, firstPair_lookup l name⟩

/-- C87, the other name: what is found is the first pair with another key. -/
theorem C87_other_name (m : MsgRef) (l : List (Bytes × Bytes)) (hm : m.tags = .ok l) :
    ∃ r, m.tagNamed (b!"pinned-chat-paid-canonical-amount") = .ok r ∧ FirstPair l (b!"pinned-chat-paid-amount") r := by
  have h := tag_of_tags hm (.ofStr (b!"pinned-chat-paid-canonical-amount"))
  rw [show (Tag.ofStr (b!"pinned-chat-paid-canonical-amount")).asStr = b!"pinned-chat-paid-amount" from C10_negation] at h
  exact ⟨_, h, firstPair_lookup _ _⟩

/-- A line with a known tag, an unknown one and the two amounts. -/
def sampleLookup : Bytes :=
  b!"@msg-id=a;x-y=b;msg-id=c;pinned-chat-paid-canonical-amount=1;pinned-chat-paid-amount=2 PING"

theorem sampleLookup_parsed : gave (MsgRef.parse ⟨.scalar, true⟩ sampleLookup) = true := by decide +kernel

/-- The tags of the sample. -/
theorem sampleLookup_tags : (given _ sampleLookup_parsed).tags = .ok [(b!"msg-id", b!"a"), (b!"x-y", b!"b"), (b!"msg-id", b!"c"),
    (b!"pinned-chat-paid-canonical-amount", b!"1"), (b!"pinned-chat-paid-amount", b!"2")] := by decide +kernel

example := C87_named_partial _ _ sampleLookup_tags (b!"x-y") (by decide)
example := C87_variant (given _ sampleLookup_parsed) .msgId nofun
example := C87_unknown _ _ sampleLookup_tags (b!"msg-id")
example := C87_other_name _ _ sampleLookup_tags

/-- C87 is false in two ways.  The documentation says that `Tag::Unknown("msg-id")` does not match what `Tag::MsgId`
matches; it does.  And a tag that is there is not found by its name: another is. -/
theorem C87_negation : ∃ m, MsgRef.parse ⟨.scalar, true⟩ sampleLookup = .ok (some m) ∧
    m.tag (.unknown (b!"msg-id")) = .ok (some (b!"a")) ∧ m.tag .msgId = .ok (some (b!"a")) ∧
    m.tagNamed (b!"pinned-chat-paid-canonical-amount") = .ok (some (b!"2")) :=
  ⟨_, given_eq _ sampleLookup_parsed, by decide +kernel⟩

/-! ## C88: what a failed command reports -/

/-- The error of the command that corresponds to that of the socket. -/
def sendOutcome : Except Stop (Except IoError Unit) → Except Stop (Except SendError Unit)
  | .error s => .error s
  | .ok (.error e) => .ok (.error (.io e))
  | .ok (.ok ()) => .ok (.ok ())

theorem sendRaw_outcome {s : Bytes} (hs : endsWith [CR, LF] s = true) (w : World) :
    (sendRaw s w).1 = sendOutcome (writeAll s w).1 ∧ (sendRaw s w).2.script = (writeAll s w).2.script := by
  unfold sendRaw rawMessage
  rw [if_pos hs]
  simp only []
  rw [act_bind]
  generalize writeAll s w = res
  obtain ⟨r, w'⟩ := res
  cases r with
  | error e => exact ⟨rfl, rfl⟩
  | ok r => cases r <;> exact ⟨rfl, rfl⟩

theorem withScratch_outcome {data : Bytes} {w : World} (h0 : w.client.scratch = [])
    (hs : endsWith [CR, LF] data = true) :
    (withScratch (fun f => sendRaw (f ++ data)) w).1 = sendOutcome (writeAll data w).1 ∧
      (withScratch (fun f => sendRaw (f ++ data)) w).2.script = (writeAll data w).2.script := by
  unfold withScratch
  have e : { w with client := { w.client with scratch := [] } } = w := by
    obtain ⟨⟨c, s, cfg⟩, l, sc⟩ := w
    simp only at h0
    rw [h0]
  rw [act_bind_ok (x := takeScratch) (a := []) (w' := w) (by unfold takeScratch; rw [e, h0])]
  obtain ⟨h1, h2⟩ := sendRaw_outcome hs w
  simp only [List.nil_append]
  rw [act_bind]
  generalize sendRaw data w = res at *
  obtain ⟨r, w'⟩ := res
  simp only [] at h1 h2
  rw [← h1, ← h2]
  cases r <;> exact ⟨rfl, rfl⟩

theorem joinChannel_outcome {channel : Bytes} {w : World} (h0 : w.client.scratch = []) :
    (joinChannel channel w).1 = sendOutcome (writeAll (b!"JOIN " ++ displayChannel channel ++ [CR, LF]) w).1 ∧
      (joinChannel channel w).2.script = (writeAll (b!"JOIN " ++ displayChannel channel ++ [CR, LF]) w).2.script := by
  unfold joinChannel
  have e : { w with client := { w.client with scratch := [] } } = w := by
    obtain ⟨⟨c, s, cfg⟩, l, sc⟩ := w
    simp only at h0
    rw [h0]
  rw [act_bind_ok (x := takeScratch) (a := []) (w' := w) (by unfold takeScratch; rw [e, h0])]
  have hs : endsWith [CR, LF] (b!"JOIN " ++ displayChannel channel ++ [CR, LF]) = true := crlf_suffix _
  obtain ⟨h1, h2⟩ := sendRaw_outcome hs w
  simp only [List.nil_append]
  generalize b!"JOIN " ++ displayChannel channel ++ [CR, LF] = data at *
  rw [act_bind]
  generalize sendRaw data w = res at *
  obtain ⟨r, w'⟩ := res
  simp only [] at h1 h2
  rw [← h1, ← h2]
  cases r with
  | error e => exact ⟨rfl, rfl⟩
  | ok r => cases r <;> exact ⟨rfl, rfl⟩

theorem send_outcome (c : Cmd) (hc : Terminated c) (w : World) (h0 : w.client.scratch = []) :
    (c.send w).1 = sendOutcome (writeAll (commandBytes c) w).1 ∧
      (c.send w).2.script = (writeAll (commandBytes c) w).2.script := by
  cases c with
  | raw s => exact sendRaw_outcome ((endsWith_iff _ _).2 hc) w
  | privmsg ch text r n =>
    have : commandBytes (.privmsg ch text r n) = commandLine (.privmsg ch text r n) ++ [CR, LF] := rfl
    rw [← privmsgText_eq] at this ⊢
    exact withScratch_outcome (data := privmsgText ch text r n) h0 (by rw [this]; exact crlf_suffix _)
  | ping n => exact withScratch_outcome (data := b!"PING :" ++ n ++ [CR, LF]) h0 (crlf_suffix _)
  | pong n =>
    cases n with
    | none => exact withScratch_outcome (data := b!"PONG" ++ [CR, LF]) h0 (crlf_suffix _)
    | some n => exact withScratch_outcome (data := b!"PONG :" ++ n ++ [CR, LF]) h0 (crlf_suffix _)
  | join ch =>
    have := joinChannel_outcome (channel := ch) h0
    rw [displayChannel_eq] at this
    exact this
  | joinAll cs =>
    have : commandBytes (.joinAll cs) = joinAllText cs := by rw [joinAllText_eq]; rfl
    rw [this]
    exact withScratch_outcome (data := joinAllText cs) h0 (by rw [joinAllText_eq]; exact crlf_suffix _)

/-- C88: a command succeeds exactly if the network takes all of its bytes; it reports an I/O error exactly if the network
takes a part of them and then fails with that error, or takes no byte; and it reports an invalid message exactly if the
message is not terminated.  There is no other error. -/
theorem C88_exact_partial (c : Cmd) (w : World) (h0 : w.client.scratch = []) :
    (∀ rest, ((c.send w).1 = .ok (.ok ()) ∧ (c.send w).2.script = rest) ↔
      Terminated c ∧ Accepts (commandBytes c) w.script rest) ∧
    (∀ e rest, ((c.send w).1 = .ok (.error (.io e)) ∧ (c.send w).2.script = rest) ↔
      Terminated c ∧ Rejects (commandBytes c) w.script e rest) ∧
    ((c.send w).1 = .ok (.error .invalidMessage) ↔ ¬ Terminated c) ∧
    (c.send w).1 ≠ .ok (.error .streamClosed) := by
  by_cases hc : Terminated c
  · obtain ⟨h1, h2⟩ := send_outcome c hc w h0
    rw [h1, h2]
    refine ⟨fun rest => ?_, fun e rest => ?_, ?_, ?_⟩
    · constructor
      · rintro ⟨e1, e2⟩
        refine ⟨hc, ?_⟩
        rw [← e2]
        apply writeAll_ok
        generalize writeAll (commandBytes c) w = res at *
        obtain ⟨r, w'⟩ := res
        cases r with
        | error e => cases e1
        | ok r =>
          cases r with
          | error e => cases e1
          | ok u => rfl
      · rintro ⟨-, ha⟩
        obtain ⟨w', e1, e2⟩ := writeAll_accepts w ha
        rw [e1]
        exact ⟨rfl, e2⟩
    · constructor
      · rintro ⟨e1, e2⟩
        refine ⟨hc, ?_⟩
        rw [← e2]
        apply (writeLoop_inv _ _ w _ (Nat.le_refl _)).1
        show writeAll (commandBytes c) w = _
        generalize writeAll (commandBytes c) w = res at *
        obtain ⟨r, w'⟩ := res
        cases r with
        | error e => cases e1
        | ok r =>
          cases r with
          | error e' => cases e1; rfl
          | ok u => cases e1
      · rintro ⟨-, ha⟩
        obtain ⟨w', e1, e2⟩ := writeAll_rejects w ha
        rw [e1]
        exact ⟨rfl, e2⟩
    · refine ⟨fun h => ?_, fun h => absurd hc h⟩
      generalize (writeAll (commandBytes c) w).1 = r at h
      cases r with
      | error e => cases h
      | ok r => cases r <;> cases h
    · intro h
      generalize (writeAll (commandBytes c) w).1 = r at h
      cases r with
      | error e => cases h
      | ok r => cases r <;> cases h
  · cases c with
    | raw s =>
      have hs : Cmd.send (.raw s) w = (.ok (.error .invalidMessage), w) :=
        sendRaw_invalid (fun h => hc ((endsWith_iff _ _).1 h)) w
      rw [hs]
      refine ⟨fun _ => ⟨fun h => ?_, fun h => absurd h.1 hc⟩, fun _ _ => ⟨fun h => ?_, fun h => absurd h.1 hc⟩,
        ⟨fun _ => hc, fun _ => rfl⟩, nofun⟩
      · cases h.1
      · cases h.1
    | _ => exact absurd trivial hc

example : Accepts (commandBytes (.ping (b!"x"))) [.accept 4, .accept 50] [] ∧
    Rejects (commandBytes (.ping (b!"x"))) [.accept 4, .accept 0] ⟨.writeZero, 0⟩ [] ∧ ¬ Terminated (.raw (b!"PING\n")) := by
  refine ⟨.more (by decide) (by decide) (.more (by decide) (by decide) (.done _)),
    .more (by decide) (by decide) (.zero _ (by decide)), by unfold Terminated; decide⟩
example := C88_exact_partial (.ping (b!"x")) (sampleWorld [.accept 4, .accept 0]) rfl

/-- C88 is false of the documented error for a closed stream: after `recv` has said that the stream is closed, a command
reports the error of the socket, or success. -/
theorem C88_negation (b : Build) :
    (recv b (sampleWorld [.eof, .writeFailed ⟨.brokenPipe, 7⟩])).1 = .ok (.error .streamClosed) ∧
    (Cmd.send (.ping (b!"x")) (recv b (sampleWorld [.eof, .writeFailed ⟨.brokenPipe, 7⟩])).2).1 =
      .ok (.error (.io ⟨.brokenPipe, 7⟩)) ∧
    (recv b (sampleWorld [.eof, .accept 100])).1 = .ok (.error .streamClosed) ∧
    (Cmd.send (.ping (b!"x")) (recv b (sampleWorld [.eof, .accept 100])).2).1 = .ok (.ok ()) :=
  ⟨rfl, by rfl, rfl, by rfl⟩

/-! ## C89: when `reconnect` gives up -/

theorem reconnects_attempts {parsed : Bytes → MsgOwned} {c : Backoff} {greeting : Bytes} {k : Nat} {left : Option Nat}
    {cause : ConnectError} {pending : Bytes} {script rest : List Answer} {o : Option ConnectError} {n : Nat}
    (h : Reconnects parsed c greeting k left cause pending script o rest n) :
    (∀ m, left = some m → n ≤ m) ∧ (left = some n ∧ (n = 0 → o = some cause) ∨ n ≠ 0 ∧ ¬ Transient o) := by
  induction h with
  | exhausted s => exact ⟨fun m h => Nat.zero_le _, .inl ⟨rfl, fun _ => rfl⟩⟩
  | @final k left cause pending s r o hl hd ha ht =>
    exact ⟨fun m h => Nat.pos_of_ne_zero (fun e => hl (by rw [h, e])), .inr ⟨by decide, ht⟩⟩
  | @reopen k n left cause pending s r e o hl hd h ih =>
    refine ⟨fun m hm => ?_, ?_⟩
    · subst hm
      have := ih.1 (m - 1) rfl
      have : m ≠ 0 := fun e => hl (by rw [e])
      omega
    · rcases ih.2 with ⟨h1, -⟩ | ⟨-, h1⟩
      · left
        cases left with
        | none => cases h1
        | some m =>
          have : m ≠ 0 := fun e => hl (by rw [e])
          simp at h1
          exact ⟨by congr 1; omega, nofun⟩
      · exact .inr ⟨by omega, h1⟩
  | @resend k n left cause pending s s' r e o hl hd ha h ih =>
    refine ⟨fun m hm => ?_, ?_⟩
    · subst hm
      have := ih.1 (m - 1) rfl
      have : m ≠ 0 := fun e => hl (by rw [e])
      omega
    · rcases ih.2 with ⟨h1, -⟩ | ⟨-, h1⟩
      · left
        cases left with
        | none => cases h1
        | some m =>
          have : m ≠ 0 := fun e => hl (by rw [e])
          simp at h1
          exact ⟨by congr 1; omega, nofun⟩
      · exact .inr ⟨by omega, h1⟩

/-- C89: when `reconnect` fails, either all attempts were made, or the last of them failed for a reason other than that
the connection could not be opened or the greeting could not be written. -/
theorem C89_gives_up (b : Build) (w w' : World) (hr : AllParse b w.script) (e : ConnectError)
    (h : reconnect b w = (.ok (.error e), w')) :
    ∃ ev, w'.log = w.log ++ ev ∧
      (w.client.config.backoff.maxTries = some (opens ev) ∨
        opens ev ≠ 0 ∧ (∀ m, w.client.config.backoff.maxTries = some m → opens ev ≤ m) ∧
          (∀ i, e ≠ .open_ i) ∧ ∀ i, e ≠ .io i) := by
  obtain ⟨o, n, ev, h1, h2, h3, h4, -⟩ := C41_attempts b w w' hr _ h
  have ho : o = some e := by
    cases o with
    | none => cases h1
    | some e' => cases h1; rfl
  subst ho
  obtain ⟨k1, k2⟩ := reconnects_attempts h2
  refine ⟨ev, h3, ?_⟩
  rw [h4]
  rcases k2 with ⟨k2, -⟩ | ⟨k2, k3⟩
  · exact .inl k2
  · exact .inr ⟨k2, k1, fun i hi => k3 ⟨i, .inl (by rw [hi])⟩, fun i hi => k3 ⟨i, .inr (by rw [hi])⟩⟩

/-- C89, the part that holds: if it fails because the connection could not be opened or the greeting could not be
written, all attempts were made. -/
theorem C89_transient_partial (b : Build) (w w' : World) (hr : AllParse b w.script) (e : IoError)
    (h : reconnect b w = (.ok (.error (.open_ e)), w') ∨ reconnect b w = (.ok (.error (.io e)), w')) :
    ∃ ev, w'.log = w.log ++ ev ∧ w.client.config.backoff.maxTries = some (opens ev) := by
  rcases h with h | h
  all_goals
    obtain ⟨ev, h1, h2 | ⟨-, -, h3, h4⟩⟩ := C89_gives_up b w w' hr _ h
    · exact ⟨ev, h1, h2⟩
  · exact absurd rfl (h3 e)
  · exact absurd rfl (h4 e)

theorem two_failures : (reconnect ⟨.scalar, true⟩ (sampleWorld [.slept, .openFailed ⟨.other 0, 1⟩, .slept, .opened,
    .writeFailed ⟨.timedOut, 2⟩])).1 = .ok (.error (.io ⟨.timedOut, 2⟩)) := by decide +kernel

example := C89_gives_up ⟨.scalar, true⟩ (sampleWorld [.slept, .openFailed ⟨.other 0, 1⟩, .slept, .opened,
    .writeFailed ⟨.timedOut, 2⟩]) _ (by intro s hs; simp [sampleWorld] at hs) _ (Prod.ext two_failures rfl)
example := C89_transient_partial ⟨.scalar, true⟩ (sampleWorld [.slept, .openFailed ⟨.other 0, 1⟩, .slept, .opened,
    .writeFailed ⟨.timedOut, 2⟩]) _ (by intro s hs; simp [sampleWorld] at hs) ⟨.timedOut, 2⟩ (.inr (Prod.ext two_failures rfl))

/-- A client that may try as often as it needs. -/
def patientWorld (script : List Answer) : World :=
  ⟨⟨false, [], { sampleConfig with backoff := ⟨none, 10, 3, 50⟩ }⟩, [], script⟩

/-- C89 is false: without any limit on the number of attempts, `reconnect` gives up after the first one if it takes too
long to open the connection, if the server closes it before it has answered, and if it does not answer in time. -/
theorem C89_negation (b : Build) :
    (reconnect b (patientWorld [.slept, .elapsed 0])).1 = .ok (.error .timeout) ∧
    (reconnect b (patientWorld [.slept, .opened, .accept 1000, .flushed, .eof])).1 = .ok (.error (.read .streamClosed)) ∧
    (reconnect b (patientWorld [.slept, .opened, .accept 1000, .flushed, .elapsed 0])).1 = .ok (.error .timeout) ∧
    ∀ script ∈ [[Answer.slept, .elapsed 0], [.slept, .opened, .accept 1000, .flushed, .eof],
      [.slept, .opened, .accept 1000, .flushed, .elapsed 0]], opens (reconnect b (patientWorld script)).2.log = 1 := by
  refine ⟨by rfl, by rfl, by rfl, ?_⟩
  intro script hs
  simp only [List.mem_cons, List.not_mem_nil, or_false] at hs
  rcases hs with rfl | rfl | rfl <;> rfl

end Tmi.Props
