/-
Property C115: who repeats what they were told says nothing else.
-/
import Verif.Spec.Repeat
import Verif.Props.PassOn
import Verif.Props.Reply
import Verif.Props.Relay
import Verif.Props.Pieces
import Verif.Props.Unescape
import Verif.Proofs.Replies

namespace Tmi.Props
open Tmi.Model Tmi.Spec Tmi.Proofs

/-! ## C115: repeating what was told -/

theorem infix_avoids {x : UInt8} {u v : Bytes} (h : v <:+: u) (hx : x ∉ u) : x ∉ v :=
  fun hm => hx (h.subset hm)

/-- C115: what `maybe_unescape` makes of an escaped text has a line feed in it exactly if the text had one. -/
theorem C115_unescaped (cs : List Char) :
    ∃ u, maybeUnescape (enc (escape cs)) = .ok u ∧ (LF ∈ u ↔ '\n' ∈ cs) := by
  obtain ⟨p, r, rfl, hp, hr⟩ := split_special cs
  refine ⟨_, maybeUnescape_escape hp hr, ?_⟩
  rw [ascii_mem_enc (by decide), show Char.ofNat LF.toNat = '\n' from rfl, List.mem_append, List.mem_append]
  have key : ∀ (x y : Char), x ≠ '\n' → y ≠ '\n' → ∀ l : List Char,
      '\n' ∈ l.map (fun c => if c = x then y else c) ↔ '\n' ∈ l := by
    intro x y hx hy l
    simp only [List.mem_map]
    constructor
    · rintro ⟨c, hc, e⟩
      by_cases h : c = x
      · rw [if_pos h] at e; exact absurd e hy
      · rw [if_neg h] at e; exact e ▸ hc
    · intro h
      exact ⟨'\n', h, if_neg fun e => hx e.symm⟩
  rw [key _ _ (by decide) (by decide), key _ _ (by decide) (by decide)]

example := C115_unescaped "five\nraiders; ok".toList

theorem owned_text_piece {m : MsgOwned} {v : Bytes} (h : m.text = .ok (some v)) : v <:+: m.raw := by
  unfold MsgOwned.text at h
  cases hp : m.params with
  | error e => rw [hp] at h; cases h
  | ok o =>
    rw [hp, Model.bind_ok] at h
    cases o with
    | none => cases h
    | some p =>
      have hi : p <:+: m.raw := (raw_pieces m.asRef).params _ hp
      simp only [] at h
      split at h
      · rename_i i _
        cases e2 : strFrom p (i + 1) with
        | error f => rw [e2] at h; cases h
        | ok x => rw [e2] at h; cases h; exact (from_piece e2).trans hi
      · cases h

/-- C115: nothing that a program was told has a line feed in it. -/
theorem C115_told (b : Build) (v : Bytes) (h : FromTold b v) : LF ∉ v := by
  induction h with
  | raw hm => exact (received_facts hm).1
  | @tag m _ _ hm h => exact infix_avoids ((raw_pieces m.asRef).tag _ _ h) (received_facts hm).1
  | @nick m _ _ hm h h' => exact infix_avoids ((raw_pieces m.asRef).nick _ _ h h') (received_facts hm).1
  | @params m _ hm h => exact infix_avoids ((raw_pieces m.asRef).params _ h) (received_facts hm).1
  | @text m _ hm h => exact infix_avoids (owned_text_piece h) (received_facts hm).1
  | typed hm h hv =>
    rcases (fromIrc_pieces h).texts _ hv with h | ⟨rfl, -⟩
    · exact infix_avoids h (received_facts hm).1
    · decide
  | @unescaped v u cs _ e hc h _ =>
    obtain ⟨u', h1, h2⟩ := C115_unescaped cs
    rw [← e, h] at h1
    cases h1
    exact fun hl => hc (h2.1 hl)
  | piece _ h ih => exact infix_avoids h ih

theorem words_clean {b : Build} {s : Bytes} (h : Words b s) : LF ∉ s := by
  induction h with
  | own h => exact h
  | told h => exact C115_told b _ h
  | both _ _ h1 h2 => simp [h1, h2]

theorem received_line {b : Build} {m : MsgOwned} (hm : Received b m) (hr : Readable b m.raw) :
    ∃ l, line m.raw = some l ∧ Represents m.asRef l := by
  obtain ⟨-, -, h3⟩ := received_facts hm
  cases hl : line m.raw with
  | none => rw [owned_parse_none hr hl] at h3; cases h3
  | some l =>
    obtain ⟨h4, -, R⟩ := owned_parse_some hr hl
    rw [h3] at h4
    simp only [Except.ok.injEq, Option.some.injEq] at h4
    rw [← h4] at R
    exact ⟨l, rfl, R⟩

theorem chat_facts {b : Build} {p : Privmsg} (h : ReceivedChat b p) :
    ((Getter.Privmsg.channel p).head? = some HASH ∧ SP ∉ Getter.Privmsg.channel p ∧ LF ∉ Getter.Privmsg.channel p) ∧
    SEMI ∉ Getter.Privmsg.id p ∧ SP ∉ Getter.Privmsg.id p ∧ LF ∉ Getter.Privmsg.id p := by
  obtain ⟨m, hm, hr, ht⟩ := h
  have hclean : ∀ v ∈ messageTexts (.privmsg p), LF ∉ v := fun v hv => C115_told b v (.typed hm ht hv)
  have hp : Privmsg.parse m.asRef = .ok (some p) := by
    have key : ∀ {α : Type} {x : R (Option α)} {f : α → Message}, into x f = .ok (some (.privmsg p)) →
        ∃ v, x = .ok (some v) ∧ Message.privmsg p = f v := by
      intro α x f hx
      match x, hx with
      | .ok (some v), hx =>
        simp only [into, Model.bind_ok] at hx
        exact ⟨v, rfl, (Option.some.inj (Except.ok.inj hx)).symm⟩
      | .ok Option.none, hx => cases hx
      | .error e, hx => cases hx
    unfold MsgOwned.asTyped Message.fromIrc at ht
    cases hc : m.asRef.command with
    | error e => rw [hc] at ht; cases ht
    | ok c =>
      rw [hc, Model.bind_ok] at ht
      split at ht
      case _ => obtain ⟨v, hv, e⟩ := key ht; cases e
      all_goals first
        | (obtain ⟨v, hv, e⟩ := key ht; cases e; done)
        | (obtain ⟨v, hv, e⟩ := key ht; cases e; exact hv)
        | (cases ht)
  obtain ⟨l, hl, R⟩ := received_line hm hr
  obtain ⟨-, P⟩ := ((privmsg_exactly R).iff p).1 hp
  obtain ⟨-, c1, c2⟩ := line_channel_facts hr.1 hr.2.1 hl P.channel
  obtain ⟨-, i1, i2, -⟩ := line_tag_facts hr.1 hr.2.1 hl P.id
  exact ⟨⟨c1, c2, hclean _ (by simp [messageTexts, Getter.Privmsg.channel])⟩, i1, i2,
    hclean _ (by simp [messageTexts, Getter.Privmsg.id])⟩

theorem repeats_plain {b : Build} {c : Cmd} (h : Repeats b c) : PlainCmd c := by
  have place : ∀ {ch}, ChatPlace b ch → ch.head? = some HASH ∧ SP ∉ ch ∧ LF ∉ ch := by
    rintro ch (⟨p, hp, rfl⟩ | ⟨m, c, hm, hr, hc, n1, n2, h⟩ | h)
    · exact (chat_facts hp).1
    · obtain ⟨l, hl, R⟩ := received_line hm hr
      have hc' : commandOf l.command = c := Except.ok.inj (R.command.symm.trans hc)
      have h' : l.channel = some ch := Except.ok.inj ((channel_eq R hc' n1 n2).symm.trans h)
      obtain ⟨-, c1, c2⟩ := line_channel_facts hr.1 hr.2.1 hl h'
      exact ⟨c1, c2, infix_avoids ((raw_pieces m.asRef).channel _ h) (received_facts hm).1⟩
    · exact h
  have known : ∀ {v}, KnownId b v → SEMI ∉ v ∧ SP ∉ v ∧ LF ∉ v := by
    rintro v (⟨p, hp, rfl⟩ | ⟨m, t, hm, hr, h⟩)
    · exact (chat_facts hp).2
    · obtain ⟨l, hl, R⟩ := received_line hm hr
      have h' : l.tag t.asStr = some v := Except.ok.inj ((R.tag t).symm.trans h)
      obtain ⟨-, c1, c2, -⟩ := line_tag_facts hr.1 hr.2.1 hl h'
      exact ⟨c1, c2, infix_avoids ((raw_pieces m.asRef).tag _ _ h) (received_facts hm).1⟩
  cases c with
  | raw s => exact h
  | privmsg ch t r n =>
    obtain ⟨h1, h2, h3, rfl⟩ := h
    refine ⟨(place h1).1, (place h1).2.1, (place h1).2.2, words_clean h2, ?_⟩
    rintro v (e | e)
    · exact known (h3 v e)
    · cases e
  | ping n => exact words_clean h
  | pong n => exact fun v e => words_clean (h v e)
  | join c => exact ⟨(place h.1).2.1, h.2, (place h.1).2.2⟩
  | joinAll cs => exact fun c hc => ⟨(place (h c hc).1).2.1, (h c hc).2, (place (h c hc).1).2.2⟩

/-- C115: a program writes into channels, replies, pings and joins with texts, ids and names that come from messages
that it received, put together with words of its own.  Whatever these messages say, the server receives one line for
each call. -/
theorem C115_lines (b : Build) (w w' : World) (cmds : List Cmd) (h0 : w.client.scratch = []) (h : Sent w cmds w')
    (hc : ∀ c ∈ cmds, Repeats b c) : receivedLines (wire w w') = cmds.map commandLine :=
  (C36_one_line_iff w w' cmds h0 h).2 fun c hm => (command_requests (repeats_plain (hc c hm))).1

/-- C115: and the server understands what the program asked for: nothing that was said to the program becomes a command
of its own, another channel or another reply. -/
theorem C115_understood (b : Build) (w w' : World) (cmds : List Cmd) (h0 : w.client.scratch = []) (h : Sent w cmds w')
    (hc : ∀ c ∈ cmds, Repeats b c) :
    (receivedLines (wire w w')).flatMap requests = cmds.flatMap asked :=
  C100_understood w w' cmds h0 h fun c hm => repeats_plain (hc c hm)

theorem received_one {b : Build} {s : Bytes} {m : MsgOwned}
    (hp : pollMany 1 .new [.data (s ++ [LF])] = [some (.ok s)]) (hm : MsgOwned.parse b s = .ok (some m)) :
    Received b m := by
  refine ⟨[.data (s ++ [LF])], 1, ?_⟩
  rw [recvPolls_eq, hp]
  simp [recvItem, hm]

/-- A user asks the program to repeat something that looks like a command. -/
def sampleAsk : Bytes :=
  b!"@display-name=A\\sB;id=m1;room-id=1;tmi-sent-ts=5;user-id=2 :a!a@a PRIVMSG #c :!say JOIN #evil\\nJOIN #evil"

theorem sampleAsk_received : Received ⟨.scalar, true⟩ (parsed ⟨.scalar, true⟩ sampleAsk) :=
  received_one (s := sampleAsk) (by decide +kernel)
    (owned_parse_some (readable_of (by decide +kernel) _) (line_eq _ (by decide +kernel))).1

/-- What the program reads. -/
def sampleAsked : Privmsg := ⟨b!"#c", b!"1", none, b!"m1", ⟨b!"2", b!"a", b!"A\\sB"⟩, none, none,
  b!"!say JOIN #evil\\nJOIN #evil", false, [], none, none, none, b!"", ⟨0, 5000000, by decide⟩⟩

theorem sampleAsked_received : ReceivedChat ⟨.scalar, true⟩ sampleAsked :=
  ⟨_, sampleAsk_received, readable_of (by decide +kernel) _, by decide +kernel⟩

/-- Non-vacuity of C115: the program repeats it in a reply, with the name of the user, and pings with what it was
told; the server understands that it says something and nothing more. -/
example : ∃ w' cmds, Sent (sampleWorld []) cmds w' ∧ (∀ c ∈ cmds, Repeats ⟨.scalar, true⟩ c) ∧
    cmds = [.privmsg (Getter.Privmsg.channel sampleAsked) (b!"A B" ++ (b!": " ++ b!"JOIN #evil\\nJOIN #evil"))
      (some (Getter.Privmsg.id sampleAsked)) none, .ping (b!"JOIN #evil\\nJOIN #evil"), .join (b!"#d")] ∧
    (receivedLines (wire (sampleWorld []) w')).flatMap requests =
      [.say (b!"#c") (b!"A B: JOIN #evil\\nJOIN #evil") (some (b!"m1")), .enter (b!"#d")] := by
  obtain ⟨m, hm, hr, hty⟩ := sampleAsked_received
  have hwords : FromTold ⟨.scalar, true⟩ (b!"JOIN #evil\\nJOIN #evil") :=
    .piece (u := b!"!say JOIN #evil\\nJOIN #evil") (.typed hm hty (by decide +kernel)) ⟨b!"!say ", [], by decide⟩
  have hname : FromTold ⟨.scalar, true⟩ (b!"A B") :=
    .unescaped (v := b!"A\\sB") (cs := "A B".toList) (.typed hm hty (by decide +kernel)) (by decide +kernel)
      (by decide) (by decide +kernel)
  refine ⟨_, _, .more [.accept 9, .accept 1000] _ (by decide +kernel) (.more [.accept 1000] _ (by decide +kernel)
    (.more [.accept 1000] _ (by decide +kernel) (.none _))), ?_, rfl, by decide +kernel⟩
  intro c hc
  simp only [List.mem_cons, List.not_mem_nil, or_false] at hc
  rcases hc with rfl | rfl | rfl
  · exact ⟨.inl ⟨_, sampleAsked_received, rfl⟩, .both (.told hname) (.both (.own (by decide)) (.told hwords)),
      fun v hv => .inl ⟨_, sampleAsked_received, (Option.some.inj hv).symm⟩, rfl⟩
  · exact .told hwords
  · exact ⟨.inr (.inr (by decide)), by decide⟩

/-- A user whose name contains a line feed. -/
def sampleFeed : Bytes :=
  b!"@display-name=A\\nJOIN\\s#evil;id=m1;room-id=1;tmi-sent-ts=5;user-id=2 :a!a@a PRIVMSG #c :hi"

/-- What the program reads. -/
def sampleFeedRead : Privmsg := ⟨b!"#c", b!"1", none, b!"m1", ⟨b!"2", b!"a", b!"A\\nJOIN\\s#evil"⟩, none, none,
  b!"hi", false, [], none, none, none, b!"", ⟨0, 5000000, by decide⟩⟩

/-- C115, the limit: a name in which the server escaped a line feed comes out of `User::name` with the line feed, and a
program that greets by that name sends a second command, which it did not ask for. -/
theorem C115_limit : ∃ w' name, ReceivedChat ⟨.scalar, true⟩ sampleFeedRead ∧
    Getter.User.name (Getter.Privmsg.sender sampleFeedRead) = .ok name ∧ LF ∈ name ∧
    Sent (sampleWorld []) [.privmsg (Getter.Privmsg.channel sampleFeedRead) (b!"hi " ++ name) none none] w' ∧
    (receivedLines (wire (sampleWorld []) w')).flatMap requests =
      [.say (b!"#c") (b!"hi A") none, .enter (b!"#evil")] := by
  have hp := owned_parse_some (b := ⟨.scalar, true⟩) (readable_of (s := sampleFeed) (by decide +kernel) _)
    (line_eq _ (by decide +kernel))
  refine ⟨_, b!"A\nJOIN #evil", ⟨_, received_one (s := sampleFeed) (by decide +kernel) hp.1,
    readable_of (by decide +kernel) _, by decide +kernel⟩, by decide +kernel, by decide,
    .more [.accept 1000] _ (by decide +kernel) (.none _), by decide +kernel⟩

end Tmi.Props
