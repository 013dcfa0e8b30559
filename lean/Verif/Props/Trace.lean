/-
Property C55: the token in the log.
-/
import Verif.Props.Send
import Verif.Model.Trace

namespace Tmi.Props
open Tmi.Model Tmi.Spec Tmi.Proofs

theorem sendRawTrace_crlf {s : Bytes} (h : endsWith [CR, LF] s = true) : sendRawTrace s = [s] := by
  unfold sendRawTrace rawMessage
  rw [if_pos h]

/-- The record of a call: the buffer and the command. -/
theorem trace_eq (c : Cmd) (hc : ∀ s, c ≠ .raw s) (cl : Client) :
    c.trace cl = [cl.scratch ++ commandBytes c] := by
  have crlf : ∀ x : Bytes, endsWith [CR, LF] (cl.scratch ++ (x ++ [CR, LF])) = true := by
    intro x; rw [← List.append_assoc]; exact crlf_suffix _
  cases c with
  | raw s => exact absurd rfl (hc s)
  | privmsg ch text r n =>
    have : commandBytes (.privmsg ch text r n) = commandLine (.privmsg ch text r n) ++ [CR, LF] := rfl
    show sendRawTrace (cl.scratch ++ privmsgText ch text r n) = _
    rw [privmsgText_eq]
    exact sendRawTrace_crlf (by rw [this]; exact crlf _)
  | ping n => exact sendRawTrace_crlf (crlf _)
  | pong n =>
    cases n with
    | none => exact sendRawTrace_crlf (crlf _)
    | some n => exact sendRawTrace_crlf (crlf _)
  | join ch =>
    show sendRawTrace (cl.scratch ++ (b!"JOIN " ++ displayChannel ch ++ [CR, LF])) = _
    rw [displayChannel_eq]
    exact sendRawTrace_crlf (crlf _)
  | joinAll cs =>
    have : commandBytes (.joinAll cs) = joinAllText cs := by rw [joinAllText_eq]; rfl
    rw [this]
    exact sendRawTrace_crlf (by rw [joinAllText_eq]; exact crlf _)

theorem trace_raw (s : Bytes) (cl : Client) :
    Cmd.trace (.raw s) cl = if endsWith [CR, LF] s = true then [s] else [] := by
  show sendRawTrace s = _
  unfold sendRawTrace rawMessage
  by_cases h : endsWith [CR, LF] s = true
  · rw [if_pos h, if_pos h]
  · rw [if_neg h, if_neg h]

/-! ## C55 -/

/-- C55: a call makes at most one record, and the record is what the call puts on the wire: all of it when the call
returns `Ok`, and a beginning of it otherwise.  A call without a record puts nothing on the wire. -/
theorem C55_records (c : Cmd) (w : World) :
    (∃ data, c.trace w.client = [data] ∧ wire w (c.send w).2 <+: data ∧
      ((c.send w).1 = .ok (.ok ()) → wire w (c.send w).2 = data)) ∨
    (c.trace w.client = [] ∧ wire w (c.send w).2 = [] ∧ (c.send w).1 = .ok (.error .invalidMessage)) := by
  by_cases hraw : ∃ s, c = .raw s
  · obtain ⟨s, rfl⟩ := hraw
    rw [trace_raw]
    by_cases hs : endsWith [CR, LF] s = true
    · rw [if_pos hs]
      obtain ⟨ev, l1, _, l3, l4⟩ := (sendRaw_effect hs w).1.log
      refine .inl ⟨s, rfl, ?_⟩
      rw [show wire w (Cmd.send (.raw s) w).2 = written ev from wire_of l1]
      exact ⟨l3, l4⟩
    · rw [if_neg hs]
      have e : Cmd.send (.raw s) w = _ := sendRaw_invalid hs w
      refine .inr ⟨rfl, ?_, ?_⟩
      · rw [e, wire_nothing rfl]
      · rw [e]
  · have hc : ∀ s, c ≠ .raw s := fun s h => hraw ⟨s, h⟩
    obtain ⟨ev, l1, _, l3, l4⟩ := (send_effect c hc w).1.log
    refine .inl ⟨_, trace_eq c hc w.client, ?_⟩
    rw [show wire w (c.send w).2 = written ev from wire_of l1]
    exact ⟨l3, l4⟩

/-- C55, the part that holds: in a settled history the records of a call are determined by the command alone, and
the record of the handshake by the login alone.  So neither shows the token. -/
theorem C55_hidden_partial (w₀ w : World) (h : List (Op × Bool)) (h₀ : w₀.client.scratch = [])
    (hist : History w₀ h w) (hs : settled h = true) (c : Cmd) :
    (c.trace w.client = [commandBytes c] ∨ ∃ s, c = .raw s ∧ ¬ [CR, LF] <:+ s ∧ c.trace w.client = []) ∧
    ∀ (debugStr : Bytes → Bytes) (t : Option Bytes),
      helloTrace debugStr w.client.config.credentials =
        helloTrace debugStr ⟨w₀.client.config.credentials.login, t⟩ := by
  obtain ⟨h1, _, h3⟩ := history_pending hist h₀
  refine ⟨?_, fun debugStr t => by rw [h1]; rfl⟩
  by_cases hraw : ∃ s, c = .raw s
  · obtain ⟨s, rfl⟩ := hraw
    rw [trace_raw]
    by_cases hcr : endsWith [CR, LF] s = true
    · rw [if_pos hcr]; exact .inl rfl
    · rw [if_neg hcr]; exact .inr ⟨s, rfl, fun hx => hcr ((endsWith_iff _ _).2 hx), rfl⟩
  · left
    rw [trace_eq c (fun s h => hraw ⟨s, h⟩), h3 hs]
    rfl

/-- C55, all histories: the record of a call is the command, preceded by as many copies of the greeting, with the
token, as failed reconnects have left behind. -/
theorem C55_exact (w₀ w : World) (h : List (Op × Bool)) (h₀ : w₀.client.scratch = []) (hist : History w₀ h w) :
    ∃ k, (settled h = true → k = 0) ∧ ∀ c : Cmd, (∀ s, c ≠ .raw s) →
      c.trace w.client = [copies k (hello w₀.client.config.credentials) ++ commandBytes c] := by
  obtain ⟨h1, ⟨k, h2⟩, h3⟩ := history_pending hist h₀
  refine ⟨k, fun hs => ?_, fun c hc => by rw [trace_eq c hc, h2, h1]⟩
  have := h3 hs
  rw [h2] at this
  cases k with
  | zero => rfl
  | succ k =>
    rw [copies_succ] at this
    exact absurd (List.append_eq_nil_iff.1 this).2 (hello_ne_nil _)

/-- C55 is false: the first command after a `reconnect` that timed out while it wrote the greeting is logged with the
token. -/
theorem C55_negation : ∃ w, History (sampleWorld []) [(.reconnect ⟨.scalar, true⟩, false)] w ∧
    Cmd.trace (.ping (b!"x")) w.client = [b!"CAP REQ :twitch.tv/commands twitch.tv/tags twitch.tv/membership\r\nPASS oauth:secret\r\nNICK forsen\r\nPING :x\r\n"] := by
  have h := History.call (History.start (w₀ := sampleWorld [])) (.reconnect ⟨.scalar, true⟩) [.slept, .opened, .elapsed 0]
  have e : (Op.run (.reconnect ⟨.scalar, true⟩) { sampleWorld [] with script := [.slept, .opened, .elapsed 0] }).1 = false := by
    decide +kernel
  rw [e] at h
  exact ⟨_, h, by decide +kernel⟩

/-- Non-vacuity of the part that holds: after a reconnect that succeeded, the record is the command. -/
example : ∃ w, History (sampleWorld []) [(.reconnect ⟨.scalar, true⟩, true)] w ∧
    settled [(.reconnect ⟨.scalar, true⟩, true)] = true ∧
    Cmd.trace (.ping (b!"x")) w.client = [b!"PING :x\r\n"] := by
  have h := History.call (History.start (w₀ := sampleWorld [])) (.reconnect ⟨.scalar, true⟩)
    [.slept, .opened, .accept 1000, .flushed, .line (b!":tmi.twitch.tv CAP * ACK :twitch.tv/tags"),
      .line (b!":tmi.twitch.tv 001 forsen :Welcome, GLHF!")]
  have e : (Op.run (.reconnect ⟨.scalar, true⟩) { sampleWorld [] with script := [.slept, .opened, .accept 1000, .flushed,
      .line (b!":tmi.twitch.tv CAP * ACK :twitch.tv/tags"),
      .line (b!":tmi.twitch.tv 001 forsen :Welcome, GLHF!")] }).1 = true := by
    decide +kernel
  rw [e] at h
  exact ⟨_, h, by decide, by decide +kernel⟩

end Tmi.Props
