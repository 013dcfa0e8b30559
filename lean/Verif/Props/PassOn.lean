/-
Property C114: a line that is passed on arrives as it came.
-/
import Verif.Spec.PassOn
import Verif.Props.Lines
import Verif.Proofs.Samples

namespace Tmi.Props
open Tmi.Model Tmi.Spec Tmi.Proofs

/-! ## C114: passing on -/

theorem deliver_ok {l s : Bytes} (h : deliver l = .ok s) : s = l ∧ Utf8 l := by
  unfold deliver at h
  split at h
  · rename_i hu; injection h with h; exact ⟨h.symm, hu⟩
  · exact absurd h (by simp)

/-- Whatever the connection does, a line that comes out of the reader has no line feed in it and is UTF-8. -/
theorem pollMany_clean (n : Nat) (r : Reader) (net : List Net) (hr : LF ∉ r.bytes) (s : Bytes)
    (h : some (.ok s) ∈ pollMany n r net) : LF ∉ s ∧ Utf8 s := by
  induction n generalizing r net with
  | zero => simp [pollMany] at h
  | succ n ih =>
    by_cases hd : r.done = true
    · rw [pollMany_done net hd] at h
      simp at h
    · rw [Bool.not_eq_true] at hd
      have st := step_cases r net hr hd
      rw [pollMany] at h
      generalize r.poll net = p at st h
      cases st with
      | line a ha hb hd' ht he hl =>
        rcases List.mem_cons.1 h with h | h
        · obtain ⟨h1, h2⟩ := deliver_ok (Option.some.inj h).symm
          subst h1
          refine ⟨?_, h2⟩
          rcases stripCR_cases a with ⟨c, hc, e⟩ | e
          · rw [e]; intro hm; exact ha (hc ▸ List.mem_append_left _ hm)
          · rw [e]; exact ha
        · exact ih _ _ hb h
      | last ha hne hr' he =>
        rcases List.mem_cons.1 h with h | h
        · obtain ⟨h1, h2⟩ := deliver_ok (Option.some.inj h).symm
          subst h1
          exact ⟨ha, h2⟩
        · exact ih _ _ (by rw [hr']; simp [Reader.new]) h
      | ended ha he hd' =>
        rcases List.mem_cons.1 h with h | h
        · simp at h
        · rw [pollMany_done _ hd'] at h
          simp at h
      | fail e ha he hr' hs =>
        rcases List.mem_cons.1 h with h | h
        · simp at h
        · exact ih _ _ (by rw [hr']; simp [Reader.new]) h
      | wait ht hb he hl hd' => exact ih _ _ hb h
      | stuck ht hb hv he hd' => exact ih _ _ (by rw [ht]; exact hb) h

theorem received_facts {b : Build} {m : MsgOwned} (h : Received b m) :
    LF ∉ m.raw ∧ Utf8 m.raw ∧ MsgOwned.parse b m.raw = .ok (some m) := by
  obtain ⟨net, n, h⟩ := h
  rw [recvPolls_eq] at h
  obtain ⟨i, hi, e⟩ := List.mem_map.1 h
  match i with
  | none => simp [recvItem] at e
  | some (.error x) => simp [recvItem] at e
  | some (.ok s) =>
    obtain ⟨h1, h2⟩ := pollMany_clean n .new net (by simp [Reader.new]) s hi
    have hp : MsgOwned.parse b s = .ok (some m) := by
      simp only [recvItem] at e
      split at e
      · rename_i m' hm; rw [hm]; simpa using e
      · simp at e
      · simp at e
    have hs : m.raw = s := by
      unfold MsgOwned.parse at hp
      cases hq : MsgRef.parse b s with
      | error f => rw [hq] at hp; exact absurd hp (by intro h; cases h)
      | ok o =>
        rw [hq] at hp
        cases o with
        | none => exact absurd hp (by intro h; cases h)
        | some m' =>
          have : (Except.ok (some (⟨m'.checks, s, m'.parts⟩ : MsgOwned)) : R (Option MsgOwned)) = .ok (some m) := hp
          injection this with this
          injection this with this
          rw [← this]; rfl
    rw [hs]
    exact ⟨h1, h2, hp⟩

theorem passOn_line (m : MsgOwned) : commandLine (passOn m) = m.raw := by
  simp [passOn, commandLine]

/-- C114: a program passes on messages that it has received, any of them, from any number of connections, in any order
and any number of times, by sending `raw()` and `"\r\n"` with `send_raw`.  If the calls returned `Ok` and the bytes
arrive at the other end, in whatever pieces, then `recv` there returns the same messages: as many, in that order, with
the same tags, prefix, command, channel, params and raw text. -/
theorem C114_same (b : Build) (ms : List MsgOwned) (hms : ∀ m ∈ ms, Received b m) (w w' : World)
    (h0 : w.client.scratch = []) (h : Sent w (ms.map passOn) w') (net : List Net) (hn : arrived net = wire w w')
    (he : ending net = .open_) :
    ∃ N, ∀ n, N ≤ n → recvPolls b n .new net = ms.map fun m => .ok (.ok m) := by
  obtain ⟨N, hN⟩ := C61_commands b w w' _ h0 h (by
    intro c hc
    obtain ⟨m, hm, rfl⟩ := List.mem_map.1 hc
    rw [passOn_line]
    exact ⟨(received_facts (hms m hm)).1, (received_facts (hms m hm)).2.1⟩) net hn he
  refine ⟨N, fun n hn' => ?_⟩
  rw [hN n hn', List.map_map]
  refine List.map_congr_left fun m hm => ?_
  simp only [Function.comp, passOn_line, expected, (received_facts (hms m hm)).2.2]

/-- C114: the message that comes out at the other end can be passed on in turn, so that this holds over any number of
stations. -/
theorem C114_again (b : Build) (ms : List MsgOwned) (hms : ∀ m ∈ ms, Received b m) (w w' : World)
    (h0 : w.client.scratch = []) (h : Sent w (ms.map passOn) w') (net : List Net) (hn : arrived net = wire w w')
    (he : ending net = .open_) (n : Nat) (m : MsgOwned) (hm : .ok (.ok m) ∈ recvPolls b n .new net) :
    m ∈ ms ∧ Received b m := by
  refine ⟨?_, net, n, hm⟩
  obtain ⟨N, hN⟩ := C114_same b ms hms w w' h0 h net hn he
  have h1 := (recvPolls_mono b .new net (Nat.le_add_left n N)).subset hm
  rw [hN _ (Nat.le_add_right N n)] at h1
  obtain ⟨m', hm', e⟩ := List.mem_map.1 h1
  simp only [Except.ok.injEq] at e
  exact e ▸ hm'

/-- C114: the `"\r\n"` is needed: `send_raw(m.raw())` is refused for every message that was received, and nothing is
written. -/
theorem C114_bare (b : Build) (m : MsgOwned) (hm : Received b m) (w : World) :
    Cmd.send (.raw m.raw) w = (.ok (.error .invalidMessage), w) := by
  refine (C37_send_raw m.raw w).1 fun hs => ?_
  exact (received_facts hm).1 (hs.subset (by simp))

/-- C114: passing on never fails by itself: if the socket takes the bytes, the call returns `Ok`. -/
theorem C114_accepted (m : MsgOwned) (w : World) (rest : List Answer)
    (ha : Accepts (m.raw ++ [CR, LF]) w.script rest) : (Cmd.send (passOn m) w).1 = .ok (.ok ()) :=
  ((C37_send_raw _ w).2 (List.suffix_append _ _)).2.2.2.2.1 rest ha

/-- A line that ends in a carriage return and whose end is missing, on a connection that was closed. -/
def samplePassed : List Net := [.data (b!"@id=1 :a!a@a PRIV"), .pending, .data (b!"MSG #x :hi\r"), .eof]

/-- Non-vacuity of C114: two messages that were received on different connections are passed on, the second one twice,
written and received in pieces. -/
example (b : Build) : ∃ (m₁ m₂ : MsgOwned) (w' : World), Received b m₁ ∧ Received b m₂ ∧
    m₁.raw = b!"@id=1 :a!a@a PRIVMSG #x :hi\r" ∧ m₂.raw = b!"PING :t" ∧
    Sent (sampleWorld []) ([m₂, m₁, m₂].map passOn) w' ∧
    arrived [.data (b!"PING :t\r\n@id=1 :a!a@a P"), .data (b!"RIVMSG #x :hi\r\r\nPING :t\r"), .pending, .data [LF]] =
      wire (sampleWorld []) w' := by
  obtain ⟨m₁, e₁, s₁, -⟩ := (C43_line b (b!"@id=1 :a!a@a PRIVMSG #x :hi\r") (readable_of (by decide +kernel) b)).2 _
    (line_eq _ (by decide +kernel))
  obtain ⟨m₂, e₂, s₂, -⟩ := (C43_line b (b!"PING :t") (readable_of (by decide +kernel) b)).2 _
    (line_eq _ (by decide +kernel))
  have r₁ : m₁.raw = b!"@id=1 :a!a@a PRIVMSG #x :hi\r" := s₁
  have r₂ : m₂.raw = b!"PING :t" := s₂
  obtain ⟨w', hw, ha⟩ : ∃ w', Sent (sampleWorld []) [.raw (b!"PING :t\r\n"),
      .raw (b!"@id=1 :a!a@a PRIVMSG #x :hi\r\r\n"), .raw (b!"PING :t\r\n")] w' ∧
      arrived [.data (b!"PING :t\r\n@id=1 :a!a@a P"), .data (b!"RIVMSG #x :hi\r\r\nPING :t\r"), .pending, .data [LF]] =
        wire (sampleWorld []) w' := by
    refine ⟨_, .more [.accept 5, .accept 100] _ (by decide +kernel) (.more [.accept 1, .accept 99] _ (by decide +kernel)
      (.more [.accept 100] _ (by decide +kernel) (.none _))), by decide +kernel⟩
  have e : [m₂, m₁, m₂].map passOn = [.raw (b!"PING :t\r\n"), .raw (b!"@id=1 :a!a@a PRIVMSG #x :hi\r\r\n"),
      .raw (b!"PING :t\r\n")] := by
    simp only [List.map_cons, List.map_nil, passOn, r₁, r₂]
    decide
  refine ⟨m₁, m₂, w', ⟨samplePassed, 3, ?_⟩, ⟨[.data (b!"PING :t\n")], 1, ?_⟩, r₁, r₂, e ▸ hw, ha⟩
  · have hp : pollMany 3 .new samplePassed = [(b!"@id=1 :a!a@a PRIVMSG #x :hi\r")].map (fun s => some (.ok s)) ++ [none] := by
      decide +kernel
    rw [recvPolls_eq, hp, ← e₁]
    have := map_recvItem b [.ok (b!"@id=1 :a!a@a PRIVMSG #x :hi\r")]
    simp only [List.map_cons, List.map_nil, List.cons.injEq, and_true] at this
    simp only [List.map_cons, List.map_nil, List.cons_append, List.nil_append, this]
    exact List.mem_cons_self
  · have hp : pollMany 1 .new [.data (b!"PING :t\n")] = [some (.ok (b!"PING :t"))] := by decide +kernel
    rw [recvPolls_eq, hp, ← e₂]
    have := map_recvItem b [.ok (b!"PING :t")]
    simp only [List.map_cons, List.map_nil] at this
    rw [List.map_cons, List.map_nil, this]
    exact List.mem_cons_self

end Tmi.Props
