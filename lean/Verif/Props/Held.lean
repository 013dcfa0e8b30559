/-
C105: what a client keeps in memory does not grow with what it receives or sends.
-/
import Verif.Spec.Calm
import Verif.Proofs.Held
import Verif.Props.Net
import Verif.Props.Connect

namespace Tmi.Props
open Tmi Tmi.Model Tmi.Spec Tmi.Proofs

/-! ## What the reader holds -/

/-- C105, received bytes: in every session, whatever is called, whatever fails and is interrupted and however much
arrives, the reader never holds more than one line and one read. -/
theorem C105_received (b : Build) (cfg : Config) (answers : List Answer) (waits : List Wait) (calls : List NetCall)
    (conns : List (List Net)) (limit cap : Nat) (hl : ∀ c ∈ conns, NoLongLine limit (allBytes c))
    (hc : ∀ c ∈ conns, SmallReads cap c) :
    held (netSession b cfg answers waits calls conns).2.2.reader ≤ limit + cap :=
  (session_tidy b cfg answers waits calls conns fun c h => ⟨hl c h, hc c h⟩).1.held

/-- C105, without the limit: a line that does not end is held in full, however long it is. -/
theorem C105_endless (chunks : List Bytes) (h : ∀ bs ∈ chunks, LF ∉ bs) :
    held (Reader.new.poll (chunks.map .data)).reader = chunks.flatten.length := by
  have key : ∀ (chunks : List Bytes) (r : Reader), r.avail = [] → (∀ bs ∈ chunks, LF ∉ bs) →
      r.readUntilEmpty (chunks.map .data) = ⟨.pending, { r with bytes := r.bytes ++ chunks.flatten }, []⟩ := by
    intro chunks
    induction chunks with
    | nil => intro r _ _; simp [Reader.readUntilEmpty]
    | cons bs rest ih =>
      intro r hr h
      rw [List.map_cons, Reader.readUntilEmpty]
      have hn : bs.findIdx? (· == LF) = none := by
        rw [List.findIdx?_eq_none_iff]
        intro x hx
        have := h bs List.mem_cons_self
        simp only [beq_eq_false_iff_ne, ne_eq]
        rintro rfl
        exact this hx
      have : ({ r with avail := bs } : Reader).scan = (false, { r with bytes := r.bytes ++ bs }) := by
        simp only [Reader.scan, hn]
        rw [hr]
      rw [this]
      simp only []
      rw [ih { r with bytes := r.bytes ++ bs } hr fun x hx => h x (List.mem_cons_of_mem _ hx)]
      simp
  have e := key chunks .new rfl h
  simp only [Reader.poll, Reader.nextLine, Reader.readUntil, Reader.new] at *
  simp only [Bool.false_eq_true, if_false, if_true, reduceIte, e]
  simp [held]

/-! ## What is left in the buffer -/

theorem framed_log {α : Type} {x : Act α} (h : Framed x) (w : World) : ∃ ev, (x w).2.log = w.log ++ ev :=
  ⟨_, by rw [show w = ⟨w.client, w.log, w.script⟩ from rfl, h]⟩

theorem copies_add (s : Bytes) (m n : Nat) : copies m s ++ copies n s = copies (m + n) s := by
  simp [copies, List.replicate_append_replicate, ← List.flatten_append]

/-- One call. -/
theorem op_scratch (op : Op) (w : World) (k : Nat) (h : w.client.scratch = copies k (hello w.client.config.credentials)) :
    (op.outcome w).2.client.config = w.client.config ∧
    ∃ k', (op.outcome w).2.client.scratch = copies k' (hello w.client.config.credentials) ∧
      k' + connections w.log ≤ k + connections (op.outcome w).2.log ∧
      ((∀ b, op ≠ .reconnect b) → k = 0 → k' = 0) := by
  cases op with
  | send c =>
    refine ⟨send_config c w, ?_⟩
    obtain ⟨ev, hev⟩ := framed_log (Framed.send c) w
    show ∃ k', (c.send w).2.client.scratch = _ ∧ _ ≤ k + connections (c.send w).2.log ∧ _
    rw [hev, Proofs.connections_append]
    by_cases hc : ∃ s, c = .raw s
    · obtain ⟨s, rfl⟩ := hc
      exact ⟨k, by rw [raw_scratch]; exact h, by omega, fun _ h => h⟩
    · exact ⟨0, by rw [(send_effect c (fun s h => hc ⟨s, h⟩) w).2]; simp [copies], by omega, fun _ _ => rfl⟩
  | recv b =>
    refine ⟨(recv_keeps b w).2, ?_⟩
    obtain ⟨ev, hev⟩ := framed_log (Framed.recv b) w
    show ∃ k', (recv b w).2.client.scratch = _ ∧ _ ≤ k + connections (recv b w).2.log ∧ _
    rw [hev, Proofs.connections_append, (recv_keeps b w).1]
    exact ⟨k, h, by omega, fun _ h => h⟩
  | reconnect b =>
    refine ⟨?_, ?_⟩
    · show (reconnect b w).2.client.config = _
      rw [reconnect_eq]
      exact (reconnectLoop_effect b w.client.config _ _ _ _ w).config
    · obtain ⟨ev, h1, _, _, h4⟩ := C40_copies b w
      show ∃ k', (reconnect b w).2.client.scratch = _ ∧ _ ≤ k + connections (reconnect b w).2.log ∧ _
      rw [h1, Proofs.connections_append]
      rcases h4 with h4 | h4
      · exact ⟨0, by rw [h4]; simp [copies], by omega, fun h => absurd rfl (h b)⟩
      · exact ⟨k + connections ev, by rw [h4, h, copies_add], by omega, fun h => absurd rfl (h b)⟩

/-- Any calls. -/
theorem outcomes_scratch : ∀ (calls : List (Op × List Answer)) (w : World) (k : Nat),
    w.client.scratch = copies k (hello w.client.config.credentials) →
    ∃ k', (outcomes calls w).2.client.scratch = copies k' (hello w.client.config.credentials) ∧
      k' + connections w.log ≤ k + connections (outcomes calls w).2.log ∧
      ((∀ c ∈ calls, ∀ b, c.1 ≠ .reconnect b) → k = 0 → k' = 0)
  | [], w, k, h => ⟨k, h, Nat.le_refl _, fun _ h => h⟩
  | (op, answers) :: rest, w, k, h => by
    obtain ⟨h1, k1, h2, h3, h4⟩ := op_scratch op { w with script := answers } k h
    obtain ⟨k2, g2, g3, g4⟩ := outcomes_scratch rest (op.outcome { w with script := answers }).2 k1 (by rw [h1]; exact h2)
    rw [h1] at g2
    refine ⟨k2, g2, ?_, fun hn hk => g4 (fun c hc => hn c (List.mem_cons_of_mem _ hc)) (h4 (hn _ List.mem_cons_self) hk)⟩
    have h3 : k1 + connections w.log ≤ k + connections (op.outcome { w with script := answers }).2.log := h3
    show k2 + connections w.log ≤ k + connections (outcomes rest (op.outcome { w with script := answers }).2).2.log
    omega

/-- C105, the buffer: after any session whose `connect` succeeded, the buffer in which commands are put together holds
nothing but copies of the greeting, at most one for each connection that was opened; and nothing at all as long as
`reconnect` was not called, whatever was sent, received, refused and interrupted. -/
theorem C105_buffer (b : Build) (cfg : Config) (answers : List Answer) (waits : List Wait) (calls : List NetCall)
    (conns : List (List Net)) (hok : (netSession b cfg answers waits calls conns).1 = .ok (.ok ())) :
    ∃ k, (netSession b cfg answers waits calls conns).2.2.world.client.scratch = copies k (hello cfg.credentials) ∧
      k ≤ connections (netSession b cfg answers waits calls conns).2.2.world.log ∧
      ((∀ c ∈ calls, ∀ b, c.op ≠ .reconnect b) → k = 0) := by
  obtain ⟨answers', scripts, hlen, h1, _, h3, h4⟩ := C64_session b cfg answers waits calls conns
  rw [← h3, ← h4]
  rw [← h1] at hok
  revert hok
  unfold lineSession
  have hcl := connect_ok_client (b := b) (cfg := cfg) (w := ⟨⟨false, [], cfg⟩, [], answers'⟩)
  split
  · rename_i w hw
    intro _
    rw [hw] at hcl
    have hcl : w.client = ⟨false, [], cfg⟩ := hcl rfl
    obtain ⟨k, g1, g2, g3⟩ := outcomes_scratch ((calls.map (·.op)).zip scripts) w 0 (by rw [hcl]; simp [copies])
    rw [hcl] at g1
    refine ⟨k, g1, by simp only; omega, fun hn => g3 ?_ rfl⟩
    intro c hc b'
    have := (List.of_mem_zip (show (c.1, c.2) ∈ _ from hc)).1
    rw [List.mem_map] at this
    obtain ⟨c', hc', e⟩ := this
    rw [← e]
    exact hn c' hc' b'
  · rename_i r w hne hw
    intro hr
    simp only at hr
    subst hr
    exact (hne rfl).elim

/-- What happens in an attempt whose first write fails. -/
def refusedAttempt (e : IoError) : List Answer := [.slept, .opened, .writeFailed e]

/-- A handshake whose first write fails. -/
theorem handshake_refused (b : Build) (c : Client) (log : List Effect) (e : IoError) (rest : List Answer) :
    handshake b ⟨c, log, .writeFailed e :: rest⟩ =
      (.ok (.error (.io e)), ⟨{ c with scratch := c.scratch ++ hello c.config.credentials }, log, rest⟩) := by
  rw [handshake_eq, act_bind]
  have hne : c.scratch ++ hello c.config.credentials ≠ [] := by
    intro h
    have := (List.append_eq_nil_iff.1 h).2
    simp [hello] at this
  obtain ⟨x, xs, hx⟩ := List.exists_cons_of_ne_nil hne
  have : writeAll (c.scratch ++ hello c.config.credentials)
      ⟨{ c with scratch := c.scratch ++ hello c.config.credentials }, log, .writeFailed e :: rest⟩ =
      (.ok (.error e), ⟨{ c with scratch := c.scratch ++ hello c.config.credentials }, log, rest⟩) := by
    rw [hx, writeAll, List.length_cons, writeLoop, if_neg (by simp), act_bind]
    rfl
  simp only [this]
  rfl

/-- Attempts whose first write fails. -/
theorem loop_refused (b : Build) (cfg : Config) (e : IoError) (hv : Computable cfg.backoff) :
    ∀ (n fuel d : Nat) (cause : ConnectError) (closed : Bool) (scratch : Bytes) (log : List Effect),
    n < fuel → d * cfg.backoff.delayMultiplier ≤ durationMax →
    (reconnectLoop b cfg fuel (some n) d cause
      ⟨⟨closed, scratch, cfg⟩, log, (List.replicate n (refusedAttempt e)).flatten⟩).2.client.scratch =
      scratch ++ copies n (hello cfg.credentials) := by
  intro n
  induction n with
  | zero =>
    intro fuel d cause closed scratch log hf hd
    obtain ⟨fuel, rfl⟩ : ∃ f, fuel = f + 1 := ⟨fuel - 1, by omega⟩
    rw [reconnectLoop, if_pos rfl]
    simp [copies, Pure.pure]
  | succ n ih =>
    intro fuel d cause closed scratch log hf hd
    obtain ⟨fuel, rfl⟩ : ∃ f, fuel = f + 1 := ⟨fuel - 1, by omega⟩
    have hd' : min cfg.backoff.maxDelay (d * cfg.backoff.delayMultiplier) * cfg.backoff.delayMultiplier ≤ durationMax :=
      Nat.le_trans (Nat.mul_le_mul_right _ (Nat.min_le_left _ _)) hv.2
    rw [reconnectLoop, if_neg (by simp), mulDuration_ok hd]
    have e1 : (List.replicate (n + 1) (refusedAttempt e)).flatten =
        .slept :: .opened :: .writeFailed e :: (List.replicate n (refusedAttempt e)).flatten := by
      simp [List.replicate_succ, refusedAttempt]
    rw [e1, act_bind, sleep_run]
    simp only []
    rw [act_bind]
    simp only [lift, Pure.pure]
    rw [act_bind]
    simp only [withTimeout, openStream, act_bind, emit, next, Pure.pure, useStream, setClosed]
    rw [handshake_refused]
    simp only [Option.map_some, Nat.add_sub_cancel]
    refine (ih fuel _ (.io e) false (scratch ++ hello cfg.credentials) _ (by omega) hd').trans ?_
    rw [List.append_assoc, Nat.add_comm n 1, ← copies_add]
    simp [copies]

/-- C105, the buffer does grow with failed attempts: after a `reconnect` in which the first write failed in each of `n`
attempts, it holds `n` greetings more than before. -/
theorem C105_greetings (b : Build) (cfg : Config) (e : IoError) (n : Nat) (closed : Bool) (scratch : Bytes)
    (log : List Effect) (hn : cfg.backoff.maxTries = some n) (hv : Computable cfg.backoff) :
    (reconnect b ⟨⟨closed, scratch, cfg⟩, log, (List.replicate n (refusedAttempt e)).flatten⟩).2.client.scratch =
      scratch ++ copies n (hello cfg.credentials) := by
  rw [reconnect_eq]
  show (reconnectLoop b cfg _ cfg.backoff.maxTries _ _ _).2.client.scratch = _
  rw [hn]
  refine loop_refused b cfg e hv n _ _ _ closed scratch log ?_ hv.1
  have : ∀ n, ((List.replicate n (refusedAttempt e)).flatten).length = 3 * n := by
    intro n
    induction n with
    | zero => rfl
    | succ n ih => rw [List.replicate_succ, List.flatten_cons, List.length_append, ih]; simp [refusedAttempt]; omega
  simp only [this]
  omega

/-! ## Concrete cases -/

/-- A connection that delivers two lines and the beginning of a third, in reads of at most 8 bytes. -/
def sampleConn : List Net :=
  [.data (b!"PING\r\nPI"), .pending, .data (b!"NG\nPO"), .data (b!"NG")]

/-- The conditions hold of it. -/
theorem sampleConn_small : SmallReads 8 sampleConn := by
  intro bs h
  simp only [sampleConn, List.mem_cons, Net.data.injEq, List.not_mem_nil, or_false, reduceCtorEq, false_or] at h
  rcases h with rfl | rfl | rfl <;> decide

theorem sampleConn_lines : NoLongLine 5 (allBytes sampleConn) := by
  have : allBytes sampleConn = b!"PING\r" ++ LF :: (b!"PING" ++ LF :: b!"PONG") := by decide
  rw [this]
  exact noLongLine_cons (noLongLine_short (by decide)) (noLongLine_cons (noLongLine_short (by decide)) (noLongLine_short (by decide)))

/-- Non-vacuity: a session that connects, receives on such a connection a greeting and two lines, and is left with a
beginning of a line in the reader. -/
example :
    let s := netSession ⟨.scalar, true⟩ sampleConfig
      ([.tlsLoaded, .opened, .accept 1000, .flushed]) [.again]
      [⟨.recv ⟨.scalar, true⟩, [], [.again]⟩, ⟨.recv ⟨.scalar, true⟩, [], [.again]⟩, ⟨.recv ⟨.scalar, true⟩, [], [.again, .elapsed 0]⟩]
      [.data (b!":a CAP * ACK\r\n:a 001 b\r\n") :: sampleConn]
    (s.1, held s.2.2.reader, s.2.2.reader.bytes, s.2.2.world.client.scratch) = (.ok (.ok ()), 4, b!"PONG", []) := by
  decide +kernel

/-- Non-vacuity: three attempts. -/
example : (reconnect ⟨.scalar, true⟩ ⟨⟨true, [], { sampleConfig with backoff := ⟨some 3, 1, 2, 10⟩ }⟩, [],
    (List.replicate 3 (refusedAttempt ⟨.other 0, 1⟩)).flatten⟩).2.client.scratch =
    copies 3 (hello sampleConfig.credentials) := by decide +kernel

end Tmi.Props
