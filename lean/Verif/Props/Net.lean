/-
Sessions on connections that deliver bytes.
-/
import Verif.Proofs.NetTwin
import Verif.Props.Connect

namespace Tmi.Props
open Tmi.Model Tmi.Spec Tmi.Proofs

/-! ## C64 -/

/-- C64: a session over bytes, however they are cut into pieces and whenever a call is dropped or times out, is a
session over lines: with suitable lines, errors and ends instead of the bytes, `connect` and all calls return the same,
and the client does the same. -/
theorem C64_session (b : Build) (cfg : Config) (answers : List Answer) (waits : List Wait) (calls : List NetCall)
    (conns : List (List Net)) :
    ∃ answers' scripts, scripts.length = calls.length ∧
      (lineSession b cfg answers' ((calls.map (·.op)).zip scripts)).1 = (netSession b cfg answers waits calls conns).1 ∧
      (lineSession b cfg answers' ((calls.map (·.op)).zip scripts)).2.1 =
        (netSession b cfg answers waits calls conns).2.1 ∧
      (lineSession b cfg answers' ((calls.map (·.op)).zip scripts)).2.2.log =
        (netSession b cfg answers waits calls conns).2.2.world.log ∧
      (lineSession b cfg answers' ((calls.map (·.op)).zip scripts)).2.2.client =
        (netSession b cfg answers waits calls conns).2.2.world.client := by
  obtain ⟨hc, s, hs⟩ := (Follows.connect b cfg
    (n := ⟨⟨⟨false, [], cfg⟩, [], answers⟩, .new, [], conns, waits⟩) rfl).same
  unfold lineSession netSession
  have hs : connect b cfg ⟨⟨false, [], cfg⟩, [], s⟩ = _ := hs
  generalize netConnect b cfg ⟨⟨⟨false, [], cfg⟩, [], answers⟩, .new, [], conns, waits⟩ = p at hc hs
  obtain ⟨r, n⟩ := p
  simp only [] at hc hs
  obtain ⟨_, ss, hl, h2⟩ := outcomes_same calls hc
  refine ⟨s, ss, hl, ?_⟩
  rw [hs]
  rcases r with e | (e | ⟨⟩)
  · exact ⟨rfl, rfl, rfl, rfl⟩
  · exact ⟨rfl, rfl, rfl, rfl⟩
  · obtain ⟨t', h2⟩ := h2 []
    simp only []
    rw [h2]
    exact ⟨trivial, rfl, rfl, rfl⟩

/-- A connection whose bytes are cut inside lines, and that falls silent in the middle of one. -/
def firstConn : List Net :=
  [.data (b!":tmi.twitch.tv CAP * ACK :twitch.tv/ta"), .pending, .data (b!"gs\r\n:tmi.twitch.tv 001 a :W"),
   .data (b!"elcome\r\nPI"), .pending, .data (b!"NG :x\r"), .pending, .data (b!"\n:old half")]

/-- A connection that is closed after a line. -/
def secondConn : List Net :=
  [.data (b!":tmi.twitch.tv CAP * ACK :twitch.tv/tags\r\n:tmi.twitch.tv 001 a :Welcome\r\nPING :"), .pending,
   .data (b!"new\n"), .eof]

/-- Calls on these connections: a `recv` that is dropped in the middle of a line, one that gets the line, one that is
dropped in the middle of the next line, `reconnect`, `recv`. -/
def sampleNetCalls : List NetCall :=
  [⟨.recv ⟨.scalar, true⟩, [], [.dropped]⟩, ⟨.recv ⟨.scalar, true⟩, [], [.again, .again, .again]⟩,
   ⟨.recv ⟨.scalar, true⟩, [], []⟩, ⟨.reconnect ⟨.scalar, true⟩, [.slept, .opened, .accept 1000, .flushed], []⟩,
   ⟨.recv ⟨.scalar, true⟩, [], [.again, .again]⟩]

/-- A session with these calls. -/
def sampleSession (calls : List NetCall) : Except Stop (Except ConnectError Unit) × List Outcome × NetWorld :=
  netSession ⟨.scalar, true⟩ sampleConfig [.tlsLoaded, .opened, .accept 1000, .flushed] [.again] calls
    [firstConn, secondConn]

/-- Non-vacuity of C64: the session over bytes, and the session over lines that it is. -/
example : (sampleSession sampleNetCalls).1 = .ok (.ok ()) ∧
    (sampleSession sampleNetCalls).2.1.map (fun o => match o with
      | .received (.ok (.ok m)) => some (some m.raw)
      | .received (.error .dropped) => some none
      | _ => none) = [some none, some (some (b!"PING :x")), some none, none, some (some (b!"PING :new"))] ∧
    (lineSession ⟨.scalar, true⟩ sampleConfig
      [.tlsLoaded, .opened, .accept 1000, .flushed, .line (b!":tmi.twitch.tv CAP * ACK :twitch.tv/tags"),
       .line (b!":tmi.twitch.tv 001 a :Welcome")]
      ((sampleNetCalls.map (·.op)).zip [[], [.line (b!"PING :x")], [], [.slept, .opened, .accept 1000, .flushed,
        .line (b!":tmi.twitch.tv CAP * ACK :twitch.tv/tags"), .line (b!":tmi.twitch.tv 001 a :Welcome")],
        [.line (b!"PING :new")]])).2.2.log = (sampleSession sampleNetCalls).2.2.world.log := by decide +kernel

/-! ## C65 -/

theorem session_inv {conns : List (List Net)} (hf : ∀ c ∈ conns, StaysFailed c) (b : Build) (cfg : Config)
    (answers : List Answer) (waits : List Wait) (calls : List NetCall) :
    Pre conns (netSession b cfg answers waits calls conns).2.2 ∧
    ((netSession b cfg answers waits calls conns).1 = .ok (.ok ()) →
      Inv conns (netSession b cfg answers waits calls conns).2.2) := by
  have h := connect_inv hf b cfg (n := ⟨⟨⟨false, [], cfg⟩, [], answers⟩, .new, [], conns, waits⟩)
    ⟨rfl, rfl, fun j => by simp [takenOn]⟩
  unfold netSession
  generalize netConnect b cfg ⟨⟨⟨false, [], cfg⟩, [], answers⟩, .new, [], conns, waits⟩ = p at h
  obtain ⟨r, n⟩ := p
  simp only [] at h
  rcases r with e | (e | ⟨⟩)
  · exact ⟨h.1, fun h => by cases h⟩
  · exact ⟨h.1, fun h => by cases h⟩
  · have := inv_outcomes hf calls (h.2 rfl)
    exact ⟨this.pre, fun _ => this⟩

/-- C65: whatever the session and whatever happens in it, the lines taken from a connection are lines that arrived on
that connection, in their order, from its first on and without gaps; nothing that was left of an earlier connection is
ever mixed in. -/
theorem C65_own_lines (b : Build) (cfg : Config) (answers : List Answer) (waits : List Wait) (calls : List NetCall)
    (conns : List (List Net)) (hf : ∀ c ∈ conns, StaysFailed c) :
    takenOn 0 (netSession b cfg answers waits calls conns).2.2.world.log = [] ∧
    ∀ k, takenOn (k + 1) (netSession b cfg answers waits calls conns).2.2.world.log <+:
      texts (itemsOf (conns.getD k [])) := by
  have h := (session_inv hf b cfg answers waits calls).1
  exact ⟨h.before, h.old⟩

/-- C65: no line is lost, whatever was dropped or timed out before: if the lines that arrive are valid UTF-8, a call of
`recv` that is not interrupted returns the first line that has not been taken. -/
theorem C65_next_line (b : Build) (cfg : Config) (answers : List Answer) (waits : List Wait) (calls : List NetCall)
    (conns : List (List Net)) (hf : ∀ c ∈ conns, StaysFailed c)
    (hok : (netSession b cfg answers waits calls conns).1 = .ok (.ok ())) (n : NetWorld)
    (hn : n = (netSession b cfg answers waits calls conns).2.2) (c : List Net)
    (hc : c = conns.getD (connections n.world.log - 1) []) (hu : ∀ i ∈ itemsOf c, ∃ s, i = .ok s) (s : Bytes)
    (hs : (texts (itemsOf c))[(takenOn (connections n.world.log) n.world.log).length]? = some s) :
    ∃ k₀, ∀ k, k₀ ≤ k →
      (netRecv b { n with waits := List.replicate k .again }).1 = expected b (.ok s) ∧
      (netRecv b { n with waits := List.replicate k .again }).2.world.log = n.world.log ++ [.took s] := by
  have hi := (session_inv hf b cfg answers waits calls).2 hok
  rw [← hn] at hi
  obtain ⟨seen, e1, e2⟩ := hi.now
  rw [← hc] at e1
  have hall : ∀ (l : List (Except IoError Bytes)), (∀ i ∈ l, ∃ s, i = .ok s) → l = (texts l).map .ok := by
    intro l
    induction l with
    | nil => intro _; rfl
    | cons i l ih =>
      intro h
      obtain ⟨s, rfl⟩ := h i List.mem_cons_self
      have := ih fun i hi => h i (List.mem_cons_of_mem _ hi)
      rw [show texts (.ok s :: l) = s :: texts l from rfl, List.map_cons, ← this]
  have hr : ∃ q, rest n.reader n.net = .ok s :: q := by
    rw [← e1, texts_append, e2, List.getElem?_append_right (Nat.le_refl _), Nat.sub_self] at hs
    rw [hall (rest n.reader n.net) fun i hi' => hu i (by rw [← e1]; exact List.mem_append_right _ hi')]
    cases ht : texts (rest n.reader n.net) with
    | nil => rw [ht] at hs; simp at hs
    | cons s' q => rw [ht] at hs; simp at hs; subst hs; exact ⟨q.map .ok, rfl⟩
  obtain ⟨q, hr⟩ := hr
  refine ⟨n.net.length, fun k hk => ?_⟩
  have hp := (pollLoop_patient (List.replicate k .again) hi.sound (k := 0)
    (fun w hw => (List.mem_replicate.1 hw).2) (by simpa using hk)).item _ _ hr
  unfold netRecv netReaderNext
  rw [net_bind, net_bind, netPoll_run]
  simp only [hp.1]
  rw [net_bind, io_run]
  simp only [emit, net_pure]
  rw [net_bind, io_run]
  simp only [expected]
  generalize MsgOwned.parse b s = p
  rcases p with f | (_ | m)
  · exact ⟨rfl, rfl⟩
  · exact ⟨rfl, rfl⟩
  · exact ⟨rfl, rfl⟩

theorem sample_fails : ∀ c ∈ [firstConn, secondConn], StaysFailed c := by
  intro c hc
  refine staysFailed_noFail fun e h => ?_
  rcases List.mem_cons.1 hc with rfl | hc
  · simp [firstConn] at h
  · rcases List.mem_cons.1 hc with rfl | hc
    · simp [secondConn] at h
    · simp at hc

/-- Non-vacuity of C65: what was taken from the two connections of the session. -/
example : takenOn 0 (sampleSession sampleNetCalls).2.2.world.log = [] ∧
    takenOn 1 (sampleSession sampleNetCalls).2.2.world.log =
      [b!":tmi.twitch.tv CAP * ACK :twitch.tv/tags", b!":tmi.twitch.tv 001 a :Welcome", b!"PING :x"] ∧
    takenOn 2 (sampleSession sampleNetCalls).2.2.world.log =
      [b!":tmi.twitch.tv CAP * ACK :twitch.tv/tags", b!":tmi.twitch.tv 001 a :Welcome", b!"PING :new"] := by
  decide +kernel

theorem sample_items : itemsOf firstConn =
    [.ok (b!":tmi.twitch.tv CAP * ACK :twitch.tv/tags"), .ok (b!":tmi.twitch.tv 001 a :Welcome"), .ok (b!"PING :x")] := by
  have hd : ∀ s : Bytes, (∀ x ∈ s, x < 128) → deliver s = .ok s := fun s h => by
    unfold deliver
    rw [if_pos (Utf8.of_ascii h)]
  have h1 : ending firstConn = .open_ := by decide +kernel
  have h2 : receivedLines (arrived firstConn) =
    [b!":tmi.twitch.tv CAP * ACK :twitch.tv/tags", b!":tmi.twitch.tv 001 a :Welcome", b!"PING :x"] := by decide +kernel
  unfold itemsOf
  rw [h1, if_neg (by simp)]
  unfold delivered
  rw [h2, List.map_cons, List.map_cons, List.map_cons, hd _ (by decide +kernel), hd _ (by decide +kernel),
    hd _ (by decide +kernel), List.map_nil]

/-- Non-vacuity of C65: after the `recv` that was dropped in the middle of a line, the next one returns that line. -/
example : ∃ k₀, ∀ k, k₀ ≤ k →
    (netRecv ⟨.scalar, true⟩ { (sampleSession (sampleNetCalls.take 1)).2.2 with waits := List.replicate k .again }).1 =
      expected ⟨.scalar, true⟩ (.ok (b!"PING :x")) := by
  obtain ⟨k₀, h⟩ := C65_next_line ⟨.scalar, true⟩ sampleConfig [.tlsLoaded, .opened, .accept 1000, .flushed] [.again]
    (sampleNetCalls.take 1) [firstConn, secondConn] sample_fails (by decide +kernel) (sampleSession (sampleNetCalls.take 1)).2.2
    (by unfold sampleSession; rfl) firstConn (by decide +kernel)
    (by rw [sample_items]; simp) (b!"PING :x") (by rw [sample_items]; decide +kernel)
  exact ⟨k₀, fun k hk => (h k hk).1⟩

/-! ## C66 -/

theorem sameConn {c₁ c₂ : List Net} (h : SameBytes c₁ c₂) : SameConn c₁ c₂ :=
  ⟨fun e => (h.2.2 e).1, fun e => (h.2.2 e).2, by unfold itemsOf; rw [h.1, h.2.1], h.2.1⟩

theorem op_twin (op : Op) {n₁ n₂ : NetWorld} (h : NetTwin n₁ n₂) (e₁ : Enough n₁) (e₂ : Enough n₂) :
    (op.net n₁).1 = (op.net n₂).1 ∧ NetTwin (op.net n₁).2 (op.net n₂).2 ∧
      events (op.net n₁).2 ≤ events n₁ ∧ events (op.net n₂).2 ≤ events n₂ := by
  cases op with
  | send c => obtain ⟨h1, h2, h3, _⟩ := NetTwinRun.io c.send n₁ n₂ h e₁ e₂; exact ⟨by simp only [Op.net, h1], h2, h3⟩
  | recv b => obtain ⟨h1, h2, h3, _⟩ := NetTwinRun.recv b n₁ n₂ h e₁ e₂; exact ⟨by simp only [Op.net, h1], h2, h3⟩
  | reconnect b => obtain ⟨h1, h2, h3, _⟩ := NetTwinRun.reconnect b n₁ n₂ h e₁ e₂; exact ⟨by simp only [Op.net, h1], h2, h3⟩

theorem outcomes_twin (calls : List (Op × List Answer)) {k : Nat} {n₁ n₂ : NetWorld} (h : NetTwin n₁ n₂)
    (e₁ : events n₁ ≤ k) (e₂ : events n₂ ≤ k) :
    (netOutcomes (patient k calls) n₁).1 = (netOutcomes (patient k calls) n₂).1 ∧
    (netOutcomes (patient k calls) n₁).2.world = (netOutcomes (patient k calls) n₂).2.world := by
  induction calls generalizing n₁ n₂ with
  | nil => exact ⟨rfl, h.world⟩
  | cons c rest ih =>
    obtain ⟨h1, h2, h3, h4, h5, h6, h7, h8, h9⟩ := h
    have hop := op_twin c.1
      (n₁ := { n₁ with world := { n₁.world with script := c.2 }, waits := List.replicate k .again })
      (n₂ := { n₂ with world := { n₂.world with script := c.2 }, waits := List.replicate k .again })
      ⟨by simp only [h1], h2, h3, h4, h5, h6, h7, h8, h9⟩
      ⟨fun w hw => (List.mem_replicate.1 hw).2, by simpa [events] using e₁⟩
      ⟨fun w hw => (List.mem_replicate.1 hw).2, by simpa [events] using e₂⟩
    obtain ⟨k1, k2, k3, k4⟩ := hop
    have := ih k2 (Nat.le_trans k3 e₁) (Nat.le_trans k4 e₂)
    simp only [patient, List.map_cons, netOutcomes] at this ⊢
    exact ⟨by rw [k1, this.1], this.2⟩

/-- C66: a whole session gives the same results and effects however the network cuts the bytes of its connections into
pieces and however often a read has to wait, as long as no read is interrupted. -/
theorem C66_chunks (b : Build) (cfg : Config) (answers : List Answer) (calls : List (Op × List Answer))
    (conns : List (List Net × List Net)) (hc : ∀ c ∈ conns, SameBytes c.1 c.2) (k : Nat)
    (hk₁ : ((conns.map Prod.fst).map List.length).sum ≤ k) (hk₂ : ((conns.map Prod.snd).map List.length).sum ≤ k) :
    (netSession b cfg answers (List.replicate k .again) (patient k calls) (conns.map Prod.fst)).1 =
      (netSession b cfg answers (List.replicate k .again) (patient k calls) (conns.map Prod.snd)).1 ∧
    (netSession b cfg answers (List.replicate k .again) (patient k calls) (conns.map Prod.fst)).2.1 =
      (netSession b cfg answers (List.replicate k .again) (patient k calls) (conns.map Prod.snd)).2.1 ∧
    (netSession b cfg answers (List.replicate k .again) (patient k calls) (conns.map Prod.fst)).2.2.world =
      (netSession b cfg answers (List.replicate k .again) (patient k calls) (conns.map Prod.snd)).2.2.world := by
  have hp : Pairs (conns.map Prod.fst) (conns.map Prod.snd) := by
    clear hk₁ hk₂
    induction conns with
    | nil => exact .nil
    | cons c conns ih =>
      exact .cons (sameConn (hc c List.mem_cons_self)) (ih fun c h => hc c (List.mem_cons_of_mem _ h))
  have hs : Sound .new [] := ⟨fun _ => by simp [Reader.new], staysFailed_noFail (by simp)⟩
  have h := NetTwinRun.connect b cfg ⟨⟨⟨false, [], cfg⟩, [], answers⟩, .new, [], conns.map Prod.fst, List.replicate k .again⟩
    ⟨⟨⟨false, [], cfg⟩, [], answers⟩, .new, [], conns.map Prod.snd, List.replicate k .again⟩
    ⟨rfl, rfl, rfl, fun _ => rfl, hs, hs, by simp, by simp, hp⟩
    ⟨fun w hw => (List.mem_replicate.1 hw).2, by simpa [events] using hk₁⟩
    ⟨fun w hw => (List.mem_replicate.1 hw).2, by simpa [events] using hk₂⟩
  unfold netSession
  generalize netConnect b cfg ⟨⟨⟨false, [], cfg⟩, [], answers⟩, .new, [], conns.map Prod.fst, List.replicate k .again⟩ = p at h
  generalize netConnect b cfg ⟨⟨⟨false, [], cfg⟩, [], answers⟩, .new, [], conns.map Prod.snd, List.replicate k .again⟩ = q at h
  obtain ⟨r, n₁⟩ := p
  obtain ⟨r', n₂⟩ := q
  obtain ⟨h1, h2, ⟨h3, h4⟩, _⟩ := h
  simp only [] at h1 h2 h3 h4
  subst h1
  rcases r with e | (e | ⟨⟩)
  · exact ⟨rfl, rfl, h2.world⟩
  · exact ⟨rfl, rfl, h2.world⟩
  · have := outcomes_twin calls h2 (k := k) (Nat.le_trans h3 (by simpa [events] using hk₁))
      (Nat.le_trans h4 (by simpa [events] using hk₂))
    exact ⟨rfl, this.1, this.2⟩

/-- Non-vacuity of C66: the connections of the session above, and the same bytes in other pieces. -/
example : (∀ c ∈ [(firstConn, [Net.data (arrived firstConn)]),
      (secondConn, [.pending, .data (b!":tmi.twitch.tv CAP * ACK :twitch.tv/tags\r"), .pending, .pending,
        .data (b!"\n:tmi.twitch.tv 001 a :Welcome\r\nPING :new\n"), .eof])], SameBytes c.1 c.2) ∧
    (netSession ⟨.scalar, true⟩ sampleConfig [.tlsLoaded, .opened, .accept 1000, .flushed] (List.replicate 12 .again)
      (patient 12 (sampleNetCalls.map fun c => (c.op, c.answers))) [firstConn, secondConn]).2.1.map (fun o => match o with
      | .received (.ok (.ok m)) => some (some m.raw)
      | .received (.error .dropped) => some none
      | _ => none) = [some (some (b!"PING :x")), some none, some none, none, some (some (b!"PING :new"))] := by
  refine ⟨?_, by decide +kernel⟩
  intro c hc
  rcases List.mem_cons.1 hc with rfl | hc
  · exact ⟨by decide +kernel, by decide +kernel, fun e => by simp [firstConn]⟩
  · rcases List.mem_cons.1 hc with rfl | hc
    · exact ⟨by decide +kernel, by decide +kernel, fun e => by simp [secondConn]⟩
    · simp at hc

end Tmi.Props
