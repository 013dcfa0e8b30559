import Verif.Spec.Net
import Verif.Proofs.Lines
import Verif.Proofs.Reconnect
import Verif.Proofs.Handshake

/-! Sessions on connections that deliver bytes are sessions of lines. -/

namespace Tmi.Proofs
open Model Spec

theorem net_bind {α β : Type} (x : NetAct α) (f : α → NetAct β) (n : NetWorld) :
    (x >>= f) n = match x n with
      | (.ok a, n') => f a n'
      | (.error e, n') => (.error e, n') := rfl

theorem net_pure {α : Type} (a : α) (n : NetWorld) : (pure a : NetAct α) n = (.ok a, n) := rfl

/-- The world with another script. -/
def _root_.Tmi.Model.World.at (w : World) (s : List Answer) : World := { w with script := s }

@[simp] theorem at_script (w : World) (s : List Answer) : (w.at s).script = s := rfl
@[simp] theorem at_client (w : World) (s : List Answer) : (w.at s).client = w.client := rfl
@[simp] theorem at_log (w : World) (s : List Answer) : (w.at s).log = w.log := rfl
@[simp] theorem at_at (w : World) (s t : List Answer) : (w.at s).at t = w.at t := rfl

/-- With the answers `s`, `x` in `w` ends with `r` in `w'`; what comes after `s` does not matter, unless the call was
dropped. -/
structure Gives {α : Type} (x : Act α) (w : World) (s : List Answer) (r : Except Stop α) (w' : World) : Prop where
  some : r ≠ .error .dropped → ∀ t, x (w.at (s ++ t)) = (r, w'.at t)
  drop : r = .error .dropped → x (w.at s) = (r, w'.at [])

/-- Something that happens on a connection other than a read. -/
def Quiet (e : Effect) : Prop := e ≠ .connected ∧ ∀ s, e ≠ .took s

/-- `x` takes its answers from the front of the script, and leaves the reader alone. -/
structure Local {α : Type} (x : Act α) (w : World) : Prop where
  quiet : ∃ ev, (x w).2.log = w.log ++ ev ∧ ∀ e ∈ ev, Quiet e
  closed : (x w).2.client.closed = w.client.closed
  front : ∃ s, w.script = s ++ (x w).2.script ∧ Gives x w s (x w).1 (x w).2

theorem Local.pure {α : Type} (a : α) (w : World) : Local (Pure.pure a : Act α) w :=
  ⟨⟨[], by simp [act_pure], by simp⟩, rfl, [], rfl, fun _ _ => rfl, fun h => by cases h⟩

theorem Local.bind {α β : Type} {x : Act α} {f : α → Act β} {w : World} (hx : Local x w)
    (hf : ∀ a, (x w).1 = .ok a → Local (f a) (x w).2) : Local (x >>= f) w := by
  obtain ⟨⟨ev1, v1, v2⟩, c1, s1, e1, g1, g2⟩ := hx
  cases h : (x w).1 with
  | error e =>
    have e0 : (x >>= f) w = (.error e, (x w).2) := by
      rw [act_bind]; rcases hx : x w with ⟨r, w2⟩; rw [hx] at h; simp only [] at h; subst h; rfl
    refine ⟨⟨ev1, by rw [e0]; exact v1, v2⟩, by rw [e0]; exact c1, s1, by rw [e0]; exact e1, ?_, ?_⟩
    · intro hne t
      rw [e0] at hne ⊢
      have := g1 (by rw [h]; intro h'; cases h'; exact hne rfl) t
      rw [h] at this
      rw [act_bind, this]
    · intro heq
      rw [e0] at heq ⊢
      simp only [] at heq
      cases heq
      have := g2 h
      rw [h] at this
      rw [act_bind, this]
  | ok a =>
    have e0 : (x >>= f) w = f a (x w).2 := by
      rw [act_bind]; rcases hx : x w with ⟨r, w2⟩; rw [hx] at h; simp only [] at h; subst h; rfl
    obtain ⟨⟨ev2, v3, v4⟩, c2, s2, e2, k1, k2⟩ := hf a h
    refine ⟨⟨ev1 ++ ev2, by rw [e0, v3, v1, List.append_assoc], fun e he => (List.mem_append.1 he).elim (v2 e) (v4 e)⟩, by rw [e0]; exact c2.trans c1, s1 ++ s2, by rw [e0, e1, e2, List.append_assoc], ?_, ?_⟩
    · intro hne t
      rw [e0] at hne ⊢
      have := g1 (by rw [h]; simp) (s2 ++ t)
      rw [h] at this
      rw [act_bind, List.append_assoc, this]
      exact k1 hne t
    · intro heq
      rw [e0] at heq ⊢
      have := g1 (by rw [h]; simp) s2
      rw [h] at this
      rw [act_bind, this]
      exact k2 heq

theorem Local.next (w : World) : Local next w := by
  unfold Model.next
  refine ⟨⟨[], ?_, by simp⟩, ?_, ?_⟩
  · split <;> simp
  · split <;> rfl
  · cases h : w.script with
    | nil => exact ⟨[], by simp [h], ⟨fun hn => absurd rfl hn, fun _ => by simp [World.at]⟩⟩
    | cons a rest =>
      refine ⟨[a], ?_, ?_, ?_⟩
      · cases a <;> simp
      · intro hn t; cases a <;> simp [World.at]
      · intro hn; cases a <;> simp at hn

theorem Local.free {α : Type} {x : Act α} {w : World} (hv : (x w).2.log = w.log) (hc : (x w).2.client.closed = w.client.closed)
    (hs : (x w).2.script = w.script) (h : ∀ s, x (w.at s) = ((x w).1, (x w).2.at s)) : Local x w :=
  ⟨⟨[], by simp [hv], by simp⟩, hc, [], by rw [hs]; rfl, fun _ t => h t, fun _ => h []⟩

theorem Local.emit {e : Effect} (h : Quiet e) (w : World) : Local (emit e) w :=
  ⟨⟨[e], rfl, by simpa using h⟩, rfl, [], rfl, fun _ _ => rfl, fun h => by cases h⟩

theorem quiet_wrote (bs : Bytes) : Quiet (.wrote bs) := ⟨by simp, by simp⟩
theorem quiet_flush : Quiet .flush := ⟨by simp, by simp⟩
theorem quiet_open : Quiet .open_ := ⟨by simp, by simp⟩
theorem quiet_sleep (d : Nat) : Quiet (.sleep d) := ⟨by simp, by simp⟩

theorem Local.getClient (w : World) : Local getClient w := .free rfl rfl rfl fun _ => rfl
theorem Local.setScratch (s : Bytes) (w : World) : Local (setScratch s) w := .free rfl rfl rfl fun _ => rfl
theorem Local.takeScratch (w : World) : Local takeScratch w := .free rfl rfl rfl fun _ => rfl
theorem Local.stop {α : Type} (e : Stop) (w : World) : Local (stop e : Act α) w := .free rfl rfl rfl fun _ => rfl
theorem Local.lift {α : Type} (r : R α) (w : World) : Local (lift r) w := by
  cases r with
  | ok a => exact .pure a w
  | error f => exact .stop _ w

theorem Local.sleep (d : Nat) (w : World) : Local (sleep d) w := by
  unfold Model.sleep
  refine .bind (.emit (quiet_sleep d) _) fun _ _ => .bind (.next _) fun a _ => ?_
  cases a <;> first | exact .pure _ _ | exact .stop _ _

theorem Local.openStream (w : World) : Local openStream w := by
  unfold Model.openStream
  refine .bind (.emit quiet_open _) fun _ _ => .bind (.next _) fun a _ => ?_
  cases a <;> first | exact .pure _ _ | exact .stop _ _

theorem Local.flush (w : World) : Local flush w := by
  unfold Model.flush
  refine .bind (.next _) fun a _ => ?_
  cases a <;> first | exact .pure _ _ | exact .stop _ _ | exact .bind (.emit quiet_flush _) fun _ _ => .pure _ _

theorem Local.writeLoop (k : Nat) (data : Bytes) (w : World) : Local (writeLoop k data) w := by
  induction k generalizing data w with
  | zero => exact .pure _ _
  | succ k ih =>
    rw [Model.writeLoop]
    by_cases hd : data = []
    · rw [if_pos hd]; exact .pure _ _
    · rw [if_neg hd]
      refine .bind (.next _) fun a _ => ?_
      cases a with
      | accept m =>
        simp only []
        by_cases hm : m = 0
        · rw [if_pos hm]; exact .pure _ _
        · rw [if_neg hm]; exact .bind (.emit (quiet_wrote _) _) fun _ _ => ih _ _
      | writeFailed e => exact .pure _ _
      | _ => exact .stop _ _

theorem Local.writeAll (data : Bytes) (w : World) : Local (writeAll data) w := .writeLoop _ _ _

theorem Local.sendRaw (s : Bytes) (w : World) : Local (sendRaw s) w := by
  unfold Model.sendRaw
  cases rawMessage s with
  | none => exact .pure _ _
  | some data =>
    refine .bind (.writeAll _ _) fun r _ => ?_
    rcases r with _ | ⟨⟩ <;> exact .pure _ _

theorem Local.withScratch {α : Type} {body : Bytes → Act α} (h : ∀ s w, Local (body s) w) (w : World) :
    Local (withScratch body) w := by
  unfold Model.withScratch
  exact .bind (.takeScratch _) fun s _ => .bind (h s _) fun r _ => .bind (.setScratch _ _) fun _ _ => .pure _ _

theorem Local.send (c : Cmd) (w : World) : Local c.send w := by
  cases c with
  | privmsg => exact .withScratch (fun _ _ => .sendRaw _ _) _
  | ping => exact .withScratch (fun _ _ => .sendRaw _ _) _
  | pong => exact .withScratch (fun _ _ => .sendRaw _ _) _
  | joinAll => exact .withScratch (fun _ _ => .sendRaw _ _) _
  | raw => exact .sendRaw _ _
  | join =>
    show Local (joinChannel _) w
    unfold Model.joinChannel
    refine .bind (.takeScratch _) fun s _ => .bind (.sendRaw _ _) fun r _ => ?_
    rcases r with _ | ⟨⟩
    · exact .pure _ _
    · exact .bind (.setScratch _ _) fun _ _ => .pure _ _

/-! ### Calls that read -/

/-- The line-level client knows whether the reader has seen the end. -/
def Coherent (n : NetWorld) : Prop := n.world.client.closed = n.reader.done

/-- Whatever `x'` does on bytes, `x` does on some lines. -/
structure Follows {α : Type} (x : Act α) (x' : NetAct α) (n : NetWorld) : Prop where
  coherent : Coherent (x' n).2
  short : (x' n).2.world.script.length ≤ n.world.script.length
  lines : ∃ s, Gives x n.world s (x' n).1 (x' n).2.world

theorem Follows.pure {α : Type} (a : α) {n : NetWorld} (hn : Coherent n) :
    Follows (Pure.pure a : Act α) (Pure.pure a) n :=
  ⟨hn, Nat.le_refl _, [], fun _ _ => rfl, fun h => by cases h⟩

theorem Follows.bind {α β : Type} {x : Act α} {x' : NetAct α} {f : α → Act β} {f' : α → NetAct β} {n : NetWorld}
    (hx : Follows x x' n) (hf : ∀ a, (x' n).1 = .ok a → Coherent (x' n).2 → Follows (f a) (f' a) (x' n).2) :
    Follows (x >>= f) (x' >>= f') n := by
  obtain ⟨c1, l1, s1, g1, g2⟩ := hx
  cases h : (x' n).1 with
  | error e =>
    have e0 : (x' >>= f') n = (.error e, (x' n).2) := by
      rw [net_bind]; rcases hx : x' n with ⟨r, w2⟩; rw [hx] at h; simp only [] at h; subst h; rfl
    refine ⟨by rw [e0]; exact c1, by rw [e0]; exact l1, s1, ?_, ?_⟩
    · intro hne t
      rw [e0] at hne ⊢
      have := g1 (by rw [h]; intro h'; cases h'; exact hne rfl) t
      rw [h] at this
      rw [act_bind, this]
    · intro heq
      rw [e0] at heq ⊢
      simp only [] at heq
      cases heq
      have := g2 h
      rw [h] at this
      rw [act_bind, this]
  | ok a =>
    have e0 : (x' >>= f') n = f' a (x' n).2 := by
      rw [net_bind]; rcases hx : x' n with ⟨r, w2⟩; rw [hx] at h; simp only [] at h; subst h; rfl
    obtain ⟨c2, l2, s2, k1, k2⟩ := hf a h c1
    refine ⟨by rw [e0]; exact c2, by rw [e0]; exact Nat.le_trans l2 l1, s1 ++ s2, ?_, ?_⟩
    · intro hne t
      rw [e0] at hne ⊢
      have := g1 (by rw [h]; simp) (s2 ++ t)
      rw [h] at this
      rw [act_bind, List.append_assoc, this]
      exact k1 hne t
    · intro heq
      rw [e0] at heq ⊢
      have := g1 (by rw [h]; simp) s2
      rw [h] at this
      rw [act_bind, this]
      exact k2 heq

theorem io_run {α : Type} (x : Act α) (n : NetWorld) :
    io x n = ((x n.world).1, { n with world := (x n.world).2 }) := rfl

theorem Follows.io {α : Type} {x : Act α} {n : NetWorld} (hn : Coherent n) (h : Local x n.world) : Follows x (io x) n := by
  obtain ⟨_, c, s, e, g⟩ := h
  refine ⟨c.trans hn, ?_, s, g⟩
  show (x n.world).2.script.length ≤ n.world.script.length
  rw [e]; simp

theorem Follows.timeout {α : Type} {x : Act α} {x' : NetAct α} {n : NetWorld} (d : Nat) (hx : Follows x x' n) :
    Follows (withTimeout d x) (netTimeout d x') n := by
  obtain ⟨c1, l1, s1, g1, g2⟩ := hx
  have e0 : netTimeout d x' n = match x' n with
    | (.ok a, n') => (.ok (.ok a), n')
    | (.error (.elapsed 0), n') => (.ok (.error ()), n')
    | (.error (.elapsed (k + 1)), n') => (.error (.elapsed k), n')
    | (.error e, n') => (.error e, n') := rfl
  have e1 : ∀ w, withTimeout d x w = match x w with
    | (.ok a, n') => (.ok (.ok a), n')
    | (.error (.elapsed 0), n') => (.ok (.error ()), n')
    | (.error (.elapsed (k + 1)), n') => (.error (.elapsed k), n')
    | (.error e, n') => (.error e, n') := fun _ => rfl
  generalize x' n = p at *
  obtain ⟨r, n2⟩ := p
  simp only [] at *
  rcases r with (_ | (_ | k) | f) | a
  · simp only [] at e0
    refine ⟨by rw [e0]; exact c1, by rw [e0]; exact l1, s1, ?_, ?_⟩
    · intro hne; rw [e0] at hne; exact absurd rfl hne
    · intro _; rw [e0, e1, g2 rfl]
  all_goals
    simp only [] at e0
    refine ⟨by rw [e0]; exact c1, by rw [e0]; exact l1, s1, ?_, ?_⟩
    · intro _ t; rw [e0, e1, g1 (by simp)]
    · intro h; rw [e0] at h; cases h

/-! ### The reader -/

theorem scan_done (r : Reader) : r.scan.2.done = r.done := by
  unfold Reader.scan; split <;> rfl

theorem readUntilEmpty_done (r : Reader) (net : List Net) : (r.readUntilEmpty net).reader.done = r.done := by
  induction net generalizing r with
  | nil => rfl
  | cons x net ih =>
    cases x with
    | data bs =>
      rw [Reader.readUntilEmpty]
      have := scan_done { r with avail := bs }
      generalize ({ r with avail := bs } : Reader).scan = p at this
      obtain ⟨f, r2⟩ := p
      cases f
      · exact (ih r2).trans this
      · exact this
    | _ => rfl

theorem readUntil_done (r : Reader) (net : List Net) : (r.readUntil net).reader.done = r.done := by
  unfold Reader.readUntil
  split
  · exact readUntilEmpty_done r net
  · have := scan_done r
    generalize r.scan = p at this
    obtain ⟨f, r2⟩ := p
    cases f
    · exact (readUntilEmpty_done r2 net).trans this
    · exact this

/-- The reader is done when it has said so. -/
theorem poll_done (r : Reader) (net : List Net) (hd : r.done = false) :
    ((r.poll net).out = .ready none → (r.poll net).reader.done = true) ∧
    ((r.poll net).out ≠ .ready none → (r.poll net).reader.done = false) := by
  unfold Reader.poll
  rw [if_neg (by simp [hd])]
  unfold Reader.nextLine
  have h := readUntil_done r net
  rw [hd] at h
  generalize r.readUntil net = p at h
  obtain ⟨o, r2, net2⟩ := p
  simp only [] at h
  rcases o with (e | ⟨⟩) | _
  · simp [h]
  · simp only []
    by_cases h1 : isUtf8 r2.bytes = true
    · by_cases h2 : r2.bytes = []
      · rw [h2] at h1; simp [h1, h2]
      · simp [h1, h2, h]
    · simp [h1, h]
  · simp [h]

theorem pollLoop_done (ws : List Wait) (r : Reader) (net : List Net) (hd : r.done = true) :
    pollLoop ws r net = (.ok none, r, net, ws) := by
  have : r.poll net = ⟨.ready none, r, net⟩ := by unfold Reader.poll; rw [if_pos hd]
  cases ws <;> rw [pollLoop, this]

/-- How waiting for an item can end. -/
theorem pollLoop_cases (ws : List Wait) (r : Reader) (net : List Net) (hd : r.done = false) :
    ((pollLoop ws r net).1 = .ok none ∧ (pollLoop ws r net).2.1.done = true) ∨
    ((pollLoop ws r net).2.1.done = false ∧
      ((∃ i, (pollLoop ws r net).1 = .ok (some i)) ∨ (pollLoop ws r net).1 = .error .dropped ∨
        ∃ k, (pollLoop ws r net).1 = .error (.elapsed k))) := by
  induction ws generalizing r net with
  | nil =>
    have h := poll_done r net hd
    rw [pollLoop]
    generalize r.poll net = p at h
    obtain ⟨o, r2, net2⟩ := p
    rcases o with (_ | i) | _
    · exact .inl ⟨rfl, h.1 rfl⟩
    · exact .inr ⟨h.2 (by simp), .inl ⟨i, rfl⟩⟩
    · exact .inr ⟨h.2 (by simp), .inr (.inl rfl)⟩
  | cons w ws ih =>
    have h := poll_done r net hd
    rw [pollLoop]
    generalize r.poll net = p at h
    obtain ⟨o, r2, net2⟩ := p
    rcases o with (_ | i) | _
    · exact .inl ⟨rfl, h.1 rfl⟩
    · exact .inr ⟨h.2 (by simp), .inl ⟨i, rfl⟩⟩
    · cases w with
      | again => exact ih r2 net2 (h.2 (by simp))
      | elapsed k => exact .inr ⟨h.2 (by simp), .inr (.inr ⟨k, rfl⟩)⟩
      | dropped => exact .inr ⟨h.2 (by simp), .inr (.inl rfl)⟩

theorem netPoll_run (n : NetWorld) :
    netPoll n = ((pollLoop n.waits n.reader n.net).1,
      { n with reader := (pollLoop n.waits n.reader n.net).2.1, net := (pollLoop n.waits n.reader n.net).2.2.1,
               waits := (pollLoop n.waits n.reader n.net).2.2.2 }) := rfl

theorem Follows.readerNext {n : NetWorld} (hn : Coherent n) : Follows readerNext netReaderNext n := by
  have hw : n.world = ⟨⟨n.world.client.closed, n.world.client.scratch, n.world.client.config⟩, n.world.log, n.world.script⟩ := rfl
  unfold Coherent at hn
  cases hd : n.reader.done with
  | true =>
    have e0 : netReaderNext n = (.ok none, { n with world := { n.world with client := { n.world.client with closed := true } } }) := by
      unfold netReaderNext
      rw [net_bind, netPoll_run, pollLoop_done _ _ _ hd]
      rfl
    have hc : n.world.client.closed = true := hn.trans hd
    have e1 : ∀ s, Model.readerNext (n.world.at s) = (.ok none, n.world.at s) := by
      intro s
      unfold Model.readerNext
      rw [act_bind]
      simp only [Model.getClient, at_client]
      rw [if_pos hc]; rfl
    have e2 : ({ n.world with client := { n.world.client with closed := true } } : World) = n.world := by
      rw [hw]; simp [hc]
    rw [e2] at e0
    refine ⟨by rw [e0]; exact hn, by rw [e0]; exact Nat.le_refl _, [], ?_, ?_⟩
    · intro _ t; rw [e0]; exact e1 t
    · intro h; rw [e0] at h; cases h
  | false =>
    have hc : n.world.client.closed = false := hn.trans hd
    have e1 : ∀ a s, (∀ k, a ≠ .elapsed k) → Model.readerNext (n.world.at (a :: s)) = match a with
        | .line s' => (.ok (some (.ok s')), { n.world.at s with log := n.world.log ++ [.took s'] })
        | .readFailed e => (.ok (some (.error e)), n.world.at s)
        | .eof => (.ok none, { n.world.at s with client := { n.world.client with closed := true } })
        | _ => (.error .dropped, n.world.at s) := by
      intro a s ha
      unfold Model.readerNext
      rw [act_bind]
      simp only [Model.getClient, at_client]
      rw [if_neg (by simp [hc])]
      cases a with
      | elapsed k => exact absurd rfl (ha k)
      | _ => rfl
    have e2 : ∀ s, (Model.readerNext (n.world.at [])) = (.error .dropped, n.world.at []) ∧
        ∀ k, Model.readerNext (n.world.at (.elapsed k :: s)) = (.error (.elapsed k), n.world.at s) := by
      intro s
      unfold Model.readerNext
      simp only [act_bind, Model.getClient, at_client]
      rw [if_neg (by simp [hc])]
      exact ⟨rfl, fun _ => rfl⟩
    have hp := pollLoop_cases n.waits n.reader n.net hd
    have e0 : netReaderNext n = match netPoll n with
        | (.ok (some (.ok s)), n) => (.ok (some (.ok s)), { n with world := { n.world with log := n.world.log ++ [.took s] } })
        | (.ok (some (.error e)), n) => (.ok (some (.error e)), n)
        | (.ok none, n) => (.ok none, { n with world := { n.world with client := { n.world.client with closed := true } } })
        | (.error e, n) => (.error e, n) := by
      unfold netReaderNext
      rw [net_bind]
      generalize netPoll n = p
      obtain ⟨(e | (_ | (e | s))), n2⟩ := p <;> rfl
    rw [netPoll_run] at e0
    generalize pollLoop n.waits n.reader n.net = p at hp e0
    obtain ⟨r, r2, net2, ws2⟩ := p
    simp only [] at hp e0
    rcases hp with ⟨rfl, hd'⟩ | ⟨hd', ⟨i, rfl⟩ | rfl | ⟨k, rfl⟩⟩
    · refine ⟨by rw [e0]; exact hd'.symm, by rw [e0]; exact Nat.le_refl _, [.eof], ?_, ?_⟩
      · intro _ t; rw [e0]; exact e1 .eof t (by simp)
      · intro h; rw [e0] at h; cases h
    · rcases i with e | s
      · refine ⟨by rw [e0]; exact hc.trans hd'.symm, by rw [e0]; exact Nat.le_refl _, [.readFailed e], ?_, ?_⟩
        · intro _ t; rw [e0]; exact e1 (.readFailed e) t (by simp)
        · intro h; rw [e0] at h; cases h
      · refine ⟨by rw [e0]; exact hc.trans hd'.symm, by rw [e0]; exact Nat.le_refl _, [.line s], ?_, ?_⟩
        · intro _ t; rw [e0]; exact e1 (.line s) t (by simp)
        · intro h; rw [e0] at h; cases h
    · refine ⟨by rw [e0]; exact hc.trans hd'.symm, by rw [e0]; exact Nat.le_refl _, [], ?_, ?_⟩
      · intro h; rw [e0] at h; exact absurd rfl h
      · intro _; rw [e0]; exact (e2 []).1
    · refine ⟨by rw [e0]; exact hc.trans hd'.symm, by rw [e0]; exact Nat.le_refl _, [.elapsed k], ?_, ?_⟩
      · intro _ t; rw [e0]; exact (e2 t).2 k
      · intro h; rw [e0] at h; cases h

theorem Follows.recv (b : Build) {n : NetWorld} (hn : Coherent n) : Follows (recv b) (netRecv b) n := by
  unfold Model.recv netRecv
  refine .bind (.readerNext hn) fun i _ hn => ?_
  rcases i with _ | (e | s)
  · exact .pure _ hn
  · exact .pure _ hn
  · refine .bind (.io hn (.lift _ _)) fun m _ hn => ?_
    cases m <;> exact .pure _ hn

theorem Follows.recvReply (b : Build) {n : NetWorld} (hn : Coherent n) : Follows (recvReply b) (netRecvReply b) n := by
  unfold Model.recvReply netRecvReply
  refine .bind (.timeout _ (.recv b hn)) fun i _ hn => ?_
  rcases i with ⟨⟩ | (e | m) <;> exact .pure _ hn

theorem Follows.awaitWelcome (b : Build) {n : NetWorld} (hn : Coherent n) :
    Follows (awaitWelcome b) (netAwaitWelcome b) n := by
  unfold Model.awaitWelcome netAwaitWelcome
  refine .bind (.recvReply b hn) fun i _ hn => ?_
  rcases i with e | m
  · exact .pure _ hn
  refine .bind (.io hn (.lift _ _)) fun i _ hn => ?_
  rcases i with _ | e
  rotate_left
  · exact .pure _ hn
  refine .bind (.recvReply b hn) fun i _ hn => ?_
  rcases i with e | m
  · exact .pure _ hn
  refine .bind (.io hn (.lift _ _)) fun i _ hn => ?_
  cases i <;> exact .pure _ hn

theorem Follows.handshake (b : Build) {n : NetWorld} (hn : Coherent n) : Follows (handshake b) (netHandshake b) n := by
  unfold Model.handshake netHandshake
  refine .bind (.io hn (.getClient _)) fun c _ hn => .bind (.io hn (.setScratch _ _)) fun _ _ hn =>
    .bind (.io hn (.writeAll _ _)) fun r _ hn => ?_
  rcases r with e | ⟨⟩
  · exact .pure _ hn
  refine .bind (.io hn (.flush _)) fun r _ hn => ?_
  rcases r with e | ⟨⟩
  · exact .pure _ hn
  exact .bind (.io hn (.setScratch _ _)) fun _ _ hn => .awaitWelcome b hn

theorem Follows.useStream (n : NetWorld) : Follows useStream netUseStream n :=
  ⟨rfl, Nat.le_refl _, [], fun _ _ => rfl, fun h => by cases h⟩

/-- `emit .connected; setClient c` on lines is the same with a new reader on bytes. -/
theorem Follows.fresh {α : Type} (cfg : Config) {f : Act α} {f' : NetAct α} {n : NetWorld}
    (hf : ∀ n, Coherent n → Follows f f' n) :
    Follows (do Model.emit .connected; Model.setClient ⟨false, [], cfg⟩; f)
      (do Model.io (Model.emit .connected); newReader; Model.io (Model.setClient ⟨false, [], cfg⟩); f') n := by
  obtain ⟨c, l, s, g1, g2⟩ := hf { n with
    world := { n.world with client := ⟨false, [], cfg⟩, log := n.world.log ++ [.connected] },
    reader := .new, net := n.conns.head?.getD [], conns := n.conns.tail } rfl
  exact ⟨c, l, s, g1, g2⟩

theorem Follows.connect (b : Build) (cfg : Config) {n : NetWorld} (hn : Coherent n) :
    Follows (connect b cfg) (netConnect b cfg) n := by
  unfold Model.connect netConnect
  refine .bind (.io hn (.next _)) fun a _ hn => ?_
  cases a with
  | tlsLoaded =>
    refine .bind (.timeout _ (.io hn (.openStream _))) fun r _ hn => ?_
    rcases r with ⟨⟩ | (e | ⟨⟩)
    · exact .pure _ hn
    · exact .pure _ hn
    · refine .fresh cfg fun n hn => .bind (.timeout _ (.handshake b hn)) fun r _ hn => ?_
      rcases r with ⟨⟩ | r <;> exact .pure _ hn
  | tlsFailed => exact .pure _ hn
  | _ => exact .io hn (.stop _ _)

/-! ### Reconnecting -/

theorem bind_congr_at {α β : Type} {x : Act α} {f g : α → Act β} {w : World}
    (h : ∀ a, (x w).1 = .ok a → f a (x w).2 = g a (x w).2) : (x >>= f) w = (x >>= g) w := by
  rw [act_bind, act_bind]
  generalize x w = p at *
  obtain ⟨_ | a, w2⟩ := p
  · rfl
  · exact h a rfl

theorem net_bind_congr_at {α β : Type} {x : NetAct α} {f g : α → NetAct β} {n : NetWorld}
    (h : ∀ a, (x n).1 = .ok a → f a (x n).2 = g a (x n).2) : (x >>= f) n = (x >>= g) n := by
  rw [net_bind, net_bind]
  generalize x n = p at *
  obtain ⟨_ | a, w2⟩ := p
  · rfl
  · exact h a rfl

theorem timeout_snd {α : Type} (d : Nat) (x : Act α) (w : World) : (withTimeout d x w).2 = (x w).2 := by
  have e1 : withTimeout d x w = match x w with
    | (.ok a, n') => (.ok (.ok a), n')
    | (.error (.elapsed 0), n') => (.ok (.error ()), n')
    | (.error (.elapsed (k + 1)), n') => (.error (.elapsed k), n')
    | (.error e, n') => (.error e, n') := rfl
  rw [e1]
  generalize x w = p
  obtain ⟨(_ | (_ | k) | f) | a, w2⟩ := p <;> rfl

theorem Local.short {α : Type} {x : Act α} {w : World} (h : Local x w) : (x w).2.script.length ≤ w.script.length := by
  obtain ⟨_, _, s, e, _⟩ := h
  rw [e]; simp

theorem sleep_short (d : Nat) (w : World) (h : (Model.sleep d w).1 = .ok ()) :
    (Model.sleep d w).2.script.length < w.script.length := by
  unfold Model.sleep at h ⊢
  rw [act_bind] at h ⊢
  simp only [Model.emit] at h ⊢
  rw [act_bind] at h ⊢
  cases hs : w.script with
  | nil => simp [Model.next, hs] at h
  | cons a rest =>
    cases a <;> simp [Model.next, hs, Model.stop, act_pure] at h ⊢

/-- More fuel than answers makes no difference. -/
theorem loop_fuel (b : Build) (cfg : Config) : ∀ (k m : Nat) (tries : Option Nat) (d : Nat) (cause : ConnectError)
    (w : World), w.script.length < k → w.script.length < m →
    reconnectLoop b cfg k tries d cause w = reconnectLoop b cfg m tries d cause w
  | 0, _, _, _, _, _, h, _ => absurd h (Nat.not_lt_zero _)
  | _ + 1, 0, _, _, _, _, _, h => absurd h (Nat.not_lt_zero _)
  | k + 1, m + 1, tries, d, cause, w, hk, hm => by
    rw [reconnectLoop, reconnectLoop]
    by_cases ht : tries = some 0
    · rw [if_pos ht, if_pos ht]
    rw [if_neg ht, if_neg ht]
    refine bind_congr_at fun _ h1 => ?_
    have l1 := sleep_short d w h1
    generalize (Model.sleep d w).2 = w1 at *
    refine bind_congr_at fun d' _ => ?_
    have l2 := (Local.lift (mulDuration d cfg.backoff.delayMultiplier) w1).short
    generalize (Model.lift (mulDuration d cfg.backoff.delayMultiplier) w1).2 = w2 at *
    refine bind_congr_at fun r _ => ?_
    have l3 := (Local.openStream w2).short
    rw [timeout_snd]
    generalize (Model.openStream w2).2 = w3 at *
    rcases r with ⟨⟩ | (e | ⟨⟩)
    · rfl
    · exact loop_fuel b cfg k m _ _ _ _ (by omega) (by omega)
    refine bind_congr_at fun _ _ => ?_
    have l4 : (Model.useStream w3).2.script = w3.script := rfl
    generalize (Model.useStream w3).2 = w4 at *
    refine bind_congr_at fun r _ => ?_
    have l5 := (handshake_effect b w4).script.length_le
    rw [timeout_snd]
    generalize (Model.handshake b w4).2 = w5 at *
    rcases r with ⟨⟩ | (e | ⟨⟩)
    · rfl
    · by_cases hr : e.shouldRetry = true
      · simp only []
        rw [if_pos hr, if_pos hr]
        exact loop_fuel b cfg k m _ _ _ _ (by rw [l4] at l5; omega) (by rw [l4] at l5; omega)
      · simp only []
        rw [if_neg hr, if_neg hr]
    · rfl

theorem netTimeout_snd {α : Type} (d : Nat) (x : NetAct α) (w : NetWorld) : (netTimeout d x w).2 = (x w).2 := by
  have e1 : netTimeout d x w = match x w with
    | (.ok a, n') => (.ok (.ok a), n')
    | (.error (.elapsed 0), n') => (.ok (.error ()), n')
    | (.error (.elapsed (k + 1)), n') => (.error (.elapsed k), n')
    | (.error e, n') => (.error e, n') := rfl
  rw [e1]
  generalize x w = p
  obtain ⟨(_ | (_ | k) | f) | a, w2⟩ := p <;> rfl

/-- The same on bytes. -/
theorem netLoop_fuel (b : Build) (cfg : Config) : ∀ (k m : Nat) (tries : Option Nat) (d : Nat) (cause : ConnectError)
    (n : NetWorld), Coherent n → n.world.script.length < k → n.world.script.length < m →
    netReconnectLoop b cfg k tries d cause n = netReconnectLoop b cfg m tries d cause n
  | 0, _, _, _, _, _, _, h, _ => absurd h (Nat.not_lt_zero _)
  | _ + 1, 0, _, _, _, _, _, _, h => absurd h (Nat.not_lt_zero _)
  | k + 1, m + 1, tries, d, cause, w, hc, hk, hm => by
    rw [netReconnectLoop, netReconnectLoop]
    by_cases ht : tries = some 0
    · rw [if_pos ht, if_pos ht]
    rw [if_neg ht, if_neg ht]
    refine net_bind_congr_at fun _ h1 => ?_
    have l1 : (io (Model.sleep d) w).2.world.script.length < w.world.script.length := sleep_short d w.world h1
    have c1 := (Follows.io hc (Local.sleep d w.world)).coherent
    generalize (io (Model.sleep d) w).2 = w1 at *
    refine net_bind_congr_at fun d' _ => ?_
    have f2 := Follows.io c1 (Local.lift (mulDuration d cfg.backoff.delayMultiplier) w1.world)
    have l2 := f2.short
    have c2 := f2.coherent
    generalize (io (Model.lift (mulDuration d cfg.backoff.delayMultiplier)) w1).2 = w2 at *
    refine net_bind_congr_at fun r _ => ?_
    have f3 := Follows.io c2 (Local.openStream w2.world)
    have l3 := f3.short
    have c3 := f3.coherent
    rw [netTimeout_snd]
    generalize (io Model.openStream w2).2 = w3 at *
    rcases r with ⟨⟩ | (e | ⟨⟩)
    · rfl
    · exact netLoop_fuel b cfg k m _ _ _ _ c3 (by omega) (by omega)
    refine net_bind_congr_at fun _ _ => ?_
    have f4 := Follows.useStream w3
    have l4 := f4.short
    have c4 := f4.coherent
    generalize (netUseStream w3).2 = w4 at *
    refine net_bind_congr_at fun r _ => ?_
    have f5 := Follows.handshake b c4
    have l5 := f5.short
    have c5 := f5.coherent
    rw [netTimeout_snd]
    generalize (netHandshake b w4).2 = w5 at *
    rcases r with ⟨⟩ | (e | ⟨⟩)
    · rfl
    · by_cases hr : e.shouldRetry = true
      · simp only []
        rw [if_pos hr, if_pos hr]
        exact netLoop_fuel b cfg k m _ _ _ _ c5 (by omega) (by omega)
      · simp only []
        rw [if_neg hr, if_neg hr]
    · rfl

/-- `Follows`, for computations with fuel: if there is enough of it, the lines do not depend on how much. -/
structure FollowsFuel {α : Type} (x : Nat → Act α) (x' : Nat → NetAct α) (m : Nat) (n : NetWorld) : Prop where
  coherent : ∀ k, m ≤ k → Coherent (x' k n).2
  lines : ∃ s, ∀ k, m ≤ k → Gives (x k) n.world s (x' k n).1 (x' k n).2.world

theorem Follows.const {α : Type} {x : Act α} {x' : NetAct α} {n : NetWorld} (m : Nat) (h : Follows x x' n) :
    FollowsFuel (fun _ => x) (fun _ => x') m n :=
  ⟨fun _ _ => h.coherent, let ⟨s, g⟩ := h.lines; ⟨s, fun _ _ => g⟩⟩

theorem FollowsFuel.bind {α β : Type} {x : Act α} {x' : NetAct α} {f : Nat → α → Act β} {f' : Nat → α → NetAct β}
    {n : NetWorld} {m : Nat} (hx : Follows x x' n)
    (hf : ∀ a, (x' n).1 = .ok a → Coherent (x' n).2 →
      FollowsFuel (fun k => f k a) (fun k => f' k a) m (x' n).2) :
    FollowsFuel (fun k => x >>= f k) (fun k => x' >>= f' k) m n := by
  obtain ⟨c1, l1, s1, g1, g2⟩ := hx
  cases h : (x' n).1 with
  | error e =>
    have e0 : ∀ k, (x' >>= f' k) n = (.error e, (x' n).2) := by
      intro k
      rw [net_bind]; rcases hx : x' n with ⟨r, w2⟩; rw [hx] at h; simp only [] at h; subst h; rfl
    refine ⟨fun k _ => by rw [e0]; exact c1, s1, fun k _ => ⟨?_, ?_⟩⟩
    · intro hne t
      rw [e0] at hne ⊢
      have := g1 (by rw [h]; intro h'; cases h'; exact hne rfl) t
      rw [h] at this
      rw [act_bind, this]
    · intro heq
      rw [e0] at heq ⊢
      simp only [] at heq
      cases heq
      have := g2 h
      rw [h] at this
      rw [act_bind, this]
  | ok a =>
    have e0 : ∀ k, (x' >>= f' k) n = f' k a (x' n).2 := by
      intro k
      rw [net_bind]; rcases hx : x' n with ⟨r, w2⟩; rw [hx] at h; simp only [] at h; subst h; rfl
    obtain ⟨c2, s2, g⟩ := hf a h c1
    refine ⟨fun k hk => by rw [e0]; exact c2 k hk, s1 ++ s2, fun k hk => ⟨?_, ?_⟩⟩
    · intro hne t
      rw [e0] at hne ⊢
      have := g1 (by rw [h]; simp) (s2 ++ t)
      rw [h] at this
      rw [act_bind, List.append_assoc, this]
      exact (g k hk).1 hne t
    · intro heq
      rw [e0] at heq ⊢
      have := g1 (by rw [h]; simp) s2
      rw [h] at this
      rw [act_bind, this]
      exact (g k hk).2 heq

theorem FollowsFuel.shift {α : Type} {x : Nat → Act α} {x' : Nat → NetAct α} {m : Nat} {n : NetWorld}
    (h : FollowsFuel (fun k => x (k + 1)) (fun k => x' (k + 1)) m n) : FollowsFuel x x' (m + 1) n := by
  obtain ⟨c, s, g⟩ := h
  refine ⟨fun k hk => ?_, s, fun k hk => ?_⟩
  · obtain ⟨k, rfl⟩ : ∃ j, k = j + 1 := ⟨k - 1, by omega⟩
    exact c k (by omega)
  · obtain ⟨k, rfl⟩ : ∃ j, k = j + 1 := ⟨k - 1, by omega⟩
    exact g k (by omega)

theorem FollowsFuel.loop (b : Build) (cfg : Config) : ∀ (m : Nat) (tries : Option Nat) (d : Nat) (cause : ConnectError)
    (n : NetWorld), Coherent n → n.world.script.length < m →
    FollowsFuel (fun k => reconnectLoop b cfg k tries d cause) (fun k => netReconnectLoop b cfg k tries d cause) m n
  | 0, _, _, _, _, _, h => absurd h (Nat.not_lt_zero _)
  | m + 1, tries, d, cause, n, hc, hm => by
    refine .shift ?_
    simp only [reconnectLoop, netReconnectLoop]
    by_cases ht : tries = some 0
    · simp only [if_pos ht]; exact (Follows.pure _ hc).const m
    simp only [if_neg ht]
    have f1 := Follows.io hc (Local.sleep d n.world)
    refine .bind f1 fun _ h1 c1 => ?_
    have l1 : (io (Model.sleep d) n).2.world.script.length < n.world.script.length := sleep_short d n.world h1
    generalize (io (Model.sleep d) n).2 = n1 at *
    have f2 := Follows.io c1 (Local.lift (mulDuration d cfg.backoff.delayMultiplier) n1.world)
    refine .bind f2 fun d' _ c2 => ?_
    have l2 := f2.short
    generalize (io (Model.lift (mulDuration d cfg.backoff.delayMultiplier)) n1).2 = n2 at *
    have f3 := Follows.timeout cfg.timeout (Follows.io c2 (Local.openStream n2.world))
    refine .bind f3 fun r _ c3 => ?_
    have l3 := f3.short
    generalize (netTimeout cfg.timeout (io Model.openStream) n2).2 = n3 at *
    rcases r with ⟨⟩ | (e | ⟨⟩)
    · exact (Follows.pure _ c3).const m
    · exact FollowsFuel.loop b cfg m _ _ _ _ c3 (by omega)
    have f4 := Follows.useStream n3
    refine .bind f4 fun _ _ c4 => ?_
    have l4 := f4.short
    generalize (netUseStream n3).2 = n4 at *
    have f5 := Follows.timeout cfg.timeout (Follows.handshake b c4)
    refine .bind f5 fun r _ c5 => ?_
    have l5 := f5.short
    generalize (netTimeout cfg.timeout (netHandshake b) n4).2 = n5 at *
    rcases r with ⟨⟩ | (e | ⟨⟩)
    · exact (Follows.pure _ c5).const m
    · by_cases hr : e.shouldRetry = true
      · simp only [if_pos hr]
        exact FollowsFuel.loop b cfg m _ _ _ _ c5 (by omega)
      · simp only [if_neg hr]
        exact (Follows.pure _ c5).const m
    · exact (Follows.pure _ c5).const m

/-- Whatever `x'` does on bytes, `x` does on some lines, then nothing happens any more. -/
structure Same {α : Type} (x : Act α) (x' : NetAct α) (n : NetWorld) : Prop where
  coherent : Coherent (x' n).2
  lines : ∃ s, x (n.world.at s) = ((x' n).1, (x' n).2.world.at [])

theorem Follows.same {α : Type} {x : Act α} {x' : NetAct α} {n : NetWorld} (h : Follows x x' n) : Same x x' n := by
  obtain ⟨c, _, s, g1, g2⟩ := h
  refine ⟨c, s, ?_⟩
  by_cases hr : (x' n).1 = .error .dropped
  · exact g2 hr
  · have := g1 hr []
    rwa [List.append_nil] at this

theorem Same.reconnect (b : Build) {n : NetWorld} (hn : Coherent n) : Same (reconnect b) (netReconnect b) n := by
  have h := FollowsFuel.loop b n.world.client.config (n.world.script.length + 1) n.world.client.config.backoff.maxTries
    n.world.client.config.backoff.initialDelay .timeout n hn (Nat.lt_succ_self _)
  obtain ⟨c, s, g⟩ := h
  refine ⟨c _ (Nat.le_refl _), s, ?_⟩
  have hk := g (n.world.script.length + 1 + s.length) (by omega)
  have e : netReconnectLoop b n.world.client.config (n.world.script.length + 1 + s.length)
      n.world.client.config.backoff.maxTries n.world.client.config.backoff.initialDelay .timeout n = netReconnect b n :=
    netLoop_fuel b _ _ _ _ _ _ n hn (by omega) (by omega)
  have e2 : reconnectLoop b n.world.client.config (n.world.script.length + 1 + s.length)
      n.world.client.config.backoff.maxTries n.world.client.config.backoff.initialDelay .timeout (n.world.at s) =
      Model.reconnect b (n.world.at s) :=
    loop_fuel b _ _ _ _ _ _ _ (by simp) (by simp)
  rw [e] at hk
  rw [← e2]
  by_cases hr : (netReconnect b n).1 = .error .dropped
  · exact hk.2 hr
  · have := hk.1 hr []
    rwa [List.append_nil] at this

theorem Same.send (c : Cmd) {n : NetWorld} (hn : Coherent n) : Same c.send (io c.send) n :=
  (Follows.io hn (Local.send c n.world)).same

/-- A call on bytes is a call on lines. -/
theorem op_same (op : Op) {n : NetWorld} (hn : Coherent n) :
    Coherent (op.net n).2 ∧ ∃ s, op.outcome (n.world.at s) = ((op.net n).1, (op.net n).2.world.at []) := by
  cases op with
  | send c =>
    obtain ⟨h, s, e⟩ := Same.send c hn
    exact ⟨h, s, by simp only [Op.outcome, Op.net, e]⟩
  | recv b =>
    obtain ⟨h, s, e⟩ := (Follows.recv b hn).same
    exact ⟨h, s, by simp only [Op.outcome, Op.net, e]⟩
  | reconnect b =>
    obtain ⟨h, s, e⟩ := Same.reconnect b hn
    exact ⟨h, s, by simp only [Op.outcome, Op.net, e]⟩

theorem outcomes_same (calls : List NetCall) {n : NetWorld} (hn : Coherent n) :
    Coherent (netOutcomes calls n).2 ∧ ∃ scripts, scripts.length = calls.length ∧ ∀ t, ∃ t',
      outcomes ((calls.map (·.op)).zip scripts) (n.world.at t) =
        ((netOutcomes calls n).1, (netOutcomes calls n).2.world.at t') := by
  induction calls generalizing n with
  | nil => exact ⟨hn, [], rfl, fun t => ⟨t, rfl⟩⟩
  | cons c rest ih =>
    have h1 := op_same c.op (n := { n with world := { n.world with script := c.answers }, waits := c.waits }) hn
    obtain ⟨h1, s, e1⟩ := h1
    obtain ⟨h2, ss, hl, e2⟩ := ih h1
    refine ⟨h2, s :: ss, by simp [hl], fun t => ?_⟩
    obtain ⟨t', e2⟩ := e2 []
    refine ⟨t', ?_⟩
    rw [netOutcomes, List.map_cons, List.zip_cons_cons, outcomes]
    have e3 : c.op.outcome { n.world.at t with script := s } = ((c.op.net { n with world := { n.world with script := c.answers }, waits := c.waits }).1, ((c.op.net { n with world := { n.world with script := c.answers }, waits := c.waits }).2.world.at [])) := e1
    rw [e3]
    simp only [e2]

end Tmi.Proofs
