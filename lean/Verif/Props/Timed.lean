/-
Property C53: connecting and reconnecting come to an end in time.
-/
import Verif.Spec.Timed
import Verif.Proofs.Timeliness
import Verif.Props.Connect

namespace Tmi.Props
open Tmi.Model Tmi.Spec Tmi.Proofs

/-! ## C53 -/

/-- C53, `connect`: once the TLS configuration is loaded, `connect` returns within twice the timeout, whatever the
network does or fails to do: it neither waits for ever nor is stopped by a timer that is not its own. -/
theorem C53_connect (b : Build) (cfg : Config) (w : TWorld) (hw : w.deadlines = []) (dt : Nat)
    (rest : List (Nat × WaitEnd)) (hs : w.waits = (dt, .answer .tlsLoaded) :: rest) :
    (Timed.connect b cfg w).2.now ≤ w.now + dt + cfg.timeout + cfg.timeout ∧
    (Timed.connect b cfg w).1 ≠ .error .pending ∧
    ∀ k, (Timed.connect b cfg w).1 ≠ .error (.elapsed k) := by
  have hn : Timed.next w = (.ok .tlsLoaded, { w with now := w.now + dt, waits := rest }) := by
    unfold Timed.next
    rw [hs, hw]
    rfl
  have hl : Lasts (cfg.timeout + cfg.timeout) (do
    match ← Timed.withTimeout cfg.timeout Timed.openStream with
    | .error () => return .error .timeout
    | .ok (.error e) => return .error (.open_ e)
    | .ok (.ok ()) => do
      Timed.emit .connected
      Timed.setClient ⟨false, [], cfg⟩
      match ← Timed.withTimeout cfg.timeout (Timed.handshake b) with
      | .error () => return .error .timeout
      | .ok r => return r) := by
    refine (Lasts.timeout Punctual.openStream _).bind fun a => ?_
    rcases a with _ | (e | s)
    · exact (Lasts.pure _).mono (Nat.zero_le _)
    · exact (Lasts.pure _).mono (Nat.zero_le _)
    · have he : Lasts 0 (Timed.emit .connected) := fun w hw => ⟨Nat.le_refl _, hw, by simp [Timed.emit]⟩
      have hc : Lasts 0 (Timed.setClient ⟨false, [], cfg⟩) := fun w hw =>
        ⟨Nat.le_refl _, hw, by simp [Timed.setClient]⟩
      refine (he.bind fun _ => hc.bind fun _ => (Lasts.timeout (Punctual.handshake b) _).bind
        (t := 0) fun a => ?_).mono (by omega)
      cases a <;> exact Lasts.pure _
  have hrun : Timed.connect b cfg w = _ := tact_bind_ok hn
  obtain ⟨h1, _, h3⟩ := hl { w with now := w.now + dt, waits := rest } hw
  refine ⟨?_, ?_, fun k hk => ?_⟩
  · rw [hrun, Nat.add_assoc]; exact h1
  · rw [hrun]; exact h3
  · have := (punctual_connect b cfg).fires w k (by rw [hw]; simp) hk
    rw [hw] at this; simp at this

/-- C53, `reconnect`: with at most `n` tries it returns before the delays and timeouts of `n` attempts have passed,
whatever the network does or fails to do. -/
theorem C53_reconnect (b : Build) (w : TWorld) (hw : w.deadlines = []) (n : Nat)
    (hn : w.client.config.backoff.maxTries = some n) :
    (Timed.reconnect b w).2.now
      ≤ w.now + attemptsTime w.client.config.backoff w.client.config.timeout 0 n ∧
    (Timed.reconnect b w).1 ≠ .error .pending ∧
    ∀ k, (Timed.reconnect b w).1 ≠ .error (.elapsed k) := by
  unfold Timed.reconnect
  simp only []
  rw [hn]
  obtain ⟨h1, _, h3⟩ := lasts_loop b w.client.config (w.waits.length + 1) n 0 .timeout w hw
  refine ⟨h1, h3, fun k hk => ?_⟩
  have := (punctual_loop b w.client.config _ _ _ _).fires w k (by rw [hw]; simp) hk
  rw [hw] at this; simp at this

/-- C53: a run with a clock is a run of the model without one, on a script whose lines are lines that were
received, with the same result, the same effects and the same client afterwards; so what C34-C45 say about every
script holds for runs with a clock. -/
theorem C53_connect_run (b : Build) (cfg : Config) (w : TWorld) : ∃ script,
    (∀ s, .line s ∈ script → s ∈ lineWaits w.waits) ∧
    connect b cfg ⟨w.client, w.log, script⟩ = ((Timed.connect b cfg w).1.mapError withoutClock,
      ⟨(Timed.connect b cfg w).2.client, (Timed.connect b cfg w).2.log, []⟩) := by
  obtain ⟨s, hs⟩ := Refines.connect b cfg w
  exact ⟨s, fun x hx => (hs.lines x hx).elim fun dt hdt => List.mem_filterMap.mpr ⟨_, hdt, rfl⟩, hs.ends⟩

theorem C53_reconnect_run (b : Build) (w : TWorld) : ∃ script,
    (∀ s, .line s ∈ script → s ∈ lineWaits w.waits) ∧
    reconnect b ⟨w.client, w.log, script⟩ = ((Timed.reconnect b w).1.mapError withoutClock,
      ⟨(Timed.reconnect b w).2.client, (Timed.reconnect b w).2.log, []⟩) := by
  obtain ⟨s, hs⟩ := Refines.reconnect b w
  exact ⟨s, fun x hx => (hs.lines x hx).elim fun dt hdt => List.mem_filterMap.mpr ⟨_, hdt, rfl⟩, hs.ends⟩

/-- C53: when the lines received are readable, the only way for `connect` and `reconnect` not to return is that the caller
drops the future, or that the delay of `reconnect` overflows. -/
theorem C53_connect_returns (b : Build) (cfg : Config) (w : TWorld)
    (hr : ∀ s ∈ lineWaits w.waits, Parses b s) (f : Fault) :
    (Timed.connect b cfg w).1 ≠ .error (.panic f) := by
  intro h
  obtain ⟨s, hs⟩ := Refines.connect b cfg w
  have := hs.ends
  rw [h] at this
  exact connect_no_panic (hs.readable hr) f _ this

theorem C53_reconnect_returns (b : Build) (w : TWorld)
    (hr : ∀ s ∈ lineWaits w.waits, Parses b s) (f : Fault)
    (h : (Timed.reconnect b w).1 = .error (.panic f)) : f = .overflow := by
  obtain ⟨s, hs⟩ := Refines.reconnect b w
  have := hs.ends
  rw [h] at this
  exact C41_panic b _ (hs.readable hr) f (by rw [this]; rfl)

/-- C53: `Timeout` is not reported early: `connect` took the configured timeout, or the five seconds that the server
has for each of its replies. -/
theorem C53_connect_patience (b : Build) (cfg : Config) (w : TWorld) (hw : w.deadlines = [])
    (h : (Timed.connect b cfg w).1 = .ok (.error .timeout)) :
    w.now + min cfg.timeout 5000000000 ≤ (Timed.connect b cfg w).2.now :=
  Patient.connect b cfg w (by rw [hw]; simp) _ h rfl

/-- Likewise for `reconnect`, which has also waited for the initial delay. -/
theorem C53_reconnect_patience (b : Build) (w : TWorld) (hw : w.deadlines = [])
    (hn : w.client.config.backoff.maxTries ≠ some 0)
    (h : (Timed.reconnect b w).1 = .ok (.error .timeout)) :
    w.now + w.client.config.backoff.initialDelay + min w.client.config.timeout 5000000000
      ≤ (Timed.reconnect b w).2.now := by
  rw [Nat.add_assoc]
  exact (Patient.loop b w.client.config _ _ _ _).1 hn w (by rw [hw]; simp) _ h rfl

/-- C53: when the greeting has been sent, `connect` returns within ten seconds, five for each of the two replies,
however long the timeout is. -/
theorem C53_replies (b : Build) (cfg : Config) (w : TWorld) (hw : w.deadlines = [])
    (load open' write flush n : Nat) (hn : (hello cfg.credentials).length ≤ n) (rest : List (Nat × WaitEnd))
    (hs : w.waits = (load, .answer .tlsLoaded) :: (open', .answer .opened) :: (write, .answer (.accept n)) ::
      (flush, .answer .flushed) :: rest) :
    (Timed.connect b cfg w).2.now ≤ w.now + load + open' + write + flush + 10000000000 := by
  show By _ w _
  refine .bind (Nat.le_trans (next_by hs).1 (by omega)) fun a w1 h => ?_
  obtain ⟨ha, h1⟩ := (next_by hs).2 a w1 h
  cases ha
  simp only []
  have s1 : w1.waits = (open', .answer .opened) :: (write, .answer (.accept n)) ::
      (flush, .answer .flushed) :: rest := by rw [h1]
  have t1 : w1.now = w.now + load := by rw [h1]
  have d1 : w1.deadlines = [] := by rw [h1]; exact hw
  have ho := open_by (t := cfg.timeout) s1
  refine .bind (Nat.le_trans ho.1 (by omega)) fun a w2 h2 => ?_
  obtain ⟨t2, d2, s2⟩ := ho.2 a w2 h2
  rcases a with _ | (e | u)
  · show w2.now ≤ _; omega
  · show w2.now ≤ _; omega
  · refine .bind (show w2.now ≤ _ by omega) fun _ w3 h3 => ?_
    have e3 : { w2 with log := w2.log ++ [.connected] } = w3 := (Prod.mk.inj h3).2
    have t3 : w3.now = w2.now := by rw [← e3]
    refine .bind (show w3.now ≤ _ by omega) fun _ w4 h4 => ?_
    have e4 : { w3 with client := ⟨false, [], cfg⟩ } = w4 := (Prod.mk.inj h4).2
    have d4 : w4.deadlines = [] := by rw [← e4, ← e3]; exact d2.trans d1
    have s4 : w4.waits = (write, .answer (.accept n)) :: (flush, .answer .flushed) :: rest := by rw [← e4, ← e3]; exact s2
    have t4 : w4.now = w2.now := by rw [← e4, ← e3]
    have hh : By (w4.now + write + flush + 10000000000) w4 (Timed.withTimeout cfg.timeout (Timed.handshake b)) := by
      refine .timeout (handshake_by b (w := armed cfg.timeout w4) ?_ (n := n) ?_ ?_ (rest := rest) s4)
      · exact armed_le (by rw [d4]; simp)
      · rw [← e4]; rfl
      · rw [← e4]; exact hn
    refine .bind (Nat.le_trans hh (by omega)) fun a w5 h5 => ?_
    unfold By at hh
    rw [h5] at hh
    simp only [] at hh
    cases a <;> (show w5.now ≤ _; omega)

/-- A network that accepts the connection and takes the greeting, but never says a word. -/
def silent : List (Nat × WaitEnd) :=
  [(7, .answer .tlsLoaded), (20, .answer .opened), (30, .answer (.accept 1000)), (40, .answer .flushed)]

/-- Non-vacuity: with a timeout of ten seconds, `connect` gives up five seconds after the greeting was sent; with
one of three seconds, three seconds after the connection was opened; when the connection is not opened at all, three
seconds after the start; when nobody answers after a partial write, likewise. -/
example : (Timed.connect ⟨.scalar, true⟩ ⟨⟨b!"a", none⟩, 10000000000, ⟨none, 1, 2, 3⟩⟩
    ⟨⟨false, [], ⟨⟨b!"a", none⟩, 10000000000, ⟨none, 1, 2, 3⟩⟩⟩, [], 100, [], silent⟩).1
      = .ok (.error .timeout) ∧
    (Timed.connect ⟨.scalar, true⟩ ⟨⟨b!"a", none⟩, 10000000000, ⟨none, 1, 2, 3⟩⟩
    ⟨⟨false, [], ⟨⟨b!"a", none⟩, 10000000000, ⟨none, 1, 2, 3⟩⟩⟩, [], 100, [], silent⟩).2.now
      = 100 + 7 + 20 + 30 + 40 + 5000000000 := by decide +kernel
example : (Timed.connect ⟨.scalar, true⟩ ⟨⟨b!"a", none⟩, 3000000000, ⟨none, 1, 2, 3⟩⟩
    ⟨⟨false, [], ⟨⟨b!"a", none⟩, 3000000000, ⟨none, 1, 2, 3⟩⟩⟩, [], 100, [], silent⟩).1
      = .ok (.error .timeout) ∧
    (Timed.connect ⟨.scalar, true⟩ ⟨⟨b!"a", none⟩, 3000000000, ⟨none, 1, 2, 3⟩⟩
    ⟨⟨false, [], ⟨⟨b!"a", none⟩, 3000000000, ⟨none, 1, 2, 3⟩⟩⟩, [], 100, [], silent⟩).2.now
      = 100 + 7 + 20 + 3000000000 := by decide +kernel
example : (Timed.connect ⟨.scalar, true⟩ ⟨⟨b!"a", none⟩, 3000000000, ⟨none, 1, 2, 3⟩⟩
    ⟨⟨false, [], ⟨⟨b!"a", none⟩, 3000000000, ⟨none, 1, 2, 3⟩⟩⟩, [], 100, [],
      [(7, .answer .tlsLoaded), (3000000001, .answer .opened)]⟩).2.now
      = 100 + 7 + 3000000000 := by decide +kernel
/-- The bound of `reconnect` is reached: two attempts, with delays 1 and 2, which both take all the time they have. -/
example : (Timed.reconnect ⟨.scalar, true⟩
    ⟨⟨false, [], ⟨⟨b!"a", none⟩, 10, ⟨some 2, 1, 2, 3⟩⟩⟩, [], 100, [],
      [(0, .answer .slept), (10, .answer .opened), (10, .answer (.writeFailed ⟨.timedOut, 1⟩)),
       (0, .answer .slept), (10, .answer .opened)]⟩).2.now = 100 + attemptsTime ⟨some 2, 1, 2, 3⟩ 10 0 2 ∧
    attemptsTime ⟨some 2, 1, 2, 3⟩ 10 0 2 = (1 + 10 + 10) + (2 + 10 + 10) := by decide +kernel

/-- The hypotheses of `C53_connect`, `C53_reconnect`, the two `_returns` and the two `_patience` are met. -/
example := C53_connect ⟨.scalar, true⟩ sampleConfig ⟨⟨false, [], sampleConfig⟩, [], 100, [], silent⟩ rfl 7 _ rfl
example := C53_reconnect ⟨.scalar, true⟩ ⟨⟨false, [], sampleConfig⟩, [], 100, [], silent⟩ rfl 2 rfl
example := fun b => C53_connect_returns b sampleConfig ⟨⟨false, [], sampleConfig⟩, [], 100, [],
    silent ++ [(50, .answer (.line (b!"CAP * ACK")))]⟩ (by
  intro s hs
  have : s = b!"CAP * ACK" := by simpa [lineWaits, silent] using hs
  rw [this]
  exact (readable_plain (s := b!"CAP * ACK") (.of_ascii (by decide)) (by decide) (by decide)).parses)
example := C53_reconnect_patience ⟨.scalar, true⟩ ⟨⟨false, [], sampleConfig⟩, [], 100, [],
    [(0, .answer .slept), (2000, .answer .opened), (0, .answer .slept), (2000, .answer .opened)]⟩ rfl
  (by decide) (by decide +kernel)

end Tmi.Props
