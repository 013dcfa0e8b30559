/-
Property C59: flushing.
-/
import Verif.Proofs.Flush
import Verif.Props.Connect

namespace Tmi.Props
open Tmi.Model Tmi.Spec Tmi.Proofs

/-! ## C59 -/

/-- C59, the greeting: when `connect` or `reconnect` returns `Ok` everything the connection has accepted has been
flushed. -/
theorem C59_greeting_partial (b : Build) (cfg : Config) (w : World) :
    ((connect b cfg w).1 = .ok (.ok ()) → unflushed (connect b cfg w).2.log = []) ∧
    ((reconnect b w).1 = .ok (.ok ()) → unflushed (reconnect b w).2.log = []) :=
  ⟨connect_leaves b cfg w, reconnectLoop_leaves b _ _ _ _ _ w⟩

example : (connect ⟨.scalar, true⟩ sampleConfig (sampleWorld (.tlsLoaded :: .opened :: goodReplies))).1
    = .ok (.ok ()) ∧
    written (connect ⟨.scalar, true⟩ sampleConfig (sampleWorld (.tlsLoaded :: .opened :: goodReplies))).2.log
      = hello sampleConfig.credentials := by decide +kernel

/-- C59, exactly: no sending method and no receiving method ever flushes.  Whatever a call of a sending method hands
to the stream is added to what may be held back, and what arrives does not change it. -/
theorem C59_exact (w : World) :
    (∀ c : Cmd, unflushed (c.send w).2.log = unflushed w.log ++ wire w (c.send w).2) ∧
    (∀ b, unflushed (recv b w).2.log = unflushed w.log) := by
  constructor
  · intro c
    obtain ⟨ev, h1, h2⟩ := send_onlyWrites c w
    rw [h1, unflushed_writes _ h2]
    unfold wire
    rw [h1]
    simp
  · intro b
    obtain ⟨ss, h⟩ := recv_onlyTakes b w
    rw [h, unflushed_took]

/-- C59: after any sequence of sending and receiving calls on a connected client, everything sent since the connection
was made may still be held back by the stream. -/
theorem C59_history (w w' : World) (h : List (Op × Bool)) (hist : History w h w')
    (hn : ∀ o ∈ h, ∀ b, o.1 ≠ .reconnect b) (h0 : unflushed w.log = []) :
    unflushed w'.log = wire w w' := by
  have key : ∃ ev, w'.log = w.log ++ ev ∧ unflushed w'.log = written ev := by
    induction hist with
    | start => exact ⟨[], by simp, by rw [h0]; rfl⟩
    | @call h v hist op answers ih =>
      obtain ⟨ev, h1, h2⟩ := ih (fun o ho => hn o (List.mem_append_left _ ho))
      cases op with
      | send c =>
        obtain ⟨ev', e1, e2⟩ := send_onlyWrites c { v with script := answers }
        refine ⟨ev ++ ev', ?_, ?_⟩
        · simp only [Op.run]; rw [e1]; simp [h1]
        · simp only [Op.run]; rw [e1, unflushed_writes _ e2, written_append]
          exact congrArg (· ++ written ev') h2
      | recv b =>
        obtain ⟨ss, e1⟩ := recv_onlyTakes b { v with script := answers }
        refine ⟨ev ++ ss.map Effect.took, ?_, ?_⟩
        · simp only [Op.run]; rw [e1]; simp [h1]
        · simp only [Op.run]; rw [e1, unflushed_took, written_append]
          rw [written_took, List.append_nil]
          exact h2
      | reconnect b => exact absurd rfl (hn _ (List.mem_append_right _ (List.mem_singleton.2 rfl)) b)
  obtain ⟨ev, h1, h2⟩ := key
  unfold wire
  rw [h2, h1]
  simp

/-- C59 is false of the code: a message reported as sent, none of which has been flushed. -/
theorem C59_negation : ¬ ∀ (c : Cmd) (w : World), unflushed w.log = [] → (c.send w).1 = .ok (.ok ()) →
    unflushed (c.send w).2.log = [] := by
  intro h
  have := h (.privmsg (b!"#a") (b!"hi") none none)
    { (connect ⟨.scalar, true⟩ sampleConfig (sampleWorld (.tlsLoaded :: .opened :: goodReplies))).2 with
      script := [.accept 100] } (by decide +kernel) (by decide +kernel)
  revert this
  decide +kernel

/-- A client that received, sent, and received. -/
example : ∃ w, History (connect ⟨.scalar, true⟩ sampleConfig (sampleWorld (.tlsLoaded :: .opened :: goodReplies))).2
    [(.recv ⟨.scalar, true⟩, true), (.send (.ping (b!"x")), true), (.recv ⟨.scalar, true⟩, true)] w ∧
    unflushed w.log = b!"PING :x\r\n" :=
  ⟨_, ((History.start.call (.recv ⟨.scalar, true⟩) [.line (b!"PING")]).call
    (.send (.ping (b!"x"))) [.accept 1000]).call (.recv ⟨.scalar, true⟩) [.line (b!"PONG")], by decide +kernel⟩

end Tmi.Props
