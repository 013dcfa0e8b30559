/-
C102: a client that has reconnected, or that has just received a message, is as good as a new one.
-/
import Verif.Proofs.LikeNew

namespace Tmi.Props
open Tmi.Model Tmi.Spec Tmi.Proofs

/-- C102: after any history of calls on a client, if `reconnect` succeeds then, from then on, no program can tell the
client from one that has just been made with the same configuration, and neither can the server. -/
theorem C102_reconnected (b : Build) (cfg : Config) (w w₀ w₁ : World) (h : List (Op × Bool)) (answers : List Answer)
    (made : connect b cfg w = (.ok (.ok ()), w₀)) (hist : History w₀ h w₁)
    (again : (reconnect b { w₁ with script := answers }).1 = .ok (.ok ()))
    (v new : World) (fresh : connect b cfg v = (.ok (.ok ()), new)) :
    SameFromNow b (reconnect b { w₁ with script := answers }).2 new := by
  have e₀ := connect_ok_client (congrArg Prod.fst made)
  have e := connect_ok_client (congrArg Prod.fst fresh)
  rw [made] at e₀
  rw [fresh] at e
  simp only at e₀ e
  apply alike_of_client
  have hp := history_pending hist (by rw [e₀])
  rw [reconnect_ok_client again, e]
  show Client.mk false [] w₁.client.config = _
  rw [hp.1, e₀]

/-- C102: the same after any history without an unrepaired failure, as soon as `recv` returns a message. -/
theorem C102_received (b b' : Build) (cfg : Config) (w w₀ w₁ : World) (h : List (Op × Bool)) (answers : List Answer)
    (m : MsgOwned) (made : connect b cfg w = (.ok (.ok ()), w₀)) (hist : History w₀ h w₁) (hs : settled h = true)
    (message : (recv b' { w₁ with script := answers }).1 = .ok (.ok m))
    (v new : World) (fresh : connect b cfg v = (.ok (.ok ()), new)) :
    SameFromNow b (recv b' { w₁ with script := answers }).2 new := by
  have e₀ := connect_ok_client (congrArg Prod.fst made)
  have e := connect_ok_client (congrArg Prod.fst fresh)
  rw [made] at e₀
  rw [fresh] at e
  simp only at e₀ e
  apply alike_of_client
  have hp := history_pending hist (by rw [e₀])
  rw [recv_ok_open message, e]
  show Client.mk false w₁.client.scratch w₁.client.config = _
  rw [hp.1, hp.2.2 hs, e₀]

/-! ### Non-vacuity -/

def oldScript : List Answer := .tlsLoaded :: .opened :: goodReplies

/-- A client that was made, after which a message failed halfway, the connection ended, and a first `reconnect` was
given up with the greeting unsent. -/
def oldWorld₀ : World := (connect ⟨.scalar, true⟩ sampleConfig (sampleWorld oldScript)).2
def oldWorld₁ : World := ((Op.send (.ping (b!"abc"))).run { oldWorld₀ with script := [.accept 3, .writeFailed ⟨.other 0, 1⟩] }).2
def oldWorld₂ : World := ((Op.recv ⟨.scalar, true⟩).run { oldWorld₁ with script := [.eof] }).2
def oldWorld₃ : World := ((Op.reconnect ⟨.scalar, true⟩).run { oldWorld₂ with script := [.slept, .opened, .accept 2] }).2

theorem oldWorld_made : connect ⟨.scalar, true⟩ sampleConfig (sampleWorld oldScript) = (.ok (.ok ()), oldWorld₀) :=
  Prod.ext (by decide +kernel) rfl

theorem oldWorld_history : ∃ h, History oldWorld₀ h oldWorld₃ :=
  ⟨_, .call (.call (.call .start (.send (.ping (b!"abc"))) [.accept 3, .writeFailed ⟨.other 0, 1⟩])
    (.recv ⟨.scalar, true⟩) [.eof]) (.reconnect ⟨.scalar, true⟩) [.slept, .opened, .accept 2]⟩

/-- The client does have a past: the greeting is still in its buffer, and it has seen the end of the stream before. -/
example : oldWorld₂.client.closed = true ∧ oldWorld₃.client.scratch = hello sampleConfig.credentials ∧
    oldWorld₃.log ≠ oldWorld₀.log := by decide +kernel

example : SameFromNow ⟨.scalar, true⟩
    (reconnect ⟨.scalar, true⟩ { oldWorld₃ with script := [.slept, .opened] ++ goodReplies }).2
    oldWorld₀ := by
  obtain ⟨h, hh⟩ := oldWorld_history
  exact C102_reconnected _ sampleConfig _ _ _ h _ oldWorld_made hh (by decide +kernel) _ _ oldWorld_made

/-- Without the `reconnect`, the two clients can be told apart: the next command is sent behind the old greeting. -/
example : ¬ SameFromNow ⟨.scalar, true⟩ oldWorld₃ oldWorld₀ := by
  intro h
  obtain ⟨-, ⟨seen, h1, h2⟩, -⟩ := h (fun _ => some (.send (.ping (b!"abc")))) 1 [] [.accept 1000]
  have e1 : seen = (Program.run ⟨.scalar, true⟩ (fun _ => some (.send (.ping (b!"abc")))) 1 []
      { oldWorld₃ with script := [.accept 1000] }).2.log.drop oldWorld₃.log.length := by rw [h1, List.drop_left]
  have e2 : seen = (Program.run ⟨.scalar, true⟩ (fun _ => some (.send (.ping (b!"abc")))) 1 []
      { oldWorld₀ with script := [.accept 1000] }).2.log.drop oldWorld₀.log.length := by rw [h2, List.drop_left]
  rw [e1] at e2
  revert e2
  decide +kernel

/-- Another client, whose message failed halfway and which then receives a line. -/
example : ∃ m, SameFromNow ⟨.scalar, true⟩ (recv ⟨.scalar, true⟩ { oldWorld₁ with script := [.line (b!"PING :x")] }).2 oldWorld₀ ∧
    (recv ⟨.scalar, true⟩ { oldWorld₁ with script := [.line (b!"PING :x")] }).1 = .ok (.ok m) := by
  cases hr : (recv ⟨.scalar, true⟩ { oldWorld₁ with script := [.line (b!"PING :x")] }).1 with
  | error e =>
    have : returnedOk (recv ⟨.scalar, true⟩ { oldWorld₁ with script := [.line (b!"PING :x")] }).1 = true := by decide +kernel
    rw [hr] at this
    simp [returnedOk] at this
  | ok r =>
    cases r with
    | error e =>
      have : returnedOk (recv ⟨.scalar, true⟩ { oldWorld₁ with script := [.line (b!"PING :x")] }).1 = true := by decide +kernel
      rw [hr] at this
      simp [returnedOk] at this
    | ok m =>
      exact ⟨m, C102_received _ _ sampleConfig _ _ _ _ _ m oldWorld_made
        (.call .start (.send (.ping (b!"abc"))) [.accept 3, .writeFailed ⟨.other 0, 1⟩]) rfl hr _ _ oldWorld_made, rfl⟩

end Tmi.Props
