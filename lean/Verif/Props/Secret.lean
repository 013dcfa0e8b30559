/-
Property C58: results and errors do not depend on the token.
-/
import Verif.Proofs.Secret
import Verif.Props.Connect

namespace Tmi.Props
open Tmi.Model Tmi.Spec Tmi.Proofs

/-! ## C58 -/

/-- C58: `connect` with two configurations that differ only in the token (sent as equally many bytes), when the same
happens on the network, returns the same value or error, and apart from the bytes of the greeting does the same. -/
theorem C58_connect (b : Build) (cfg cfg' : Config) (h : SameButToken cfg cfg') (w : World) :
    (connect b cfg w).1 = (connect b cfg' w).1 ∧
    (connect b cfg w).2.log.map shape = (connect b cfg' w).2.log.map shape := by
  obtain ⟨h1, h2⟩ := Twin.connect b h w w ⟨⟨rfl, rfl, rfl, rfl⟩, rfl, rfl, rfl, rfl⟩
  exact ⟨h1, h2.past⟩

/-- The wait for the welcome, the same session with two tokens: the bytes differ, nothing else does. -/
def secretConfig (t : Bytes) : Config := { sampleConfig with credentials := ⟨b!"someone", some t⟩ }

example : SameButToken (secretConfig (b!"oauth:abc")) (secretConfig (b!"xyz")) :=
  ⟨rfl, rfl, rfl, by decide +kernel⟩
example : SameButToken (secretConfig (b!"hunter2")) (secretConfig (b!"3retnuh")) ∧
    (connect ⟨.scalar, true⟩ (secretConfig (b!"hunter2")) (sampleWorld (.tlsLoaded :: .opened :: goodReplies))).1
      = .ok (.ok ()) ∧
    (connect ⟨.scalar, true⟩ (secretConfig (b!"hunter2")) (sampleWorld (.tlsLoaded :: .opened :: goodReplies))).2.log
      ≠ (connect ⟨.scalar, true⟩ (secretConfig (b!"3retnuh"))
          (sampleWorld (.tlsLoaded :: .opened :: goodReplies))).2.log :=
  ⟨⟨rfl, rfl, rfl, by decide +kernel⟩, by decide +kernel, by decide +kernel⟩
/-- The length matters: the stream takes the bytes it takes. -/
example : (connect ⟨.scalar, true⟩ (secretConfig (b!"hunter2"))
      (sampleWorld [.tlsLoaded, .opened, .accept 99, .flushed, .eof])).1
    ≠ (connect ⟨.scalar, true⟩ (secretConfig (b!"hunter22"))
      (sampleWorld [.tlsLoaded, .opened, .accept 99, .flushed, .eof])).1 := by decide +kernel

/-- C58: the same for every sequence of calls on a connected client: all results and errors are the same. -/
theorem C58_calls (w w' : World) (h : Alike w w') : ∀ calls : List (Op × List Answer),
    (outcomes calls w).1 = (outcomes calls w').1 ∧ Alike (outcomes calls w).2 (outcomes calls w').2 := by
  intro calls
  induction calls generalizing w w' with
  | nil => exact ⟨rfl, h⟩
  | cons x rest ih =>
    obtain ⟨op, answers⟩ := x
    have ha : Alike { w with script := answers } { w' with script := answers } :=
      ⟨h.config, h.closed, h.buffered, h.past, rfl⟩
    have key : (op.outcome { w with script := answers }).1 = (op.outcome { w' with script := answers }).1 ∧
        Alike (op.outcome { w with script := answers }).2 (op.outcome { w' with script := answers }).2 := by
      cases op with
      | send c =>
        obtain ⟨h1, h2⟩ := Twin.send c _ _ ha
        exact ⟨congrArg Outcome.sent h1, h2⟩
      | recv b =>
        obtain ⟨h1, h2⟩ := Twin.recv b _ _ ha
        exact ⟨congrArg Outcome.received h1, h2⟩
      | reconnect b =>
        obtain ⟨h1, h2⟩ := Twin.reconnect b _ _ ha
        exact ⟨congrArg Outcome.reconnected h1, h2⟩
    obtain ⟨i1, i2⟩ := ih _ _ key.2
    simp only [outcomes]
    exact ⟨by rw [key.1, i1], i2⟩

/-- C58, whole sessions: connect with one token or the other, then make any calls. -/
theorem C58_session (b : Build) (cfg cfg' : Config) (h : SameButToken cfg cfg') (w : World)
    (calls : List (Op × List Answer)) :
    (connect b cfg w).1 = (connect b cfg' w).1 ∧
    (outcomes calls (connect b cfg w).2).1 = (outcomes calls (connect b cfg' w).2).1 ∧
    (outcomes calls (connect b cfg w).2).2.log.map shape
      = (outcomes calls (connect b cfg' w).2).2.log.map shape := by
  obtain ⟨h1, h2⟩ := Twin.connect b h w w ⟨⟨rfl, rfl, rfl, rfl⟩, rfl, rfl, rfl, rfl⟩
  obtain ⟨h3, h4⟩ := C58_calls _ _ h2 calls
  exact ⟨h1, h3, h4.past⟩

/-- A session in which a message is sent and the connection is lost and made again. -/
example : (outcomes [(.send (.privmsg (b!"#a") (b!"hi") none none), [.accept 5, .accept 50]),
      (.recv ⟨.scalar, true⟩, [.eof]), (.reconnect ⟨.scalar, true⟩, .slept :: .opened :: goodReplies)]
      (connect ⟨.scalar, true⟩ (secretConfig (b!"hunter2"))
        (sampleWorld (.tlsLoaded :: .opened :: goodReplies))).2).1
    = [.sent (.ok (.ok ())), .received (.ok (.error .streamClosed)), .reconnected (.ok (.ok ()))] := by
  decide +kernel

end Tmi.Props
