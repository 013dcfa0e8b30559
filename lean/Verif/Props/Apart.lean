/-
C121: receiving and sending do not interfere.
-/
import Verif.Proofs.Apart
import Verif.Proofs.Samples

namespace Tmi.Props
open Tmi.Model Tmi.Spec Tmi.Proofs

theorem accounts_received (b : Build) : ∀ (calls : List (Call × List Answer)) (w w' : World),
    (∀ k ∈ calls, k.1.receives = true ∨ k.1.sends = true) → w.client.closed = w'.client.closed →
    (accounts b calls w).filter (·.1.receives) = accounts b (calls.filter (·.1.receives)) w'
  | [], _, _, _, _ => rfl
  | (k, s) :: calls, w, w', hk, hc => by
    obtain ⟨d1, d2, d3⟩ := make_drop b k w s
    have ih := accounts_received b calls (k.make b { w with script := s }).2
    have hk' : ∀ k ∈ calls, k.1.receives = true ∨ k.1.sends = true := fun k h => hk k (List.mem_cons_of_mem _ h)
    cases k with
    | recv =>
      obtain ⟨e1, e2, e3⟩ := make_drop b .recv w' s
      obtain ⟨r1, r2, r3⟩ := recv_only_closed b hc s
      rw [List.filter_cons_of_pos (by rfl), accounts, accounts, List.filter_cons_of_pos (by rfl)]
      rw [d1, d2, e1, e2, r1, r2, ih (Call.recv.make b { w' with script := s }).2 hk' (by rw [d3, e3, r3])]
    | send c =>
      rw [List.filter_cons_of_neg (by simp [Call.receives]), accounts, List.filter_cons_of_neg (by simp [Call.receives])]
      refine ih w' hk' ?_
      rw [d3]
      obtain ⟨-, h⟩ := Blind.send c true w.client [] s
      exact h.trans hc
    | reconnect =>
      have := hk (.reconnect, s) (List.mem_cons_self ..)
      simp [Call.receives, Call.sends] at this

theorem accounts_sent (b : Build) : ∀ (calls : List (Call × List Answer)) (w w' : World),
    (∀ k ∈ calls, k.1.receives = true ∨ k.1.sends = true) →
    { w.client with closed := false } = { w'.client with closed := false } →
    (accounts b calls w).filter (·.1.sends) = accounts b (calls.filter (·.1.sends)) w'
  | [], _, _, _, _ => rfl
  | (k, s) :: calls, w, w', hk, hc => by
    obtain ⟨d1, d2, d3⟩ := make_drop b k w s
    have ih := accounts_sent b calls (k.make b { w with script := s }).2
    have hk' : ∀ k ∈ calls, k.1.receives = true ∨ k.1.sends = true := fun k h => hk k (List.mem_cons_of_mem _ h)
    cases k with
    | send c =>
      obtain ⟨e1, e2, e3⟩ := make_drop b (.send c) w' s
      have r : ∀ w : World, c.send ⟨{ w.client with closed := false }, [], s⟩ =
          ((c.send ⟨w.client, [], s⟩).1, ⟨{ (c.send ⟨w.client, [], s⟩).2.client with closed := false },
            (c.send ⟨w.client, [], s⟩).2.log, (c.send ⟨w.client, [], s⟩).2.script⟩) :=
        fun w => (Blind.send c false w.client [] s).1
      have rr := r w
      rw [hc, r w'] at rr
      simp only [Prod.mk.injEq, World.mk.injEq] at rr
      obtain ⟨r1, r2, r3, -⟩ := rr
      rw [List.filter_cons_of_pos (by rfl), accounts, accounts, List.filter_cons_of_pos (by rfl)]
      rw [d1, d2, e1, e2, ih ((Call.send c).make b { w' with script := s }).2 hk' (by rw [d3, e3]; exact r2.symm)]
      simp only [Call.make]
      rw [r1, r3]
    | recv =>
      rw [List.filter_cons_of_neg (by simp [Call.sends]), accounts, List.filter_cons_of_neg (by simp [Call.sends])]
      refine ih w' hk' ?_
      rw [← hc, d3]
      have h := recv_keeps b ⟨w.client, [], s⟩
      show Client.mk false (recv b ⟨w.client, [], s⟩).2.client.scratch (recv b ⟨w.client, [], s⟩).2.client.config = _
      rw [h.1, h.2]
    | reconnect =>
      have := hk (.reconnect, s) (List.mem_cons_self ..)
      simp [Call.receives, Call.sends] at this

/-- C121: any calls of `recv` and of sending methods, one after the other on one connection, each waiting for whatever
it waits for, failing or dropped at any point.  Each `recv` gives what it would give, and takes the line it would take,
had nothing been sent in between; and each sending call gives what it would give, and sends the bytes it would send,
had nothing been received in between. -/
theorem C121_apart (b : Build) (calls : List (Call × List Answer)) (w : World)
    (h : ∀ k ∈ calls, k.1.receives = true ∨ k.1.sends = true) :
    (accounts b calls w).filter (·.1.receives) = accounts b (calls.filter (·.1.receives)) w ∧
    (accounts b calls w).filter (·.1.sends) = accounts b (calls.filter (·.1.sends)) w :=
  ⟨accounts_received b calls w w h rfl, accounts_sent b calls w w h rfl⟩

/-- C121: so calls that receive and calls that send can be made in any order among each other. -/
theorem C121_order (b : Build) (calls calls' : List (Call × List Answer)) (w : World)
    (h : ∀ k ∈ calls, k.1.receives = true ∨ k.1.sends = true)
    (h' : ∀ k ∈ calls', k.1.receives = true ∨ k.1.sends = true)
    (hr : calls.filter (·.1.receives) = calls'.filter (·.1.receives))
    (hs : calls.filter (·.1.sends) = calls'.filter (·.1.sends)) :
    (accounts b calls w).filter (·.1.receives) = (accounts b calls' w).filter (·.1.receives) ∧
    (accounts b calls w).filter (·.1.sends) = (accounts b calls' w).filter (·.1.sends) := by
  obtain ⟨e1, e2⟩ := C121_apart b calls w h
  obtain ⟨f1, f2⟩ := C121_apart b calls' w h'
  rw [e1, e2, f1, f2, hr, hs]
  exact ⟨rfl, rfl⟩

/-! Non-vacuity: a message fails halfway, a line is received, another message is sent, the connection ends, and a
third message is still accepted by the network. -/

def apartCalls : List (Call × List Answer) :=
  [(.send (.ping (b!"one")), [.accept 5, .writeFailed ⟨.other 0, 1⟩]), (.recv, [.line (b!"PING :a")]),
   (.send (.ping (b!"two")), [.accept 1000]), (.recv, []), (.recv, [.eof]), (.send (.join (b!"#c")), [.accept 1000]),
   (.recv, [.line (b!"PING :b")])]

example := C121_apart ⟨.scalar, true⟩ apartCalls (sampleWorld []) (by decide)
example : (accounts ⟨.scalar, true⟩ apartCalls (sampleWorld [])).map (·.2.2) =
    [[.wrote (b!"PING ")], [.took (b!"PING :a")], [.wrote (b!"PING :two\r\n")], [], [], [.wrote (b!"JOIN #c\r\n")], []] := by
  decide +kernel

end Tmi.Props
