/-
Lemmas: a command does not look at whether the connection has ended, and `recv` looks at nothing else of the client.
-/
import Verif.Spec.Apart
import Verif.Proofs.LikeNew

namespace Tmi.Proofs
open Tmi.Model Tmi.Spec

variable {α β : Type}

/-- `x` neither looks at whether the connection has ended, nor changes it. -/
def Blind (x : Act α) : Prop :=
  ∀ z c l s, x ⟨{ c with closed := z }, l, s⟩ =
    ((x ⟨c, l, s⟩).1, ⟨{ (x ⟨c, l, s⟩).2.client with closed := z }, (x ⟨c, l, s⟩).2.log, (x ⟨c, l, s⟩).2.script⟩) ∧
    (x ⟨c, l, s⟩).2.client.closed = c.closed

theorem Blind.pure (a : α) : Blind (Pure.pure a : Act α) := fun _ _ _ _ => ⟨rfl, rfl⟩

theorem Blind.stop (e : Stop) : Blind (Model.stop e : Act α) := fun _ _ _ _ => ⟨rfl, rfl⟩

theorem Blind.bind {x : Act α} {f : α → Act β} (hx : Blind x) (hf : ∀ a, Blind (f a)) : Blind (x >>= f) := by
  intro z c l s
  obtain ⟨h1, h2⟩ := hx z c l s
  rw [act_bind, act_bind, h1]
  rcases hr : x ⟨c, l, s⟩ with ⟨r, c', l', s'⟩
  rw [hr] at h2
  cases r with
  | error e => exact ⟨rfl, h2⟩
  | ok a =>
    obtain ⟨k1, k2⟩ := hf a z c' l' s'
    exact ⟨k1, k2.trans h2⟩

theorem Blind.next : Blind Model.next := by
  intro z c l s
  rcases s with _ | ⟨a, rest⟩
  · exact ⟨rfl, rfl⟩
  · cases a <;> exact ⟨rfl, rfl⟩

theorem Blind.emit (e : Effect) : Blind (Model.emit e) := fun _ _ _ _ => ⟨rfl, rfl⟩

theorem Blind.setScratch (x : Bytes) : Blind (Model.setScratch x) := fun _ _ _ _ => ⟨rfl, rfl⟩

theorem Blind.takeScratch : Blind Model.takeScratch := fun _ _ _ _ => ⟨rfl, rfl⟩

theorem Blind.writeLoop : ∀ (rounds : Nat) (data : Bytes), Blind (Model.writeLoop rounds data)
  | 0, _ => .pure _
  | rounds + 1, data => by
    rw [Model.writeLoop]
    split
    · exact .pure _
    · refine .bind .next fun a => ?_
      split
      · split
        · exact .pure _
        · exact .bind (.emit _) fun _ => Blind.writeLoop rounds _
      · exact .pure _
      · exact .stop _

theorem Blind.sendRaw (s : Bytes) : Blind (Model.sendRaw s) := by
  unfold Model.sendRaw
  split
  · exact .pure _
  · refine .bind (.writeLoop _ _) fun r => ?_
    split <;> exact .pure _

theorem Blind.withScratch {body : Bytes → Act α} (h : ∀ s, Blind (body s)) : Blind (Model.withScratch body) :=
  .bind .takeScratch fun s => .bind (h s) fun _ => .bind (.setScratch _) fun _ => .pure _

theorem Blind.send (c : Cmd) : Blind c.send := by
  cases c with
  | join channel =>
    refine .bind .takeScratch fun s => .bind (.sendRaw _) fun r => ?_
    split
    · exact .pure _
    · exact .bind (.setScratch _) fun _ => .pure _
  | raw s => exact .sendRaw s
  | privmsg _ _ _ _ => exact .withScratch fun _ => .sendRaw _
  | ping _ => exact .withScratch fun _ => .sendRaw _
  | pong _ => exact .withScratch fun _ => .sendRaw _
  | joinAll _ => exact .withScratch fun _ => .sendRaw _

/-- What a call gives and what is seen of it, for a client by itself. -/
theorem make_drop (b : Build) (k : Call) (w : World) (s : List Answer) :
    (k.make b { w with script := s }).2.log.drop w.log.length = (k.make b ⟨w.client, [], s⟩).2.log ∧
    (k.make b { w with script := s }).1 = (k.make b ⟨w.client, [], s⟩).1 ∧
    (k.make b { w with script := s }).2.client = (k.make b ⟨w.client, [], s⟩).2.client := by
  have h := make_framed b k w.client w.log s
  rw [show ({ w with script := s } : World) = ⟨w.client, w.log, s⟩ from rfl, h]
  simp

theorem recv_only_closed (b : Build) {c c' : Client} (h : c.closed = c'.closed) (s : List Answer) :
    (Call.recv.make b ⟨c, [], s⟩).1 = (Call.recv.make b ⟨c', [], s⟩).1 ∧
    (Call.recv.make b ⟨c, [], s⟩).2.log = (Call.recv.make b ⟨c', [], s⟩).2.log ∧
    (Call.recv.make b ⟨c, [], s⟩).2.client.closed = (Call.recv.make b ⟨c', [], s⟩).2.client.closed := by
  simp only [Call.make]
  rw [recv_run, recv_run]
  simp only [h]
  split
  · exact ⟨rfl, rfl, h⟩
  · split <;> try exact ⟨rfl, rfl, h⟩
    · split <;> exact ⟨rfl, rfl, h⟩
    · exact ⟨rfl, rfl, rfl⟩

end Tmi.Proofs
