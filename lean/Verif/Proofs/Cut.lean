/-
Lemmas: a call looks at nothing but the answers it uses; cut short, it has done a beginning of what it would have done.
-/
import Verif.Proofs.LikeNew
import Verif.Proofs.Net

namespace Tmi.Proofs
open Tmi.Model Tmi.Spec

variable {α β : Type}

/-- `x` uses up the first answers, and only adds to the log.  Had other answers come after these, it would have done
all this too; and nothing more, unless it was dropped. -/
def Cut (x : Act α) : Prop :=
  ∀ c l s, ∃ used, s = used ++ (x ⟨c, l, s⟩).2.script ∧ l <+: (x ⟨c, l, s⟩).2.log ∧
    (∀ t, (x ⟨c, l, s⟩).2.log <+: (x ⟨c, l, used ++ t⟩).2.log) ∧
    ((x ⟨c, l, s⟩).1 ≠ .error .dropped → ∀ t,
      x ⟨c, l, used ++ t⟩ = ((x ⟨c, l, s⟩).1, ⟨(x ⟨c, l, s⟩).2.client, (x ⟨c, l, s⟩).2.log, t⟩))

/-- Something that uses no answer. -/
theorem Cut.free {x : Act α} (h : ∀ c l, ∃ r c' e, ∀ t, x ⟨c, l, t⟩ = (r, ⟨c', l ++ e, t⟩)) : Cut x := by
  intro c l s
  obtain ⟨r, c', e, h⟩ := h c l
  refine ⟨[], ?_, ?_, fun t => ?_, fun _ t => ?_⟩
  · rw [h]; rfl
  · rw [h]; exact List.prefix_append ..
  · rw [h, h]; exact List.prefix_refl _
  · rw [h, h]; rfl

theorem Cut.pure (a : α) : Cut (Pure.pure a : Act α) := .free fun c l => ⟨.ok a, c, [], fun t => by simp [Pure.pure]⟩

theorem Cut.stop (e : Stop) : Cut (Model.stop e : Act α) := .free fun c l => ⟨.error e, c, [], fun t => by simp [Model.stop]⟩

theorem Cut.emit (e : Effect) : Cut (Model.emit e) := .free fun c l => ⟨.ok (), c, [e], fun t => by simp [Model.emit]⟩

theorem Cut.getClient : Cut Model.getClient := .free fun c l => ⟨.ok c, c, [], fun t => by simp [Model.getClient]⟩

theorem Cut.setClient (c' : Client) : Cut (Model.setClient c') :=
  .free fun c l => ⟨.ok (), c', [], fun t => by simp [Model.setClient]⟩

theorem Cut.setScratch (x : Bytes) : Cut (Model.setScratch x) :=
  .free fun c l => ⟨.ok (), { c with scratch := x }, [], fun t => by simp [Model.setScratch]⟩

theorem Cut.takeScratch : Cut Model.takeScratch :=
  .free fun c l => ⟨.ok c.scratch, { c with scratch := [] }, [], fun t => by simp [Model.takeScratch]⟩

theorem Cut.setClosed (x : Bool) : Cut (Model.setClosed x) :=
  .free fun c l => ⟨.ok (), { c with closed := x }, [], fun t => by simp [Model.setClosed]⟩

theorem Cut.lift (r : R α) : Cut (Model.lift r) := by
  cases r with
  | ok a => exact .pure a
  | error f => exact .stop _

theorem Cut.next : Cut Model.next := by
  intro c l s
  rcases s with _ | ⟨a, rest⟩
  · refine ⟨[], rfl, List.prefix_refl _, fun t => ?_, fun h => absurd rfl h⟩
    rcases t with _ | ⟨a, t⟩
    · exact List.prefix_refl _
    · cases a <;> exact List.prefix_refl _
  · refine ⟨[a], ?_, ?_, fun t => ?_, fun _ t => ?_⟩
    · cases a <;> rfl
    · cases a <;> exact List.prefix_refl _
    · cases a <;> exact List.prefix_refl _
    · cases a <;> rfl

theorem Cut.bind {x : Act α} {f : α → Act β} (hx : Cut x) (hf : ∀ a, Cut (f a)) : Cut (x >>= f) := by
  intro c l s
  obtain ⟨used, h1, h2, h3, h4⟩ := hx c l s
  have more : ∀ w : World, (x w).2.log <+: ((x >>= f) w).2.log := by
    intro w
    rw [act_bind]
    rcases x w with ⟨r, c', l', s'⟩
    cases r with
    | error e => exact List.prefix_refl _
    | ok a =>
      obtain ⟨_, _, h, _⟩ := hf a c' l' s'
      exact h
  rw [act_bind]
  rcases hr : x ⟨c, l, s⟩ with ⟨r, c', l', s'⟩
  rw [hr] at h1 h2 h3 h4
  cases r with
  | error e =>
    refine ⟨used, h1, h2, fun t => (h3 t).trans (more _), fun h t => ?_⟩
    rw [act_bind, h4 (by simpa using h) t]
  | ok a =>
    simp only [] at h1 h2 h3 h4 ⊢
    obtain ⟨used', k1, k2, k3, k4⟩ := hf a c' l' s'
    have e : ∀ t, (x >>= f) ⟨c, l, (used ++ used') ++ t⟩ = f a ⟨c', l', used' ++ t⟩ := by
      intro t
      rw [act_bind, List.append_assoc, h4 (by simp) (used' ++ t)]
    refine ⟨used ++ used', ?_, h2.trans k2, fun t => ?_, fun h t => ?_⟩
    · rw [List.append_assoc, ← k1]; exact h1
    · rw [e]; exact k3 t
    · rw [e]; exact k4 h t

theorem Cut.withTimeout {x : Act α} (d : Nat) (hx : Cut x) : Cut (Model.withTimeout d x) := by
  intro c l s
  obtain ⟨used, h1, h2, h3, h4⟩ := hx c l s
  have e : ∀ w : World, (Model.withTimeout d x w).2 = (x w).2 := timeout_snd d x
  refine ⟨used, by rw [e]; exact h1, by rw [e]; exact h2, fun t => by rw [e, e]; exact h3 t, fun h t => ?_⟩
  have hne : (x ⟨c, l, s⟩).1 ≠ .error .dropped := by
    intro hd
    apply h
    unfold Model.withTimeout
    rcases hr : x ⟨c, l, s⟩ with ⟨r, w'⟩
    rw [hr] at hd
    simp only [] at hd
    subst hd
    rfl
  unfold Model.withTimeout
  rw [h4 hne t]
  rcases x ⟨c, l, s⟩ with ⟨r, c', l', s'⟩
  cases r with
  | ok a => rfl
  | error e =>
    cases e with
    | elapsed n => cases n <;> rfl
    | dropped => rfl
    | panic f => rfl

theorem Cut.writeLoop : ∀ (rounds : Nat) (data : Bytes), Cut (Model.writeLoop rounds data)
  | 0, _ => .pure _
  | rounds + 1, data => by
    rw [Model.writeLoop]
    split
    · exact .pure _
    · refine .bind .next fun a => ?_
      split
      · split
        · exact .pure _
        · exact .bind (.emit _) fun _ => Cut.writeLoop rounds _
      · exact .pure _
      · exact .stop _

theorem Cut.flush : Cut Model.flush := by
  unfold Model.flush
  refine .bind .next fun a => ?_
  split
  · exact .bind (.emit _) fun _ => .pure _
  · exact .pure _
  · exact .stop _

theorem Cut.readerNext : Cut Model.readerNext := by
  unfold Model.readerNext
  refine .bind .getClient fun c => ?_
  split
  · exact .pure _
  · refine .bind .next fun a => ?_
    split
    · exact .bind (.emit _) fun _ => .pure _
    · exact .pure _
    · exact .bind (.setClosed _) fun _ => .pure _
    · exact .stop _

theorem Cut.recv (b : Build) : Cut (Model.recv b) := by
  unfold Model.recv
  refine .bind .readerNext fun r => ?_
  split
  · refine .bind (.lift _) fun m => ?_
    split <;> exact .pure _
  · exact .pure _
  · exact .pure _

theorem Cut.sendRaw (s : Bytes) : Cut (Model.sendRaw s) := by
  unfold Model.sendRaw
  split
  · exact .pure _
  · refine .bind (.writeLoop _ _) fun r => ?_
    split <;> exact .pure _

theorem Cut.withScratch {body : Bytes → Act α} (h : ∀ s, Cut (body s)) : Cut (Model.withScratch body) :=
  .bind .takeScratch fun s => .bind (h s) fun _ => .bind (.setScratch _) fun _ => .pure _

theorem Cut.send (c : Cmd) : Cut c.send := by
  cases c with
  | join channel =>
    refine .bind .takeScratch fun s => .bind (.sendRaw _) fun r => ?_
    split
    · exact .pure _
    · exact .bind (.setScratch _) fun _ => .pure _
  | raw s => exact .sendRaw s
  | privmsg _ _ _ _ => exact .withScratch fun _ => .sendRaw _
  | ping _ => exact .withScratch fun _ => .sendRaw _
  | pong _ => exact .withScratch fun _ => .sendRaw _
  | joinAll _ => exact .withScratch fun _ => .sendRaw _

theorem Cut.recvReply (b : Build) : Cut (Model.recvReply b) := by
  unfold Model.recvReply
  refine .bind (.withTimeout _ (.recv b)) fun r => ?_
  split <;> exact .pure _

theorem Cut.awaitWelcome (b : Build) : Cut (Model.awaitWelcome b) := by
  unfold Model.awaitWelcome
  refine .bind (.recvReply b) fun r => ?_
  split
  · exact .pure _
  · refine .bind (.lift _) fun r => ?_
    split
    · exact .pure _
    · refine .bind (.recvReply b) fun r => ?_
      split
      · exact .pure _
      · refine .bind (.lift _) fun r => ?_
        split <;> exact .pure _

theorem Cut.handshake (b : Build) : Cut (Model.handshake b) := by
  unfold Model.handshake
  refine .bind .getClient fun c => .bind (.setScratch _) fun _ => .bind (.writeLoop _ _) fun r => ?_
  split
  · exact .pure _
  · refine .bind .flush fun r => ?_
    split
    · exact .pure _
    · exact .bind (.setScratch _) fun _ => .awaitWelcome b

theorem Cut.openStream : Cut Model.openStream := by
  unfold Model.openStream
  refine .bind (.emit _) fun _ => .bind .next fun a => ?_
  split <;> first | exact .pure _ | exact .stop _

theorem Cut.sleep (d : Nat) : Cut (Model.sleep d) := by
  unfold Model.sleep
  refine .bind (.emit _) fun _ => .bind .next fun a => ?_
  split <;> first | exact .pure _ | exact .stop _

theorem Cut.useStream : Cut Model.useStream := .bind (.emit _) fun _ => .setClosed _

theorem Cut.connect (b : Build) (cfg : Config) : Cut (Model.connect b cfg) := by
  unfold Model.connect
  refine .bind .next fun a => ?_
  split
  · refine .bind (.withTimeout _ .openStream) fun r => ?_
    split
    · exact .pure _
    · exact .pure _
    · refine .bind (.emit _) fun _ => .bind (.setClient _) fun _ => .bind (.withTimeout _ (.handshake b)) fun r => ?_
      split <;> exact .pure _
  · exact .pure _
  · exact .stop _

theorem Cut.reconnectLoop (b : Build) (cfg : Config) : ∀ (fuel : Nat) (tries : Option Nat) (delay : Nat)
    (cause : ConnectError), Cut (Model.reconnectLoop b cfg fuel tries delay cause)
  | 0, _, _, _ => .stop _
  | fuel + 1, tries, delay, cause => by
    rw [Model.reconnectLoop]
    split
    · exact .pure _
    · refine .bind (.sleep _) fun _ => .bind (.lift _) fun d => .bind (.withTimeout _ .openStream) fun r => ?_
      split
      · exact .pure _
      · exact Cut.reconnectLoop b cfg fuel _ _ _
      · refine .bind .useStream fun _ => .bind (.withTimeout _ (.handshake b)) fun r => ?_
        split
        · exact .pure _
        · split
          · exact Cut.reconnectLoop b cfg fuel _ _ _
          · exact .pure _
        · exact .pure _

theorem Cut.reconnect (b : Build) : Cut (Model.reconnect b) := by
  intro c l s
  have e : ∀ (s : List Answer) (k : Nat), s.length < k → Model.reconnect b ⟨c, l, s⟩ =
      Model.reconnectLoop b c.config k c.config.backoff.maxTries c.config.backoff.initialDelay .timeout ⟨c, l, s⟩ :=
    fun s k h => loop_fuel b c.config (s.length + 1) k _ _ _ ⟨c, l, s⟩ (Nat.lt_succ_self _) h
  obtain ⟨used, h1, h2, -, -⟩ := Cut.reconnectLoop b c.config (s.length + 1) c.config.backoff.maxTries
    c.config.backoff.initialDelay .timeout c l s
  rw [← e s _ (Nat.lt_succ_self _)] at h1 h2
  have all : ∀ t, (Model.reconnect b ⟨c, l, s⟩).2.log <+: (Model.reconnect b ⟨c, l, used ++ t⟩).2.log ∧
      ((Model.reconnect b ⟨c, l, s⟩).1 ≠ .error .dropped → Model.reconnect b ⟨c, l, used ++ t⟩ =
        ((Model.reconnect b ⟨c, l, s⟩).1,
          ⟨(Model.reconnect b ⟨c, l, s⟩).2.client, (Model.reconnect b ⟨c, l, s⟩).2.log, t⟩)) := by
    intro t
    have hk : s.length < s.length + t.length + 1 := by omega
    have hk' : (used ++ t).length < s.length + t.length + 1 := by
      rw [List.length_append]
      have := congrArg List.length h1
      rw [List.length_append] at this
      omega
    obtain ⟨used', g1, -, g3, g4⟩ := Cut.reconnectLoop b c.config (s.length + t.length + 1) c.config.backoff.maxTries
      c.config.backoff.initialDelay .timeout c l s
    rw [← e s _ hk] at g1 g3 g4
    have : used' = used := List.append_cancel_right (g1.symm.trans h1)
    subst this
    have g3 := g3 t
    rw [← e _ _ hk'] at g3
    refine ⟨g3, fun h => ?_⟩
    have g4 := g4 h t
    rw [← e _ _ hk'] at g4
    exact g4
  exact ⟨used, h1, h2, fun t => (all t).1, fun h t => (all t).2 h⟩

end Tmi.Proofs
