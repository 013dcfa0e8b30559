/-
Lemmas: what a call does depends on the client and on the script, not on what was seen before; a client that has just
connected, or received a message, has nothing left from its past.
-/
import Verif.Spec.LikeNew
import Verif.Proofs.Handshake
import Verif.Proofs.Sending
import Verif.Props.Connect

namespace Tmi.Proofs
open Tmi.Model Tmi.Spec

/-! ### Calls do not look at the log -/

/-- `x` only adds to the log, and does not look at it. -/
def Framed {α : Type} (x : Act α) : Prop :=
  ∀ c l s, x ⟨c, l, s⟩ =
    ((x ⟨c, [], s⟩).1, ⟨(x ⟨c, [], s⟩).2.client, l ++ (x ⟨c, [], s⟩).2.log, (x ⟨c, [], s⟩).2.script⟩)

theorem Framed.pure {α : Type} (a : α) : Framed (Pure.pure a : Act α) := by
  intro c l s; simp [Pure.pure]

theorem Framed.stop {α : Type} (e : Stop) : Framed (Model.stop e : Act α) := by
  intro c l s; simp [Model.stop]

theorem Framed.bind {α β : Type} {x : Act α} {f : α → Act β} (hx : Framed x) (hf : ∀ a, Framed (f a)) :
    Framed (x >>= f) := by
  intro c l s
  have h := hx c l s
  rw [act_bind, act_bind, h]
  rcases x ⟨c, [], s⟩ with ⟨r, c', l', s'⟩
  cases r with
  | error e => rfl
  | ok a =>
    simp only
    rw [hf a c' (l ++ l') s', hf a c' l' s']
    simp [List.append_assoc]

theorem Framed.next : Framed next := by
  intro c l s
  unfold Model.next
  rcases s with _ | ⟨a, rest⟩
  · simp
  · cases a <;> simp

theorem Framed.emit (e : Effect) : Framed (emit e) := by
  intro c l s; simp [Model.emit]

theorem Framed.getClient : Framed getClient := by
  intro c l s; simp [Model.getClient]

theorem Framed.setScratch (x : Bytes) : Framed (setScratch x) := by
  intro c l s; simp [Model.setScratch]

theorem Framed.takeScratch : Framed takeScratch := by
  intro c l s; simp [Model.takeScratch]

theorem Framed.setClosed (x : Bool) : Framed (setClosed x) := by
  intro c l s; simp [Model.setClosed]

theorem Framed.lift {α : Type} (r : R α) : Framed (lift r) := by
  cases r with
  | ok a => exact .pure a
  | error f => exact .stop _

theorem Framed.withTimeout {α : Type} {x : Act α} (d : Nat) (hx : Framed x) : Framed (withTimeout d x) := by
  intro c l s
  have h := hx c l s
  unfold Model.withTimeout
  rw [h]
  rcases x ⟨c, [], s⟩ with ⟨r, c', l', s'⟩
  cases r with
  | ok a => rfl
  | error e =>
    cases e with
    | elapsed n => cases n <;> rfl
    | dropped => rfl
    | panic f => rfl

theorem Framed.writeLoop : ∀ (rounds : Nat) (data : Bytes), Framed (writeLoop rounds data)
  | 0, _ => .pure _
  | rounds + 1, data => by
    rw [Model.writeLoop]
    split
    · exact .pure _
    · refine .bind .next fun a => ?_
      split
      · split
        · exact .pure _
        · exact .bind (.emit _) fun _ => Framed.writeLoop rounds _
      · exact .pure _
      · exact .stop _

theorem Framed.flush : Framed flush := by
  unfold Model.flush
  refine .bind .next fun a => ?_
  split
  · exact .bind (.emit _) fun _ => .pure _
  · exact .pure _
  · exact .stop _

theorem Framed.readerNext : Framed readerNext := by
  unfold Model.readerNext
  refine .bind .getClient fun c => ?_
  split
  · exact .pure _
  · refine .bind .next fun a => ?_
    split
    · exact .bind (.emit _) fun _ => .pure _
    · exact .pure _
    · exact .bind (.setClosed _) fun _ => .pure _
    · exact .stop _

theorem Framed.recv (b : Build) : Framed (recv b) := by
  unfold Model.recv
  refine .bind .readerNext fun r => ?_
  split
  · refine .bind (.lift _) fun m => ?_
    split <;> exact .pure _
  · exact .pure _
  · exact .pure _

theorem Framed.sendRaw (s : Bytes) : Framed (sendRaw s) := by
  unfold Model.sendRaw
  split
  · exact .pure _
  · refine .bind (.writeLoop _ _) fun r => ?_
    split <;> exact .pure _

theorem Framed.withScratch {α : Type} {body : Bytes → Act α} (h : ∀ s, Framed (body s)) : Framed (withScratch body) :=
  .bind .takeScratch fun s => .bind (h s) fun _ => .bind (.setScratch _) fun _ => .pure _

theorem Framed.send (c : Cmd) : Framed c.send := by
  cases c with
  | join channel =>
    refine .bind .takeScratch fun s => .bind (.sendRaw _) fun r => ?_
    split
    · exact .pure _
    · exact .bind (.setScratch _) fun _ => .pure _
  | raw s => exact .sendRaw s
  | privmsg _ _ _ _ => exact .withScratch fun _ => .sendRaw _
  | ping _ => exact .withScratch fun _ => .sendRaw _
  | pong _ => exact .withScratch fun _ => .sendRaw _
  | joinAll _ => exact .withScratch fun _ => .sendRaw _

theorem Framed.recvReply (b : Build) : Framed (recvReply b) := by
  unfold Model.recvReply
  refine .bind (.withTimeout _ (.recv b)) fun r => ?_
  split <;> exact .pure _

theorem Framed.awaitWelcome (b : Build) : Framed (awaitWelcome b) := by
  unfold Model.awaitWelcome
  refine .bind (.recvReply b) fun r => ?_
  split
  · exact .pure _
  · refine .bind (.lift _) fun r => ?_
    split
    · exact .pure _
    · refine .bind (.recvReply b) fun r => ?_
      split
      · exact .pure _
      · refine .bind (.lift _) fun r => ?_
        split <;> exact .pure _

theorem Framed.handshake (b : Build) : Framed (handshake b) := by
  unfold Model.handshake
  refine .bind .getClient fun c => .bind (.setScratch _) fun _ => .bind (.writeLoop _ _) fun r => ?_
  split
  · exact .pure _
  · refine .bind .flush fun r => ?_
    split
    · exact .pure _
    · exact .bind (.setScratch _) fun _ => .awaitWelcome b

theorem Framed.openStream : Framed openStream := by
  unfold Model.openStream
  refine .bind (.emit _) fun _ => .bind .next fun a => ?_
  split <;> first | exact .pure _ | exact .stop _

theorem Framed.sleep (d : Nat) : Framed (sleep d) := by
  unfold Model.sleep
  refine .bind (.emit _) fun _ => .bind .next fun a => ?_
  split <;> first | exact .pure _ | exact .stop _

theorem Framed.reconnectLoop (b : Build) (cfg : Config) : ∀ (fuel : Nat) (tries : Option Nat) (delay : Nat)
    (cause : ConnectError), Framed (reconnectLoop b cfg fuel tries delay cause)
  | 0, _, _, _ => .stop _
  | fuel + 1, tries, delay, cause => by
    rw [Model.reconnectLoop]
    split
    · exact .pure _
    · refine .bind (.sleep _) fun _ => .bind (.lift _) fun d => .bind (.withTimeout _ .openStream) fun r => ?_
      split
      · exact .pure _
      · exact Framed.reconnectLoop b cfg fuel _ _ _
      · refine .bind (.bind (.emit _) fun _ => .setClosed _) fun _ => .bind (.withTimeout _ (.handshake b)) fun r => ?_
        split
        · exact .pure _
        · split
          · exact Framed.reconnectLoop b cfg fuel _ _ _
          · exact .pure _
        · exact .pure _

theorem Framed.reconnect (b : Build) : Framed (reconnect b) := by
  intro c l s
  exact Framed.reconnectLoop b c.config (s.length + 1) c.config.backoff.maxTries c.config.backoff.initialDelay .timeout c l s

/-- A call gives the same, whatever was seen before. -/
theorem make_framed (b : Build) (k : Call) (c : Client) (l : List Effect) (s : List Answer) :
    k.make b ⟨c, l, s⟩ = ((k.make b ⟨c, [], s⟩).1,
      ⟨(k.make b ⟨c, [], s⟩).2.client, l ++ (k.make b ⟨c, [], s⟩).2.log, (k.make b ⟨c, [], s⟩).2.script⟩) := by
  cases k with
  | send cmd =>
    have h := Framed.send cmd c l s
    simp only [Call.make]; rw [h]
  | recv =>
    have h := Framed.recv b c l s
    simp only [Call.make]; rw [h]
  | reconnect =>
    have h := Framed.reconnect b c l s
    simp only [Call.make]; rw [h]

/-- A program makes the same calls, and they give the same, whatever was seen before. -/
theorem run_framed (b : Build) (p : Program) : ∀ (n : Nat) (before : List Gave) (c : Client) (l : List Effect)
    (s : List Answer), p.run b n before ⟨c, l, s⟩ = ((p.run b n before ⟨c, [], s⟩).1,
      ⟨(p.run b n before ⟨c, [], s⟩).2.client, l ++ (p.run b n before ⟨c, [], s⟩).2.log,
        (p.run b n before ⟨c, [], s⟩).2.script⟩)
  | 0, before, c, l, s => by simp [Program.run]
  | n + 1, before, c, l, s => by
    rw [Program.run, Program.run]
    cases p before with
    | none => simp
    | some k =>
      simp only
      rw [make_framed b k c l s]
      rcases k.make b ⟨c, [], s⟩ with ⟨g, c', l', s'⟩
      simp only
      rw [run_framed b p n _ c' (l ++ l') s', run_framed b p n _ c' l' s']
      simp [List.append_assoc]

/-- Clients in the same state cannot be told apart. -/
theorem alike_of_client {b : Build} {w₁ w₂ : World} (h : w₁.client = w₂.client) : SameFromNow b w₁ w₂ := by
  intro p n before answers
  simp only
  have e₁ := run_framed b p n before w₁.client w₁.log answers
  have e₂ := run_framed b p n before w₂.client w₂.log answers
  rw [e₁, e₂, h]
  exact ⟨rfl, ⟨_, rfl, rfl⟩, rfl⟩

/-! ### A client that has just received something is open -/

theorem recv_ok_open {b : Build} {w : World} {m : MsgOwned} (h : (recv b w).1 = .ok (.ok m)) :
    (recv b w).2.client = { w.client with closed := false } := by
  revert h
  rw [recv_run]
  by_cases hc : w.client.closed = true
  · simp [hc]
  · have hc' : w.client.closed = false := by simpa using hc
    have e : ({ w.client with closed := false } : Client) = w.client := by
      rw [← hc']
    rw [if_neg hc]
    split <;> try (simp; done)
    split
    · simp
    · simp
    · intro _
      exact e.symm

theorem withTimeout_ok {α : Type} {d : Nat} {x : Act α} {w : World} {a : α} (h : (withTimeout d x w).1 = .ok (.ok a)) :
    (x w).1 = .ok a ∧ (withTimeout d x w).2 = (x w).2 := by
  revert h
  unfold Model.withTimeout
  rcases x w with ⟨r, w'⟩
  cases r with
  | ok a' => simp
  | error e =>
    cases e with
    | elapsed n => cases n <;> simp
    | dropped => simp
    | panic f => simp

theorem recvReply_ok_open {b : Build} {w : World} {m : MsgOwned} (h : (recvReply b w).1 = .ok (.ok m)) :
    (recvReply b w).2.client = { w.client with closed := false } := by
  revert h
  unfold Model.recvReply
  rw [act_bind]
  have hw := @withTimeout_ok _ 5000000000 (recv b) w
  rcases hr : withTimeout 5000000000 (recv b) w with ⟨r, w'⟩
  rw [hr] at hw
  cases r with
  | error e => simp
  | ok r =>
    cases r with
    | error e => simp [Pure.pure]
    | ok r =>
      cases r with
      | error e => simp [Pure.pure]
      | ok m' =>
        obtain ⟨h1, h2⟩ := hw rfl
        simp only at h2
        simp only [Pure.pure]
        intro _
        rw [h2]
        exact recv_ok_open h1

theorem lift_world {α : Type} (r : R α) (w : World) : (lift r w).2 = w := by
  cases r <;> rfl

theorem awaitWelcome_ok_open {b : Build} {w : World} (h : (awaitWelcome b w).1 = .ok (.ok ())) :
    (awaitWelcome b w).2.client = { w.client with closed := false } := by
  revert h
  unfold Model.awaitWelcome
  rw [act_bind]
  split <;> try (simp; done)
  rename_i w1 _ h1
  split
  · simp [Pure.pure]
  · have e1 := recvReply_ok_open (congrArg Prod.fst h1)
    rw [h1] at e1
    rw [act_bind]
    split <;> try (simp; done)
    rename_i w2 _ h2
    have l2 := (congrArg Prod.snd h2).symm.trans (lift_world _ _)
    split
    · simp [Pure.pure]
    · rw [act_bind]
      split <;> try (simp; done)
      rename_i w3 _ h3
      split
      · simp [Pure.pure]
      · have e3 := recvReply_ok_open (congrArg Prod.fst h3)
        rw [h3] at e3
        rw [act_bind]
        split <;> try (simp; done)
        rename_i w4 _ h4
        have l4 := (congrArg Prod.snd h4).symm.trans (lift_world _ _)
        simp only at e1 l2 e3 l4
        split
        · simp [Pure.pure]
        · intro _
          simp only [Pure.pure]
          rw [l4, e3, l2, e1]

/-- A greeting that succeeded leaves an open client. -/
theorem handshake_ok_open {b : Build} {w : World} (h : (handshake b w).1 = .ok (.ok ())) :
    (handshake b w).2.client.closed = false := by
  revert h
  unfold Model.handshake
  simp only [act_bind, Model.getClient, Model.setScratch]
  split
  · rename_i r w1 _
    split
    · simp [Pure.pure]
    · rw [act_bind]
      split
      · split
        · simp [Pure.pure]
        · simp only [act_bind, Model.setScratch]
          intro h
          rw [awaitWelcome_ok_open h]
      · simp
  · simp

theorem reconnectLoop_ok_open (b : Build) (cfg : Config) : ∀ (fuel : Nat) (tries : Option Nat) (delay : Nat)
    (cause : ConnectError) (w : World), (reconnectLoop b cfg fuel tries delay cause w).1 = .ok (.ok ()) →
    (reconnectLoop b cfg fuel tries delay cause w).2.client.closed = false
  | 0, _, _, _, _ => by simp [Model.reconnectLoop, Model.stop]
  | fuel + 1, tries, delay, cause, w => by
    rw [Model.reconnectLoop]
    split
    · simp [Pure.pure]
    · simp only [act_bind]
      split <;> try (simp; done)
      split <;> try (simp; done)
      split <;> try (simp; done)
      split
      · simp [Pure.pure]
      · exact reconnectLoop_ok_open b cfg fuel _ _ _ _
      · rw [act_bind]
        split <;> try (simp; done)
        rw [act_bind]
        split <;> try (simp; done)
        rename_i hw
        split
        · simp [Pure.pure]
        · split
          · exact reconnectLoop_ok_open b cfg fuel _ _ _ _
          · simp [Pure.pure]
        · intro _
          have h1 := withTimeout_ok (congrArg Prod.fst hw)
          have h2 := congrArg Prod.snd hw
          rw [h1.2] at h2
          simp only [Pure.pure] at h2 ⊢
          rw [← h2]
          exact handshake_ok_open h1.1

/-- After a `reconnect` that succeeded the client is as if it had just been made. -/
theorem reconnect_ok_client {b : Build} {w : World} (h : (reconnect b w).1 = .ok (.ok ())) :
    (reconnect b w).2.client = ⟨false, [], w.client.config⟩ := by
  have h1 : (reconnect b w).2.client.closed = false := reconnectLoop_ok_open b w.client.config _ _ _ _ w h
  obtain ⟨ev, -, -, h2, -⟩ := Props.C40_copies b w
  have h2 := (h2 h).2.2
  have h3 : (reconnect b w).2.client.config = w.client.config :=
    (reconnectLoop_effect b w.client.config (w.script.length + 1)
      w.client.config.backoff.maxTries w.client.config.backoff.initialDelay .timeout w).config
  generalize (reconnect b w).2.client = c at h1 h2 h3
  cases c
  simp_all

theorem handshake_ok_client {b : Build} {w : World} (h : (handshake b w).1 = .ok (.ok ())) :
    (handshake b w).2.client = ⟨false, [], w.client.config⟩ := by
  have h1 := handshake_ok_open h
  have e := handshake_effect b w
  have h3 := e.config
  rw [h] at e
  have h2 := e.ok_scratch
  generalize (handshake b w).2.client = c at h1 h2 h3
  cases c
  simp_all

/-- After a `connect` that succeeded the client is new. -/
theorem connect_ok_client {b : Build} {cfg : Config} {w : World} (h : (connect b cfg w).1 = .ok (.ok ())) :
    (connect b cfg w).2.client = ⟨false, [], cfg⟩ := by
  revert h
  unfold Model.connect
  rw [act_bind]
  split <;> try (simp; done)
  split
  · rw [act_bind]
    split <;> try (simp; done)
    split
    · simp [Pure.pure]
    · simp [Pure.pure]
    · simp only [act_bind, Model.emit, Model.setClient]
      split <;> try (simp; done)
      rename_i hw
      split
      · simp [Pure.pure]
      · intro hok
        simp only [Pure.pure] at hok ⊢
        cases hok
        have h1 := withTimeout_ok (congrArg Prod.fst hw)
        have h2 := congrArg Prod.snd hw
        rw [h1.2] at h2
        simp only at h2
        rw [← h2]
        exact handshake_ok_client h1.1
  · simp [Pure.pure]
  · simp [Model.stop]

end Tmi.Proofs
