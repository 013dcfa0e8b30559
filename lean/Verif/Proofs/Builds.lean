/-
Lemmas: what a client does depends on the build only by what it makes of the lines it gets.
-/
import Verif.Proofs.Calm
import Verif.Model.Bot
import Verif.Model.Net
import Verif.Props.Vector

namespace Tmi.Proofs
open Tmi.Model Tmi.Spec Tmi.Props

/-- Two builds make the same of the line. -/
def AlikeOn (b b' : Build) (s : Bytes) : Prop := MsgOwned.parse b s = MsgOwned.parse b' s

/-- Two builds make the same of every line of the script. -/
def AlikeIn (b b' : Build) (script : List Answer) : Prop := ∀ s, .line s ∈ script → AlikeOn b b' s

theorem alikeIn_suffix {b b' : Build} {s t : List Answer} (h : AlikeIn b b' s) (ht : t <:+ s) : AlikeIn b b' t :=
  fun x hx => h x (ht.subset hx)

variable {α β : Type} {b b' : Build}

/-- `x` and `y` do the same when the builds make the same of the lines that are there, and use up some of the world's
answers; what they return is `Q`. -/
def Alike (b b' : Build) (Q : α → Prop) (x y : Act α) : Prop :=
  ∀ w, AlikeIn b b' w.script → x w = y w ∧ (y w).2.script <:+ w.script ∧ ∀ a, (y w).1 = .ok a → Q a

theorem Alike.same {Q : α → Prop} {x : Act α} (h : ∀ w, (x w).2.script <:+ w.script) (hq : ∀ a, Q a) : Alike b b' Q x x :=
  fun w _ => ⟨rfl, h w, fun a _ => hq a⟩

theorem Alike.pure {Q : α → Prop} {a : α} (h : Q a) : Alike b b' Q (Pure.pure a : Act α) (Pure.pure a) :=
  fun _ _ => ⟨rfl, List.suffix_refl _, fun a' h' => by simp only [Pure.pure, Except.ok.injEq] at h'; exact h' ▸ h⟩

theorem Alike.stop {Q : α → Prop} {e : Stop} : Alike b b' Q (Model.stop e : Act α) (Model.stop e) :=
  fun _ _ => ⟨rfl, List.suffix_refl _, fun a h' => by simp [Model.stop] at h'⟩

theorem Alike.lift {r : R α} : Alike b b' (fun _ => True) (lift r) (lift r) := by
  cases r with
  | ok a => exact .pure trivial
  | error f => exact .stop

theorem Alike.bind {Q : α → Prop} {P : β → Prop} {x y : Act α} {f g : α → Act β} (hx : Alike b b' Q x y)
    (hf : ∀ a, Q a → Alike b b' P (f a) (g a)) : Alike b b' P (x >>= f) (y >>= g) := by
  intro w hw
  obtain ⟨h1, h2, h3⟩ := hx w hw
  rw [act_bind, act_bind, h1]
  rcases hr : y w with ⟨r, w'⟩
  rw [hr] at h2 h3
  cases r with
  | error e => exact ⟨rfl, h2, fun a h => by simp at h⟩
  | ok a =>
    obtain ⟨k1, k2, k3⟩ := hf a (h3 a rfl) w' (alikeIn_suffix hw h2)
    exact ⟨k1, k2.trans h2, k3⟩

theorem Alike.next : Alike b b' (fun a => ∀ s, a = .line s → AlikeOn b b' s) Model.next Model.next := by
  intro w hw
  refine ⟨rfl, ?_⟩
  unfold Model.next
  rcases hs : w.script with _ | ⟨a, rest⟩
  · exact ⟨by simp [hs], by simp⟩
  · have hl : ∀ s, a = .line s → AlikeOn b b' s := fun s h => hw s (by rw [hs, h]; exact List.mem_cons_self ..)
    cases a <;> first
      | (refine ⟨List.suffix_cons .., fun a h => ?_⟩
         simp only [Except.ok.injEq] at h
         subst h
         exact hl)
      | exact ⟨List.suffix_cons .., by simp⟩

theorem Alike.emit (e : Effect) : Alike b b' (fun _ => True) (Model.emit e) (Model.emit e) :=
  .same (fun _ => List.suffix_refl _) fun _ => trivial

theorem Alike.getClient : Alike b b' (fun _ => True) Model.getClient Model.getClient :=
  .same (fun _ => List.suffix_refl _) fun _ => trivial

theorem Alike.setClient (c : Client) : Alike b b' (fun _ => True) (Model.setClient c) (Model.setClient c) :=
  .same (fun _ => List.suffix_refl _) fun _ => trivial

theorem Alike.setScratch (x : Bytes) : Alike b b' (fun _ => True) (Model.setScratch x) (Model.setScratch x) :=
  .same (fun _ => List.suffix_refl _) fun _ => trivial

theorem Alike.setClosed (x : Bool) : Alike b b' (fun _ => True) (Model.setClosed x) (Model.setClosed x) :=
  .same (fun _ => List.suffix_refl _) fun _ => trivial

theorem Alike.withTimeout {Q : α → Prop} {x y : Act α} (d : Nat) (hx : Alike b b' Q x y) :
    Alike b b' (fun _ => True) (withTimeout d x) (withTimeout d y) := by
  intro w hw
  obtain ⟨h1, h2, -⟩ := hx w hw
  unfold Model.withTimeout
  rw [h1]
  refine ⟨rfl, ?_, fun _ _ => trivial⟩
  rcases hr : y w with ⟨r, w'⟩
  rw [hr] at h2
  cases r with
  | ok a => exact h2
  | error e =>
    cases e with
    | elapsed n => cases n <;> exact h2
    | dropped => exact h2
    | panic f => exact h2

/-- What does not depend on the lines uses up some of the world's answers: every script is harmless to it. -/
theorem Alike.writeLoop : ∀ (rounds : Nat) (data : Bytes),
    Alike b b' (fun _ => True) (Model.writeLoop rounds data) (Model.writeLoop rounds data)
  | 0, _ => .pure trivial
  | rounds + 1, data => by
    rw [Model.writeLoop]
    split
    · exact .pure trivial
    · refine .bind .next fun a _ => ?_
      split
      · split
        · exact .pure trivial
        · exact .bind (.emit _) fun _ _ => Alike.writeLoop rounds _
      · exact .pure trivial
      · exact .stop

theorem Alike.flush : Alike b b' (fun _ => True) Model.flush Model.flush := by
  unfold Model.flush
  refine .bind .next fun a _ => ?_
  split
  · exact .bind (.emit _) fun _ _ => .pure trivial
  · exact .pure trivial
  · exact .stop

theorem Alike.readerNext : Alike b b' (fun r => ∀ s, r = some (.ok s) → AlikeOn b b' s) Model.readerNext Model.readerNext := by
  unfold Model.readerNext
  refine .bind .getClient fun c _ => ?_
  split
  · exact .pure (by simp)
  · refine .bind .next fun a ha => ?_
    split
    · refine .bind (.emit _) fun _ _ => .pure fun s h => ?_
      injection h with h
      injection h with h
      subst h
      exact ha _ rfl
    · exact .pure (by simp)
    · exact .bind (.setClosed _) fun _ _ => .pure (by simp)
    · exact .stop

theorem Alike.recv : Alike b b' (fun _ => True) (Model.recv b) (Model.recv b') := by
  unfold Model.recv
  refine .bind .readerNext fun r hr => ?_
  split
  · rw [show MsgOwned.parse b _ = MsgOwned.parse b' _ from hr _ rfl]
    refine .bind .lift fun m _ => ?_
    split <;> exact .pure trivial
  · exact .pure trivial
  · exact .pure trivial

theorem Alike.takeScratch : Alike b b' (fun _ => True) Model.takeScratch Model.takeScratch :=
  .same (fun _ => List.suffix_refl _) fun _ => trivial

theorem Alike.sendRaw (s : Bytes) : Alike b b' (fun _ => True) (Model.sendRaw s) (Model.sendRaw s) := by
  unfold Model.sendRaw
  split
  · exact .pure trivial
  · refine .bind (.writeLoop _ _) fun r _ => ?_
    split <;> exact .pure trivial

theorem Alike.withScratch {body : Bytes → Act α} (h : ∀ s, Alike b b' (fun _ => True) (body s) (body s)) :
    Alike b b' (fun _ => True) (Model.withScratch body) (Model.withScratch body) :=
  .bind .takeScratch fun s _ => .bind (h s) fun _ _ => .bind (.setScratch _) fun _ _ => .pure trivial

theorem Alike.send (c : Cmd) : Alike b b' (fun _ => True) c.send c.send := by
  cases c with
  | join channel =>
    refine .bind .takeScratch fun s _ => .bind (.sendRaw _) fun r _ => ?_
    split
    · exact .pure trivial
    · exact .bind (.setScratch _) fun _ _ => .pure trivial
  | raw s => exact .sendRaw s
  | privmsg _ _ _ _ => exact .withScratch fun _ => .sendRaw _
  | ping _ => exact .withScratch fun _ => .sendRaw _
  | pong _ => exact .withScratch fun _ => .sendRaw _
  | joinAll _ => exact .withScratch fun _ => .sendRaw _

theorem Alike.recvReply : Alike b b' (fun _ => True) (Model.recvReply b) (Model.recvReply b') := by
  unfold Model.recvReply
  refine .bind (.withTimeout _ .recv) fun r _ => ?_
  split <;> exact .pure trivial

theorem Alike.awaitWelcome : Alike b b' (fun _ => True) (Model.awaitWelcome b) (Model.awaitWelcome b') := by
  unfold Model.awaitWelcome
  refine .bind .recvReply fun r _ => ?_
  split
  · exact .pure trivial
  · refine .bind .lift fun o _ => ?_
    split
    · exact .pure trivial
    · refine .bind .recvReply fun r _ => ?_
      split
      · exact .pure trivial
      · refine .bind .lift fun o _ => ?_
        split <;> exact .pure trivial

theorem Alike.handshake : Alike b b' (fun _ => True) (Model.handshake b) (Model.handshake b') := by
  unfold Model.handshake
  refine .bind .getClient fun c _ => .bind (.setScratch _) fun _ _ => .bind (.writeLoop _ _) fun r _ => ?_
  split
  · exact .pure trivial
  · refine .bind .flush fun r _ => ?_
    split
    · exact .pure trivial
    · exact .bind (.setScratch _) fun _ _ => .awaitWelcome

theorem Alike.openStream : Alike b b' (fun _ => True) Model.openStream Model.openStream := by
  unfold Model.openStream
  refine .bind (.emit _) fun _ _ => .bind .next fun a _ => ?_
  split <;> first | exact .pure trivial | exact .stop

theorem Alike.sleep (d : Nat) : Alike b b' (fun _ => True) (Model.sleep d) (Model.sleep d) := by
  unfold Model.sleep
  refine .bind (.emit _) fun _ _ => .bind .next fun a _ => ?_
  split <;> first | exact .pure trivial | exact .stop

theorem Alike.useStream : Alike b b' (fun _ => True) Model.useStream Model.useStream :=
  .bind (.emit _) fun _ _ => .setClosed _

theorem Alike.connect (cfg : Config) : Alike b b' (fun _ => True) (Model.connect b cfg) (Model.connect b' cfg) := by
  unfold Model.connect
  refine .bind .next fun a _ => ?_
  split
  · refine .bind (.withTimeout _ .openStream) fun r _ => ?_
    split
    · exact .pure trivial
    · exact .pure trivial
    · refine .bind (.emit _) fun _ _ => .bind (.setClient _) fun _ _ => .bind (.withTimeout _ .handshake) fun r _ => ?_
      split <;> exact .pure trivial
  · exact .pure trivial
  · exact .stop

theorem Alike.reconnectLoop (cfg : Config) : ∀ (fuel : Nat) (tries : Option Nat) (delay : Nat) (cause : ConnectError),
    Alike b b' (fun _ => True) (Model.reconnectLoop b cfg fuel tries delay cause) (Model.reconnectLoop b' cfg fuel tries delay cause)
  | 0, _, _, _ => .stop
  | fuel + 1, tries, delay, cause => by
    rw [Model.reconnectLoop, Model.reconnectLoop]
    split
    · exact .pure trivial
    · refine .bind (.sleep _) fun _ _ => .bind .lift fun d _ => .bind (.withTimeout _ .openStream) fun r _ => ?_
      split
      · exact .pure trivial
      · exact Alike.reconnectLoop cfg fuel _ _ _
      · refine .bind .useStream fun _ _ => .bind (.withTimeout _ .handshake) fun r _ => ?_
        split
        · exact .pure trivial
        · split
          · exact Alike.reconnectLoop cfg fuel _ _ _
          · exact .pure trivial
        · exact .pure trivial

theorem Alike.reconnect : Alike b b' (fun _ => True) (Model.reconnect b) (Model.reconnect b') :=
  fun w hw => Alike.reconnectLoop w.client.config _ _ _ _ w hw

theorem Alike.run (p : Program) : ∀ (n : Nat) (before : List Gave) (w : World), AlikeIn b b' w.script →
    p.run b n before w = p.run b' n before w
  | 0, _, _, _ => rfl
  | n + 1, before, w, hw => by
    rw [Program.run, Program.run]
    cases p before with
    | none => rfl
    | some k =>
      have hk : k.make b w = k.make b' w ∧ (k.make b' w).2.script <:+ w.script := by
        cases k with
        | send c => exact ⟨rfl, (Alike.send (b := b) (b' := b') c w hw).2.1⟩
        | recv =>
          obtain ⟨h1, h2, -⟩ := Alike.recv (b := b) (b' := b') w hw
          exact ⟨by simp only [Call.make, h1], h2⟩
        | reconnect =>
          obtain ⟨h1, h2, -⟩ := Alike.reconnect (b := b) (b' := b') w hw
          exact ⟨by simp only [Call.make, h1], h2⟩
      simp only
      rw [hk.1]
      exact Alike.run p n _ _ (alikeIn_suffix hw hk.2)

end Tmi.Proofs
