/-
Lemmas: a client in a program built without overflow checks does what it does in one built with them.
-/
import Verif.Proofs.Builds
import Verif.Spec.Builds

namespace Tmi.Proofs
open Tmi.Model Tmi.Spec Tmi.Props

/-- The second build makes the same of the line, up to the note that it has no overflow checks. -/
def FreedOn (b b' : Build) (s : Bytes) : Prop :=
  MsgOwned.parse b' s = (MsgOwned.parse b s).map (Option.map uncheckedOwned)

def FreedIn (b b' : Build) (script : List Answer) : Prop := ∀ s, .line s ∈ script → FreedOn b b' s

theorem freedIn_suffix {b b' : Build} {s t : List Answer} (h : FreedIn b b' s) (ht : t <:+ s) : FreedIn b b' t :=
  fun x hx => h x (ht.subset hx)

variable {α β γ δ : Type} {b b' : Build}

/-- `y` does what `x` does, and returns what it returns, changed by `f`. -/
def Freed (b b' : Build) (Q : α → Prop) (f : α → β) (x : Act α) (y : Act β) : Prop :=
  ∀ w, FreedIn b b' w.script → y w = ((x w).1.map f, (x w).2) ∧ (x w).2.script <:+ w.script ∧
    ∀ a, (x w).1 = .ok a → Q a

theorem Freed.same {Q : α → Prop} {x : Act α} (h : Alike b b Q x x) : Freed b b' Q id x x := by
  intro w _
  obtain ⟨-, h2, h3⟩ := h w fun _ _ => rfl
  refine ⟨?_, h2, h3⟩
  rcases x w with ⟨r, w'⟩
  cases r <;> rfl

theorem Freed.pure {Q : α → Prop} {f : α → β} {a : α} (h : Q a) :
    Freed b b' Q f (Pure.pure a : Act α) (Pure.pure (f a)) :=
  fun _ _ => ⟨rfl, List.suffix_refl _, fun a' h' => by simp only [Pure.pure, Except.ok.injEq] at h'; exact h' ▸ h⟩

theorem Freed.stop {Q : α → Prop} {f : α → β} {e : Stop} : Freed b b' Q f (Model.stop e : Act α) (Model.stop e) :=
  fun _ _ => ⟨rfl, List.suffix_refl _, fun a h' => by simp [Model.stop] at h'⟩

theorem Freed.lift {f : α → β} {r : R α} : Freed b b' (fun _ => True) f (lift r) (lift (r.map f)) := by
  cases r with
  | ok a => exact .pure trivial
  | error e => exact .stop

theorem Freed.bind {Q : α → Prop} {P : γ → Prop} {f : α → β} {g : γ → δ} {x : Act α} {y : Act β} {k : α → Act γ}
    {k' : β → Act δ} (hx : Freed b b' Q f x y) (hk : ∀ a, Q a → Freed b b' P g (k a) (k' (f a))) :
    Freed b b' P g (x >>= k) (y >>= k') := by
  intro w hw
  obtain ⟨h1, h2, h3⟩ := hx w hw
  rw [act_bind, act_bind, h1]
  rcases hr : x w with ⟨r, w'⟩
  rw [hr] at h2 h3
  cases r with
  | error e => exact ⟨rfl, h2, fun a h => by simp at h⟩
  | ok a =>
    obtain ⟨k1, k2, k3⟩ := hk a (h3 a rfl) w' (freedIn_suffix hw h2)
    exact ⟨k1, k2.trans h2, k3⟩

theorem Freed.withTimeout {Q : α → Prop} {f : α → β} {x : Act α} {y : Act β} (d : Nat) (hx : Freed b b' Q f x y) :
    Freed b b' (fun _ => True) (Except.map f) (withTimeout d x) (withTimeout d y) := by
  intro w hw
  obtain ⟨h1, h2, -⟩ := hx w hw
  unfold Model.withTimeout
  rw [h1]
  rcases hr : x w with ⟨r, w'⟩
  rw [hr] at h2
  cases r with
  | ok a => exact ⟨rfl, h2, fun _ _ => trivial⟩
  | error e =>
    cases e with
    | elapsed n => cases n <;> exact ⟨rfl, h2, fun _ _ => trivial⟩
    | dropped => exact ⟨rfl, h2, fun _ _ => trivial⟩
    | panic f => exact ⟨rfl, h2, fun _ _ => trivial⟩

theorem Freed.next : Freed b b' (fun a => ∀ s, a = .line s → FreedOn b b' s) id Model.next Model.next := by
  intro w hw
  unfold Model.next
  rcases hs : w.script with _ | ⟨a, rest⟩
  · exact ⟨rfl, by simp [hs], by simp⟩
  · have hl : ∀ s, a = .line s → FreedOn b b' s := fun s h => hw s (by rw [hs, h]; exact List.mem_cons_self ..)
    cases a <;> first
      | (refine ⟨rfl, List.suffix_cons .., fun a h => ?_⟩
         simp only [Except.ok.injEq] at h
         subst h
         exact hl)
      | exact ⟨rfl, List.suffix_cons .., by simp⟩

theorem Freed.readerNext :
    Freed b b' (fun r => ∀ s, r = some (.ok s) → FreedOn b b' s) id Model.readerNext Model.readerNext := by
  unfold Model.readerNext
  refine .bind (.same .getClient) fun c _ => ?_
  simp only [id]
  split
  · exact .pure (f := id) (by simp)
  · refine .bind .next fun a ha => ?_
    simp only [id]
    split
    · refine .bind (.same (.emit _)) fun _ _ => .pure (f := id) fun s h => ?_
      injection h with h
      injection h with h
      subst h
      exact ha _ rfl
    · exact .pure (f := id) (by simp)
    · exact .bind (.same (.setClosed _)) fun _ _ => .pure (f := id) (by simp)
    · exact .stop

theorem Freed.recv : Freed b b' (fun _ => True) (Except.map uncheckedOwned) (Model.recv b) (Model.recv b') := by
  unfold Model.recv
  refine .bind .readerNext fun r hr => ?_
  simp only [id]
  split
  · rw [show MsgOwned.parse b' _ = _ from hr _ rfl]
    refine .bind .lift fun m _ => ?_
    cases m with
    | none => exact .pure (f := Except.map uncheckedOwned) trivial
    | some m => exact .pure (f := Except.map uncheckedOwned) trivial
  · exact .pure (f := Except.map uncheckedOwned) trivial
  · exact .pure (f := Except.map uncheckedOwned) trivial

/-- What a result of connecting becomes. -/
def freedResult : Except ConnectError γ → Except ConnectError γ := Except.mapError uncheckedError

/-- What a reply becomes. -/
def freedReply : Except ConnectError MsgOwned → Except ConnectError MsgOwned
  | .error e => .error (uncheckedError e)
  | .ok m => .ok (uncheckedOwned m)

theorem Freed.recvReply : Freed b b' (fun _ => True) freedReply (Model.recvReply b) (Model.recvReply b') := by
  unfold Model.recvReply
  refine .bind (.withTimeout _ .recv) fun r _ => ?_
  rcases r with _ | _ | _
  · exact .pure (f := freedReply) trivial
  · exact .pure (f := freedReply) trivial
  · exact .pure (f := freedReply) trivial

theorem checkCap_freed (m : MsgOwned) : checkCap (uncheckedOwned m) = (checkCap m).map (Option.map uncheckedError) := by
  unfold checkCap
  have hc : (uncheckedOwned m).command = m.command := rfl
  have hp : (uncheckedOwned m).params = m.params := rfl
  rw [hc, hp]
  cases m.command with
  | error f => rfl
  | ok c =>
    simp only [Model.bind_ok]
    cases c with
    | capability =>
      simp only []
      cases m.params with
      | error f => rfl
      | ok v =>
        simp only [Model.bind_ok]
        cases v with
        | none => rfl
        | some v => simp only []; split <;> rfl
    | _ => rfl

theorem checkWelcome_freed (m : MsgOwned) :
    checkWelcome (uncheckedOwned m) = (checkWelcome m).map (Option.map uncheckedError) := by
  unfold checkWelcome
  have hc : (uncheckedOwned m).command = m.command := rfl
  have hp : (uncheckedOwned m).params = m.params := rfl
  rw [hc, hp]
  cases m.command with
  | error f => rfl
  | ok c =>
    simp only [Model.bind_ok]
    cases c with
    | notice =>
      simp only []
      cases m.params with
      | error f => rfl
      | ok v =>
        simp only [Model.bind_ok]
        cases v with
        | none => rfl
        | some v => simp only []; split <;> rfl
    | _ => rfl

theorem Freed.awaitWelcome : Freed b b' (fun _ => True) freedResult (Model.awaitWelcome b) (Model.awaitWelcome b') := by
  unfold Model.awaitWelcome
  refine .bind .recvReply fun r _ => ?_
  cases r with
  | error e => exact .pure (f := freedResult) trivial
  | ok m =>
    simp only [freedReply]
    rw [checkCap_freed]
    refine .bind .lift fun o _ => ?_
    cases o with
    | some e => exact .pure (f := freedResult) trivial
    | none =>
      refine .bind .recvReply fun r _ => ?_
      cases r with
      | error e => exact .pure (f := freedResult) trivial
      | ok m =>
        simp only [freedReply]
        rw [checkWelcome_freed]
        refine .bind .lift fun o _ => ?_
        cases o with
        | some e => exact .pure (f := freedResult) trivial
        | none => exact .pure (f := freedResult) trivial

theorem Freed.handshake : Freed b b' (fun _ => True) freedResult (Model.handshake b) (Model.handshake b') := by
  unfold Model.handshake
  refine .bind (.same .getClient) fun c _ => .bind (.same (.setScratch _)) fun _ _ =>
    .bind (.same (.writeLoop _ _)) fun r _ => ?_
  simp only [id]
  split
  · exact .pure (f := freedResult) trivial
  · refine .bind (.same .flush) fun r _ => ?_
    simp only [id]
    split
    · exact .pure (f := freedResult) trivial
    · exact .bind (.same (.setScratch _)) fun _ _ => .awaitWelcome

theorem Freed.connect (cfg : Config) :
    Freed b b' (fun _ => True) freedResult (Model.connect b cfg) (Model.connect b' cfg) := by
  unfold Model.connect
  refine .bind (.same .next) fun a _ => ?_
  simp only [id]
  split
  · refine .bind (.same (.withTimeout _ .openStream)) fun r _ => ?_
    simp only [id]
    split
    · exact .pure (f := freedResult) trivial
    · exact .pure (f := freedResult) trivial
    · refine .bind (.same (.emit _)) fun _ _ => .bind (.same (.setClient _)) fun _ _ =>
        .bind (.withTimeout _ .handshake) fun r _ => ?_
      cases r with
      | error u => exact .pure (f := freedResult) trivial
      | ok r => exact .pure (f := freedResult) trivial
  · exact .pure (f := freedResult) trivial
  · exact .stop

theorem shouldRetry_freed (e : ConnectError) : (uncheckedError e).shouldRetry = e.shouldRetry := by
  cases e <;> rfl

theorem Freed.reconnectLoop (cfg : Config) : ∀ (fuel : Nat) (tries : Option Nat) (delay : Nat) (cause : ConnectError),
    Freed b b' (fun _ => True) freedResult (Model.reconnectLoop b cfg fuel tries delay cause)
      (Model.reconnectLoop b' cfg fuel tries delay (uncheckedError cause))
  | 0, _, _, _ => .stop
  | fuel + 1, tries, delay, cause => by
    rw [Model.reconnectLoop, Model.reconnectLoop]
    split
    · exact .pure (f := freedResult) trivial
    · refine .bind (.same (.sleep _)) fun _ _ => .bind (.same .lift) fun d _ =>
        .bind (.same (.withTimeout _ .openStream)) fun r _ => ?_
      simp only [id]
      split
      · exact .pure (f := freedResult) trivial
      · exact Freed.reconnectLoop cfg fuel _ _ (.open_ _)
      · refine .bind (.same .useStream) fun _ _ => .bind (.withTimeout _ .handshake) fun r _ => ?_
        cases r with
        | error u => exact .pure (f := freedResult) trivial
        | ok r =>
          cases r with
          | error e =>
            simp only [Except.map, freedResult, Except.mapError, shouldRetry_freed]
            split
            · exact Freed.reconnectLoop cfg fuel _ _ e
            · exact .pure (f := freedResult) trivial
          | ok u => exact .pure (f := freedResult) trivial

theorem Freed.reconnect : Freed b b' (fun _ => True) freedResult (Model.reconnect b) (Model.reconnect b') :=
  fun w hw => Freed.reconnectLoop w.client.config _ _ _ .timeout w hw

theorem Freed.make (k : Call) (w : World) (hw : FreedIn b b' w.script) :
    k.make b' w = (uncheckedGave (k.make b w).1, (k.make b w).2) ∧ (k.make b w).2.script <:+ w.script := by
  cases k with
  | send c => exact ⟨rfl, (Alike.send (b := b) (b' := b) c w fun _ _ => rfl).2.1⟩
  | recv =>
    obtain ⟨h1, h2, -⟩ := Freed.recv (b := b) (b' := b') w hw
    refine ⟨?_, h2⟩
    simp only [Call.make, h1]
    rcases Model.recv b w with ⟨r, w'⟩
    rcases r with _ | _ | _ <;> rfl
  | reconnect =>
    obtain ⟨h1, h2, -⟩ := Freed.reconnect (b := b) (b' := b') w hw
    refine ⟨?_, h2⟩
    simp only [Call.make, h1]
    rcases Model.reconnect b w with ⟨r, w'⟩
    rcases r with _ | _ | _ <;> rfl

theorem Freed.run (p : Program) (hp : ∀ gs, p (gs.map uncheckedGave) = p gs) : ∀ (n : Nat) (before : List Gave)
    (w : World), FreedIn b b' w.script →
    p.run b' n (before.map uncheckedGave) w = ((p.run b n before w).1.map uncheckedGave, (p.run b n before w).2)
  | 0, _, _, _ => rfl
  | n + 1, before, w, hw => by
    rw [Program.run, Program.run, hp]
    cases p before with
    | none => rfl
    | some k =>
      obtain ⟨h1, h2⟩ := Freed.make (b := b) (b' := b') k w hw
      simp only
      rw [h1]
      have := Freed.run p hp n (before ++ [(k.make b w).1]) (k.make b w).2 (freedIn_suffix hw h2)
      rw [List.map_append] at this
      exact this

end Tmi.Proofs
