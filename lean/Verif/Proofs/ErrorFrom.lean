/-
The messages in the errors of `connect` and `reconnect` are those of lines that the server sent.
-/
import Verif.Spec.ErrorText
import Verif.Proofs.Logged

namespace Tmi.Proofs
open Model Spec

/-- With lines from `L` to come, `y` leaves lines from `L`, and what it returns satisfies `Q`. -/
def From {α : Type} (L : List Bytes) (Q : α → Prop) (y : Act α) : Prop :=
  ∀ w, (∀ s, .line s ∈ w.script → s ∈ L) →
    (∀ s, .line s ∈ (y w).2.script → s ∈ L) ∧ ∀ a, (y w).1 = .ok a → Q a

section
variable {α β : Type} {b : Build} {L : List Bytes}

theorem From.bind {Q : α → Prop} {R : β → Prop} {x : Act α} {f : α → Act β} (hx : From L Q x)
    (hf : ∀ a, Q a → From L R (f a)) : From L R (x >>= f) := by
  intro w hw
  obtain ⟨h1, h2⟩ := hx w hw
  rw [act_bind]
  cases e : x w with
  | mk r w' =>
    rw [e] at h1 h2
    cases r with
    | error e => exact ⟨h1, fun a ha => by simp at ha⟩
    | ok a => exact hf a (h2 a rfl) w' h1

theorem From.pure {Q : α → Prop} {a : α} (h : Q a) : From L Q (pure a : Act α) :=
  fun _ hw => ⟨hw, fun _ hx => by cases hx; exact h⟩

theorem From.stop {Q : α → Prop} (e : Stop) : From L Q (stop e : Act α) :=
  fun _ hw => ⟨hw, fun _ hx => by cases hx⟩

theorem From.tame {y : Act α} (h : Tame y) : From L (fun _ => True) y :=
  fun w hw => ⟨fun s hs => hw s ((h w).1 _ hs), fun _ _ => trivial⟩

theorem From.lift {Q : α → Prop} {x : R α} (h : ∀ a, x = .ok a → Q a) : From L Q (lift x) := by
  cases x with
  | ok a => exact .pure (h a rfl)
  | error e => exact .stop _

theorem From.setClient (c : Client) : From L (fun _ => True) (setClient c) := fun _ hw => ⟨hw, fun _ _ => trivial⟩

theorem From.timeout {Q : α → Prop} {y : Act α} (d : Nat) (h : From L Q y) :
    From L (fun r => ∀ a, r = .ok a → Q a) (withTimeout d y) := by
  intro w hw
  obtain ⟨h1, h2⟩ := h w hw
  unfold withTimeout
  cases e : y w with
  | mk r w' =>
    rw [e] at h1 h2
    cases r with
    | ok a => exact ⟨h1, fun r hr a' ha => by cases hr; cases ha; exact h2 _ rfl⟩
    | error st =>
      rcases st with _ | n | f
      · exact ⟨h1, fun r hr => by simp at hr⟩
      · cases n with
        | zero => exact ⟨h1, fun r hr a' ha => by cases hr; cases ha⟩
        | succ n => exact ⟨h1, fun r hr => by simp at hr⟩
      · exact ⟨h1, fun r hr => by simp at hr⟩

/-- The result of waiting for a reply. -/
def Reply (b : Build) (L : List Bytes) : Except ConnectError MsgOwned → Prop
  | .error e => Told b L e
  | .ok m => ∃ s ∈ L, MsgOwned.parse b s = .ok (some m)

theorem From.recvReply : From L (Reply b L) (recvReply b) := by
  intro w hw
  refine ⟨fun s hs => hw s (((Tame.recvReply b) w).1 _ hs), fun a ha => ?_⟩
  rw [recvReply_run] at ha
  split at ha
  · simp at ha; subst ha; trivial
  · cases hs : w.script with
    | nil => rw [hs] at ha; simp at ha
    | cons x rest =>
      rw [hs] at ha hw
      cases x with
      | line s =>
        dsimp only at ha
        cases hp : MsgOwned.parse b s with
        | error f => rw [hp] at ha; simp at ha
        | ok r =>
          rw [hp] at ha
          cases r with
          | none =>
            dsimp only at ha
            injection ha with ha
            subst ha
            exact ⟨hw s (by simp), hp⟩
          | some m' =>
            dsimp only at ha
            injection ha with ha
            subst ha
            exact ⟨s, hw s (by simp), hp⟩
      | elapsed n =>
        cases n with
        | zero => simp at ha; subst ha; trivial
        | succ n => simp at ha
      | _ => simp at ha <;> subst ha <;> trivial

/-- An error about the message, if it quotes one. -/
def About (m : MsgOwned) (o : Option ConnectError) : Prop :=
  ∀ e, o = some e → e = .auth ∨ e = .welcome m ∨ e = .notice m

theorem told_about {m : MsgOwned} (hm : ∃ s ∈ L, MsgOwned.parse b s = .ok (some m)) {o : Option ConnectError} (h : About m o)
    {e : ConnectError} (he : o = some e) : Told b L e := by
  rcases h e he with rfl | rfl | rfl
  · trivial
  · exact hm
  · exact hm

theorem checkCap_about {m : MsgOwned} {o : Option ConnectError} (h : checkCap m = .ok o) : About m o := by
  unfold checkCap at h
  cases hc : m.command with
  | error f => rw [hc] at h; cases h
  | ok c =>
    rw [hc] at h
    rintro e rfl
    cases c <;> try (cases h; exact .inr (.inl rfl))
    cases hp : m.params with
    | error f => rw [hp] at h; cases h
    | ok p =>
      rw [hp] at h
      cases p with
      | none => cases h; exact .inl rfl
      | some v =>
        replace h : (if hasPrefix (b!"* ACK") v then (.ok none : R _) else .ok (some .auth)) = .ok (some e) := h
        by_cases hh : hasPrefix (b!"* ACK") v = true
        · rw [if_pos hh] at h; cases h
        · rw [if_neg hh] at h; cases h; exact .inl rfl

theorem checkWelcome_about {m : MsgOwned} {o : Option ConnectError} (h : checkWelcome m = .ok o) : About m o := by
  unfold checkWelcome at h
  cases hc : m.command with
  | error f => rw [hc] at h; cases h
  | ok c =>
    rw [hc] at h
    rintro e rfl
    cases c <;> first | (cases h; done) | (cases h; exact .inr (.inl rfl)) | skip
    cases hp : m.params with
    | error f => rw [hp] at h; cases h
    | ok p =>
      rw [hp] at h
      cases p with
      | none => cases h; exact .inr (.inr rfl)
      | some v =>
        replace h : (if containsStr (b!"authentication failed") v then (.ok (some .auth) : R _) else .ok (some (.notice m)))
          = .ok (some e) := h
        by_cases hh : containsStr (b!"authentication failed") v = true
        · rw [if_pos hh] at h; cases h; exact .inl rfl
        · rw [if_neg hh] at h; cases h; exact .inr (.inr rfl)

/-- An error, if there is one, that quotes lines of `L` only. -/
def Fails (b : Build) (L : List Bytes) (r : Except ConnectError Unit) : Prop := ∀ e, r = .error e → Told b L e

theorem Fails.ok {u : Unit} : Fails b L (.ok u) := fun _ h => by cases h
theorem Fails.error {e : ConnectError} (h : Told b L e) : Fails b L (.error e) := fun _ h' => by cases h'; exact h

theorem From.awaitWelcome : From L (Fails b L) (awaitWelcome b) := by
  unfold Model.awaitWelcome
  refine .bind .recvReply fun r hr => ?_
  cases r with
  | error e => exact .pure (.error hr)
  | ok m =>
    refine .bind (.lift fun a ha => checkCap_about ha) fun o ho => ?_
    cases o with
    | some e => exact .pure (.error (told_about hr ho rfl))
    | none =>
      refine .bind .recvReply fun r hr => ?_
      cases r with
      | error e => exact .pure (.error hr)
      | ok m =>
        refine .bind (.lift fun a ha => checkWelcome_about ha) fun o ho => ?_
        cases o with
        | some e => exact .pure (.error (told_about hr ho rfl))
        | none => exact .pure .ok

theorem From.handshake : From L (Fails b L) (handshake b) := by
  unfold Model.handshake
  refine .bind (.tame .getClient) fun c _ => .bind (.tame (.setScratch _)) fun _ _ => .bind (.tame (.writeAll _)) fun r _ => ?_
  cases r with
  | error e => exact .pure (.error trivial)
  | ok u =>
    refine .bind (.tame .flush) fun r _ => ?_
    cases r with
    | error e => exact .pure (.error trivial)
    | ok u => exact .bind (.tame (.setScratch _)) fun _ _ => .awaitWelcome

theorem From.connect (cfg : Config) : From L (Fails b L) (connect b cfg) := by
  unfold Model.connect
  refine .bind (.tame .next) fun a _ => ?_
  cases a <;> try exact .stop _
  · refine .bind (.timeout _ (.tame .openStream)) fun r _ => ?_
    rcases r with _ | (e | u)
    · exact .pure (.error trivial)
    · exact .pure (.error trivial)
    · refine .bind (.tame (.emit _)) fun _ _ => .bind (.setClient _) fun _ _ => .bind (.timeout _ .handshake) fun r hr => ?_
      rcases r with _ | r
      · exact .pure (.error trivial)
      · exact .pure (hr _ rfl)
  · exact .pure (.error trivial)

theorem From.reconnectLoop (cfg : Config) : ∀ (fuel : Nat) (tries : Option Nat) (delay : Nat) (cause : ConnectError),
    Told b L cause → From L (Fails b L) (reconnectLoop b cfg fuel tries delay cause)
  | 0, _, _, _, _ => .stop _
  | fuel + 1, tries, delay, cause, hc => by
    rw [Model.reconnectLoop]
    split
    · exact .pure (.error hc)
    · refine .bind (.tame (.sleep _)) fun _ _ => .bind (.tame (.lift _)) fun d _ => .bind (.timeout _ (.tame .openStream)) fun r _ => ?_
      rcases r with _ | (e | u)
      · exact .pure (.error trivial)
      · exact From.reconnectLoop cfg fuel _ _ _ trivial
      · refine .bind (.tame .useStream) fun _ _ => .bind (.timeout _ .handshake) fun r hr => ?_
        rcases r with _ | (e | u)
        · exact .pure (.error trivial)
        · dsimp only
          split
          · exact From.reconnectLoop cfg fuel _ _ _ (hr _ rfl _ rfl)
          · exact .pure (.error (hr _ rfl _ rfl))
        · exact .pure .ok

end

end Tmi.Proofs
