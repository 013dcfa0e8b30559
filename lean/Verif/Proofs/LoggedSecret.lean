/-
Two runs with a subscriber that differ in the token.
-/
import Verif.Proofs.Secret
import Verif.Proofs.Logged

namespace Tmi.Proofs
open Tmi.Model Tmi.Spec

/-- Two computations that give the same result, the same records, and alike worlds, in alike worlds. -/
def LTwin {α : Type} (x x' : Logged.LAct α) : Prop :=
  ∀ w w' rs, Alike w w' → (x (w, rs)).1 = (x' (w', rs)).1 ∧ (x (w, rs)).2.2 = (x' (w', rs)).2.2 ∧
    Alike (x (w, rs)).2.1 (x' (w', rs)).2.1

theorem LTwin.bind {α β : Type} {x x' : Logged.LAct α} {f f' : α → Logged.LAct β} (hx : LTwin x x')
    (hf : ∀ a, LTwin (f a) (f' a)) : LTwin (x >>= f) (x' >>= f') := by
  intro w w' rs h
  obtain ⟨h1, h2, h3⟩ := hx w w' rs h
  rw [lact_bind, lact_bind]
  generalize x (w, rs) = p at h1 h2 h3
  generalize x' (w', rs) = p' at h1 h2 h3
  obtain ⟨r, v, l⟩ := p
  obtain ⟨r', v', l'⟩ := p'
  simp only [] at h1 h2 h3
  subst h1 h2
  cases r with
  | ok a => exact hf a v v' l h3
  | error e => exact ⟨rfl, rfl, h3⟩

theorem LTwin.act {α : Type} {x x' : Act α} (h : Twin x x') : LTwin (Logged.act x) (Logged.act x') :=
  fun w w' _ hw => ⟨(h w w' hw).1, rfl, (h w w' hw).2⟩

theorem LTwin.pure {α : Type} (a : α) : LTwin (Pure.pure a : Logged.LAct α) (Pure.pure a) :=
  fun _ _ _ h => ⟨rfl, rfl, h⟩

theorem LTwin.trace (r : Record) : LTwin (Logged.trace r) (Logged.trace r) := fun _ _ _ h => ⟨rfl, rfl, h⟩

theorem LTwin.note (s : Bytes) : LTwin (Logged.note s) (Logged.note s) := .trace _

theorem LTwin.received (esc : Nat → Bool) (m : MsgOwned) : LTwin (Logged.traceReceived esc m) (Logged.traceReceived esc m) :=
  (LTwin.act (Twin.lift _)).bind fun _ => .trace _

theorem LTwin.withTimeout {α : Type} {x x' : Logged.LAct α} (h : LTwin x x') (t t' : Nat) :
    LTwin (Logged.withTimeout t x) (Logged.withTimeout t' x') := by
  intro w w' rs hw
  obtain ⟨h1, h2, h3⟩ := h w w' rs hw
  unfold Logged.withTimeout
  generalize x (w, rs) = p at h1 h2 h3
  generalize x' (w', rs) = p' at h1 h2 h3
  obtain ⟨r, v, l⟩ := p
  obtain ⟨r', v', l'⟩ := p'
  simp only [] at h1 h2 h3
  subst h1 h2
  rcases r with (_ | (_ | _) | _) | _ <;> exact ⟨rfl, rfl, h3⟩

theorem LTwin.look {α : Type} {f f' : Client → Logged.LAct α}
    (h : ∀ c c', SameButToken c.config c'.config → c.closed = c'.closed → c.scratch.length = c'.scratch.length →
      LTwin (f c) (f' c')) :
    LTwin (Logged.act Model.getClient >>= f) (Logged.act Model.getClient >>= f') :=
  fun w w' rs hw => h w.client w'.client hw.config hw.closed hw.buffered w w' rs hw

theorem LTwin.openStream : LTwin Logged.openStream Logged.openStream :=
  (LTwin.note _).bind fun _ => .act .openStream

theorem LTwin.checkCap (m : MsgOwned) : LTwin (Logged.checkCap m) (Logged.checkCap m) := by
  refine (LTwin.act (Twin.lift _)).bind fun c => ?_
  cases c with
  | capability =>
    refine (LTwin.act (Twin.lift _)).bind fun o => ?_
    cases o with
    | none => exact .pure _
    | some v =>
      simp only []
      split
      · exact (LTwin.note _).bind fun _ => .pure _
      · exact .pure _
  | _ => exact (LTwin.note _).bind fun _ => .pure _

theorem LTwin.checkWelcome (m : MsgOwned) : LTwin (Logged.checkWelcome m) (Logged.checkWelcome m) := by
  refine (LTwin.act (Twin.lift _)).bind fun c => ?_
  cases c with
  | notice =>
    refine (LTwin.act (Twin.lift _)).bind fun o => ?_
    cases o with
    | none => exact (LTwin.note _).bind fun _ => .pure _
    | some v =>
      simp only []
      split
      · exact (LTwin.note _).bind fun _ => .pure _
      · exact (LTwin.note _).bind fun _ => .pure _
  | _ => exact (LTwin.note _).bind fun _ => .pure _

theorem LTwin.awaitWelcome (esc : Nat → Bool) (b : Build) : LTwin (Logged.awaitWelcome esc b) (Logged.awaitWelcome esc b) := by
  refine (LTwin.note _).bind fun _ => (LTwin.act (.recvReply b)).bind fun a => ?_
  cases a with
  | error e => exact .pure _
  | ok m =>
    refine (LTwin.received esc m).bind fun _ => (LTwin.checkCap m).bind fun o => ?_
    cases o with
    | some e => exact .pure _
    | none =>
      refine (LTwin.note _).bind fun _ => (LTwin.act (.recvReply b)).bind fun a => ?_
      cases a with
      | error e => exact .pure _
      | ok m =>
        refine (LTwin.received esc m).bind fun _ => (LTwin.checkWelcome m).bind fun o => ?_
        cases o <;> exact .pure _

theorem helloTrace_login {d : Bytes → Bytes} {c c' : Credentials} (h : c.login = c'.login) :
    helloTrace d c = helloTrace d c' := by
  unfold helloTrace; rw [h]

theorem LTwin.handshake (esc : Nat → Bool) (b : Build) : LTwin (Logged.handshake esc b) (Logged.handshake esc b) := by
  refine (LTwin.note _).bind fun _ => ?_
  refine LTwin.look fun c c' hs _ hb => ?_
  have hl : (c.scratch ++ helloText c.config.credentials).length
      = (c'.scratch ++ helloText c'.config.credentials).length := by
    rw [List.length_append, List.length_append, helloText_eq, helloText_eq, hs.length, hb]
  rw [helloTrace_login hs.login]
  refine (LTwin.note _).bind fun _ => (LTwin.act (.setScratch hl)).bind fun _ => (LTwin.act (.writeAll hl)).bind fun a => ?_
  cases a with
  | error e => exact .pure _
  | ok _ =>
    refine (LTwin.act .flush).bind fun a => ?_
    cases a with
    | error e => exact .pure _
    | ok _ => exact (LTwin.act (.setScratch rfl)).bind fun _ => LTwin.awaitWelcome esc b

theorem LTwin.connect (esc : Nat → Bool) (b : Build) {cfg cfg' : Config} (hc : SameButToken cfg cfg') :
    LTwin (Logged.connect esc b cfg) (Logged.connect esc b cfg') := by
  refine (LTwin.note _).bind fun _ => (LTwin.note _).bind fun _ => (LTwin.act .next).bind fun a => ?_
  cases a with
  | tlsLoaded =>
    refine (LTwin.note _).bind fun _ => (LTwin.openStream.withTimeout _ _).bind fun a => ?_
    rcases a with _ | (e | u)
    · exact .pure _
    · exact .pure _
    · refine (LTwin.act (.emit rfl)).bind fun _ =>
        (LTwin.act (Twin.setClient (c := ⟨false, [], cfg⟩) (c' := ⟨false, [], cfg'⟩) hc rfl rfl)).bind fun _ =>
        ((LTwin.handshake esc b).withTimeout _ _).bind fun a => ?_
      cases a <;> exact .pure _
  | tlsFailed => exact .pure _
  | _ => exact .act (.stop _)

theorem LTwin.reconnectLoop (esc : Nat → Bool) (b : Build) (cfg cfg' : Config) (hc : SameButToken cfg cfg') :
    ∀ (fuel : Nat) (tries : Option Nat) (d : Nat) (cause : ConnectError),
    LTwin (Logged.reconnectLoop esc b cfg fuel tries d cause) (Logged.reconnectLoop esc b cfg' fuel tries d cause)
  | 0, _, _, _ => .act (.stop _)
  | fuel + 1, tries, d, cause => by
    rw [Logged.reconnectLoop, Logged.reconnectLoop]
    by_cases ht : tries = some 0
    · rw [if_pos ht, if_pos ht]; exact .pure _
    rw [if_neg ht, if_neg ht, hc.backoff, hc.timeout]
    refine (LTwin.act (.sleep d)).bind fun _ => (LTwin.act (.lift _)).bind fun d' => ?_
    simp only []
    refine (LTwin.note _).bind fun _ => (LTwin.openStream.withTimeout _ _).bind fun a => ?_
    rcases a with _ | (e | u)
    · exact .pure _
    · exact LTwin.reconnectLoop esc b cfg cfg' hc fuel _ _ _
    · refine (LTwin.act .useStream).bind fun _ => ((LTwin.handshake esc b).withTimeout _ _).bind fun a => ?_
      rcases a with _ | (e | u)
      · exact .pure _
      · simp only []
        by_cases hr : e.shouldRetry = true
        · rw [if_pos hr, if_pos hr]; exact LTwin.reconnectLoop esc b cfg cfg' hc fuel _ _ _
        · rw [if_neg hr, if_neg hr]; exact .pure _
      · exact .pure _

theorem LTwin.reconnect (esc : Nat → Bool) (b : Build) : LTwin (Logged.reconnect esc b) (Logged.reconnect esc b) := by
  refine (LTwin.note _).bind fun _ => ?_
  intro w w' rs h
  simp only []
  rw [← h.future, ← h.config.backoff]
  exact LTwin.reconnectLoop esc b _ _ h.config _ _ _ _ w w' rs h

end Tmi.Proofs
