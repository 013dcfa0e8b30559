/-
Two runs that differ in the token.
-/
import Verif.Proofs.Sending
import Verif.Spec.Secret

namespace Tmi.Proofs
open Tmi.Model Tmi.Spec

/-- Two computations that give the same result, and alike worlds, in alike worlds. -/
def Twin {α : Type} (x x' : Act α) : Prop :=
  ∀ w w', Alike w w' → (x w).1 = (x' w').1 ∧ Alike (x w).2 (x' w').2

theorem Twin.pure {α : Type} (a : α) : Twin (Pure.pure a : Act α) (Pure.pure a) := fun _ _ h => ⟨rfl, h⟩

theorem Twin.stop {α : Type} (e : Stop) : Twin (Model.stop e : Act α) (Model.stop e) := fun _ _ h => ⟨rfl, h⟩

theorem Twin.bind {α β : Type} {x x' : Act α} {f f' : α → Act β} (hx : Twin x x') (hf : ∀ a, Twin (f a) (f' a)) :
    Twin (x >>= f) (x' >>= f') := by
  intro w w' h
  obtain ⟨h1, h2⟩ := hx w w' h
  rw [act_bind, act_bind]
  generalize x w = p at h1 h2
  generalize x' w' = p' at h1 h2
  obtain ⟨r, v⟩ := p
  obtain ⟨r', v'⟩ := p'
  simp only [] at h1 h2
  subst h1
  cases r with
  | ok a => exact hf a v v' h2
  | error e => exact ⟨rfl, h2⟩

theorem Twin.emit {e e' : Effect} (h : shape e = shape e') : Twin (Model.emit e) (Model.emit e') := by
  intro w w' hw
  refine ⟨rfl, ⟨hw.config, hw.closed, hw.buffered, ?_, hw.future⟩⟩
  simp only [Model.emit, List.map_append, List.map_cons, List.map_nil]
  rw [hw.past, h]

theorem Twin.next : Twin Model.next Model.next := by
  intro w w' hw
  have hf := hw.future
  unfold Model.next
  rw [← hf]
  split
  · exact ⟨rfl, hw⟩
  · exact ⟨rfl, ⟨hw.config, hw.closed, hw.buffered, hw.past, rfl⟩⟩
  · exact ⟨rfl, ⟨hw.config, hw.closed, hw.buffered, hw.past, rfl⟩⟩

theorem Twin.setScratch {s s' : Bytes} (h : s.length = s'.length) : Twin (Model.setScratch s) (Model.setScratch s') :=
  fun _ _ hw => ⟨rfl, ⟨hw.config, hw.closed, h, hw.past, hw.future⟩⟩

theorem Twin.setClosed (c : Bool) : Twin (Model.setClosed c) (Model.setClosed c) :=
  fun _ _ hw => ⟨rfl, ⟨hw.config, rfl, hw.buffered, hw.past, hw.future⟩⟩

theorem Twin.lift {α : Type} (x : R α) : Twin (Model.lift x) (Model.lift x) := by
  cases x with
  | ok a => exact Twin.pure a
  | error f => exact Twin.stop _

theorem Twin.withTimeout {α : Type} {x x' : Act α} (h : Twin x x') (t t' : Nat) :
    Twin (Model.withTimeout t x) (Model.withTimeout t' x') := by
  intro w w' hw
  obtain ⟨h1, h2⟩ := h w w' hw
  unfold Model.withTimeout
  generalize x w = p at h1 h2
  generalize x' w' = p' at h1 h2
  obtain ⟨r, v⟩ := p
  obtain ⟨r', v'⟩ := p'
  simp only [] at h1 h2
  subst h1
  rcases r with (_ | (_ | _) | _) | _ <;> exact ⟨rfl, h2⟩

/-- A computation that looks at the client. -/
theorem Twin.look {α : Type} {f f' : Client → Act α}
    (h : ∀ c c', SameButToken c.config c'.config → c.closed = c'.closed → c.scratch.length = c'.scratch.length →
      Twin (f c) (f' c')) :
    Twin (Model.getClient >>= f) (Model.getClient >>= f') :=
  fun w w' hw => h w.client w'.client hw.config hw.closed hw.buffered w w' hw

theorem Twin.setClient {c c' : Client} (h : SameButToken c.config c'.config) (hc : c.closed = c'.closed)
    (hs : c.scratch.length = c'.scratch.length) : Twin (Model.setClient c) (Model.setClient c') :=
  fun _ _ hw => ⟨rfl, ⟨h, hc, hs, hw.past, hw.future⟩⟩

theorem Twin.writeLoop : ∀ (n : Nat) (d d' : Bytes), d.length = d'.length →
    Twin (Model.writeLoop n d) (Model.writeLoop n d')
  | 0, _, _, _ => Twin.pure _
  | n + 1, d, d', h => by
    rw [Model.writeLoop, Model.writeLoop]
    by_cases hd : d = []
    · have : d' = [] := List.length_eq_zero_iff.1 (by rw [← h, hd]; rfl)
      rw [if_pos hd, if_pos this]
      exact Twin.pure _
    · have : d' ≠ [] := fun e => hd (List.length_eq_zero_iff.1 (by rw [h, e]; rfl))
      rw [if_neg hd, if_neg this]
      refine Twin.next.bind fun a => ?_
      cases a with
      | accept k =>
        simp only []
        by_cases hk : k = 0
        · rw [if_pos hk, if_pos hk]; exact Twin.pure _
        · rw [if_neg hk, if_neg hk]
          refine (Twin.emit ?_).bind fun _ => Twin.writeLoop n _ _ (by simp [h])
          simp [shape, h]
      | writeFailed e => exact Twin.pure _
      | _ => exact Twin.stop _

theorem Twin.writeAll {d d' : Bytes} (h : d.length = d'.length) : Twin (Model.writeAll d) (Model.writeAll d') := by
  unfold Model.writeAll
  rw [h]
  exact Twin.writeLoop _ _ _ h

theorem Twin.flush : Twin Model.flush Model.flush := by
  unfold Model.flush
  refine Twin.next.bind fun a => ?_
  cases a with
  | flushed => exact (Twin.emit rfl).bind fun _ => Twin.pure _
  | flushFailed e => exact Twin.pure _
  | _ => exact Twin.stop _

theorem Twin.readerNext : Twin Model.readerNext Model.readerNext := by
  refine Twin.look fun c c' _ hc _ => ?_
  rw [hc]
  split
  · exact Twin.pure _
  · refine Twin.next.bind fun a => ?_
    cases a with
    | line s => exact (Twin.emit rfl).bind fun _ => Twin.pure _
    | readFailed e => exact Twin.pure _
    | eof => exact (Twin.setClosed _).bind fun _ => Twin.pure _
    | _ => exact Twin.stop _

theorem Twin.sleep (d : Nat) : Twin (Model.sleep d) (Model.sleep d) := by
  refine (Twin.emit rfl).bind fun _ => Twin.next.bind fun a => ?_
  cases a with
  | slept => exact Twin.pure _
  | _ => exact Twin.stop _

theorem Twin.openStream : Twin Model.openStream Model.openStream := by
  refine (Twin.emit rfl).bind fun _ => Twin.next.bind fun a => ?_
  cases a with
  | opened => exact Twin.pure _
  | openFailed e => exact Twin.pure _
  | _ => exact Twin.stop _

theorem Twin.useStream : Twin Model.useStream Model.useStream :=
  (Twin.emit rfl).bind fun _ => Twin.setClosed _

theorem Twin.recv (b : Build) : Twin (Model.recv b) (Model.recv b) := by
  refine Twin.readerNext.bind fun a => ?_
  rcases a with _ | (e | s)
  · exact Twin.pure _
  · exact Twin.pure _
  · refine (Twin.lift _).bind fun m => ?_
    cases m <;> exact Twin.pure _

theorem Twin.recvReply (b : Build) : Twin (Model.recvReply b) (Model.recvReply b) := by
  refine ((Twin.recv b).withTimeout _ _).bind fun a => ?_
  rcases a with _ | (e | s) <;> exact Twin.pure _

theorem Twin.awaitWelcome (b : Build) : Twin (Model.awaitWelcome b) (Model.awaitWelcome b) := by
  refine (Twin.recvReply b).bind fun a => ?_
  cases a with
  | error e => exact Twin.pure _
  | ok m =>
    refine (Twin.lift _).bind fun o => ?_
    cases o with
    | some e => exact Twin.pure _
    | none =>
      refine (Twin.recvReply b).bind fun a => ?_
      cases a with
      | error e => exact Twin.pure _
      | ok m =>
        refine (Twin.lift _).bind fun o => ?_
        cases o <;> exact Twin.pure _

theorem Twin.handshake (b : Build) : Twin (Model.handshake b) (Model.handshake b) := by
  unfold Model.handshake
  refine Twin.look fun c c' hs _ hb => ?_
  have hl : (c.scratch ++ helloText c.config.credentials).length
      = (c'.scratch ++ helloText c'.config.credentials).length := by
    rw [List.length_append, List.length_append, helloText_eq, helloText_eq, hs.length, hb]
  refine (Twin.setScratch hl).bind fun _ => (Twin.writeAll hl).bind fun a => ?_
  cases a with
  | error e => exact Twin.pure _
  | ok _ =>
    refine Twin.flush.bind fun a => ?_
    cases a with
    | error e => exact Twin.pure _
    | ok _ => exact (Twin.setScratch rfl).bind fun _ => Twin.awaitWelcome b

theorem Twin.connect (b : Build) {cfg cfg' : Config} (hc : SameButToken cfg cfg') :
    Twin (Model.connect b cfg) (Model.connect b cfg') := by
  unfold Model.connect
  refine Twin.next.bind fun a => ?_
  cases a with
  | tlsLoaded =>
    refine (Twin.openStream.withTimeout _ _).bind fun a => ?_
    rcases a with _ | (e | u)
    · exact Twin.pure _
    · exact Twin.pure _
    · refine (Twin.emit rfl).bind fun _ => (Twin.setClient (c := ⟨false, [], cfg⟩) (c' := ⟨false, [], cfg'⟩) hc rfl rfl).bind fun _ =>
        ((Twin.handshake b).withTimeout _ _).bind fun a => ?_
      cases a <;> exact Twin.pure _
  | tlsFailed => exact Twin.pure _
  | _ => exact Twin.stop _

theorem Twin.reconnectLoop (b : Build) (cfg cfg' : Config) (hc : SameButToken cfg cfg') :
    ∀ (fuel : Nat) (tries : Option Nat) (d : Nat) (cause : ConnectError),
    Twin (Model.reconnectLoop b cfg fuel tries d cause) (Model.reconnectLoop b cfg' fuel tries d cause)
  | 0, _, _, _ => Twin.stop _
  | fuel + 1, tries, d, cause => by
    rw [Model.reconnectLoop, Model.reconnectLoop]
    by_cases ht : tries = some 0
    · rw [if_pos ht, if_pos ht]; exact Twin.pure _
    rw [if_neg ht, if_neg ht, hc.backoff, hc.timeout]
    refine (Twin.sleep d).bind fun _ => (Twin.lift _).bind fun d' => ?_
    simp only []
    refine (Twin.openStream.withTimeout _ _).bind fun a => ?_
    rcases a with _ | (e | u)
    · exact Twin.pure _
    · exact Twin.reconnectLoop b cfg cfg' hc fuel _ _ _
    · refine Twin.useStream.bind fun _ => ((Twin.handshake b).withTimeout _ _).bind fun a => ?_
      rcases a with _ | (e | u)
      · exact Twin.pure _
      · simp only []
        by_cases hr : e.shouldRetry = true
        · rw [if_pos hr, if_pos hr]; exact Twin.reconnectLoop b cfg cfg' hc fuel _ _ _
        · rw [if_neg hr, if_neg hr]; exact Twin.pure _
      · exact Twin.pure _

theorem Twin.reconnect (b : Build) : Twin (Model.reconnect b) (Model.reconnect b) := by
  intro w w' h
  unfold Model.reconnect
  simp only []
  rw [← h.future, ← h.config.backoff]
  exact Twin.reconnectLoop b _ _ h.config _ _ _ _ w w' h

theorem Twin.sendRaw {d d' : Bytes} (h : d.length = d'.length)
    (he : endsWith [CR, LF] d = endsWith [CR, LF] d') : Twin (Model.sendRaw d) (Model.sendRaw d') := by
  unfold Model.sendRaw rawMessage
  rw [he]
  by_cases hc : endsWith [CR, LF] d' = true
  · rw [if_pos hc, if_pos hc]
    refine (Twin.writeAll h).bind fun a => ?_
    cases a <;> exact Twin.pure _
  · rw [if_neg hc, if_neg hc]
    exact Twin.pure _

theorem Twin.takeScratch {α : Type} {f f' : Bytes → Act α}
    (h : ∀ s s', s.length = s'.length → Twin (f s) (f' s')) :
    Twin (Model.takeScratch >>= f) (Model.takeScratch >>= f') := by
  intro w w' hw
  exact h _ _ hw.buffered _ _ ⟨hw.config, hw.closed, rfl, hw.past, hw.future⟩

theorem Twin.withScratch {f f' : Bytes → Act (Except SendError Unit)}
    (h : ∀ s s', s.length = s'.length → Twin (f s) (f' s')) :
    Twin (Model.withScratch f) (Model.withScratch f') :=
  Twin.takeScratch fun s s' hs => (h s s' hs).bind fun _ => (Twin.setScratch rfl).bind fun _ => Twin.pure _

theorem Twin.sendLine (t : Bytes) (ht : endsWith [CR, LF] t = true) (s s' : Bytes) (h : s.length = s'.length) :
    Twin (Model.sendRaw (s ++ t)) (Model.sendRaw (s' ++ t)) := by
  have : ∀ s : Bytes, endsWith [CR, LF] (s ++ t) = true := by
    intro s
    obtain ⟨u, rfl⟩ := (endsWith_iff _ _).1 ht
    rw [← List.append_assoc]
    exact crlf_suffix _
  exact Twin.sendRaw (by simp [h]) (by rw [this, this])

theorem Twin.send (c : Cmd) : Twin c.send c.send := by
  cases c with
  | raw s => exact Twin.sendRaw rfl rfl
  | privmsg ch text r n =>
    refine Twin.withScratch (Twin.sendLine _ ?_)
    rw [privmsgText_eq]
    exact crlf_suffix _
  | ping n => exact Twin.withScratch (Twin.sendLine _ (crlf_suffix _))
  | pong n => cases n <;> exact Twin.withScratch (Twin.sendLine _ (crlf_suffix _))
  | join ch =>
    refine Twin.takeScratch fun s s' hs => (Twin.sendLine _ (crlf_suffix _) s s' hs).bind fun a => ?_
    cases a with
    | error e => exact Twin.pure _
    | ok _ => exact (Twin.setScratch rfl).bind fun _ => Twin.pure _
  | joinAll cs =>
    refine Twin.withScratch (Twin.sendLine _ ?_)
    rw [joinAllText_eq]
    exact crlf_suffix _

end Tmi.Proofs
