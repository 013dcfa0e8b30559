/-
A run with a subscriber follows the run without, until printing a received message panics.
-/
import Verif.Spec.Logged
import Verif.Proofs.Handshake

namespace Tmi.Proofs
open Model Spec

theorem mem_sentLines {s : Bytes} {l : List Answer} : s ∈ sentLines l ↔ .line s ∈ l := by
  unfold sentLines
  rw [List.mem_filterMap]
  constructor
  · rintro ⟨a, ha, h⟩
    cases a <;> simp at h
    obtain rfl := h
    exact ha
  · intro h; exact ⟨_, h, rfl⟩

/-- The lines still to come are of `L`, and (if `k`) the login is `g`. -/
structure LogInv (L : List Bytes) (g : Bytes) (k : Bool) (w : World) : Prop where
  lines : ∀ s, .line s ∈ w.script → s ∈ L
  login : k = true → w.client.config.credentials.login = g

/-- `y` takes answers from the script and keeps the configuration. -/
def Tame {α : Type} (y : Act α) : Prop :=
  ∀ w, (∀ a ∈ (y w).2.script, a ∈ w.script) ∧ (y w).2.client.config = w.client.config

theorem Tame.bind {α β : Type} {x : Act α} {f : α → Act β} (hx : Tame x) (hf : ∀ a, Tame (f a)) : Tame (x >>= f) := by
  intro w
  have h := hx w
  rw [act_bind]
  cases e : x w with
  | mk r w' =>
    rw [e] at h
    cases r with
    | error e => exact h
    | ok a =>
      have h' := hf a w'
      exact ⟨fun y hy => h.1 y (h'.1 y hy), h'.2.trans h.2⟩

theorem Tame.pure {α : Type} (a : α) : Tame (pure a : Act α) := fun _ => ⟨fun _ h => h, rfl⟩
theorem Tame.stop {α : Type} (e : Stop) : Tame (stop e : Act α) := fun _ => ⟨fun _ h => h, rfl⟩
theorem Tame.emit (e : Effect) : Tame (emit e) := fun _ => ⟨fun _ h => h, rfl⟩
theorem Tame.getClient : Tame getClient := fun _ => ⟨fun _ h => h, rfl⟩
theorem Tame.setScratch (s : Bytes) : Tame (setScratch s) := fun _ => ⟨fun _ h => h, rfl⟩
theorem Tame.setClosed (c : Bool) : Tame (setClosed c) := fun _ => ⟨fun _ h => h, rfl⟩
theorem Tame.next : Tame next := by
  intro w
  rcases next_cases w with ⟨_, h⟩ | ⟨n, rest, hs, h⟩ | ⟨a, rest, hs, _, h⟩
  · rw [h]; exact ⟨fun _ h => h, rfl⟩
  · rw [h, hs]; exact ⟨fun x hx => List.mem_cons_of_mem _ hx, rfl⟩
  · rw [h, hs]; exact ⟨fun x hx => List.mem_cons_of_mem _ hx, rfl⟩

theorem Tame.lift {α : Type} (x : R α) : Tame (lift x) := by
  cases x with
  | ok a => exact .pure a
  | error e => exact .stop _

theorem Tame.writeLoop : ∀ (n : Nat) (data : Bytes), Tame (writeLoop n data)
  | 0, _ => .pure _
  | n + 1, data => by
    rw [Model.writeLoop]
    split
    · exact .pure _
    · refine .bind .next fun a => ?_
      cases a <;> try exact .stop _
      · dsimp only
        split
        · exact .pure _
        · exact .bind (.emit _) fun _ => Tame.writeLoop n _
      · exact .pure _

theorem Tame.writeAll (data : Bytes) : Tame (writeAll data) := .writeLoop _ _

theorem Tame.flush : Tame flush := by
  refine .bind .next fun a => ?_
  cases a <;> try exact .stop _
  · exact .bind (.emit _) fun _ => .pure _
  · exact .pure _

theorem Tame.sleep (n : Nat) : Tame (sleep n) := by
  refine .bind (.emit _) fun _ => .bind .next fun a => ?_
  cases a <;> first | exact .pure _ | exact .stop _

theorem Tame.openStream : Tame openStream := by
  refine .bind (.emit _) fun _ => .bind .next fun a => ?_
  cases a <;> first | exact .pure _ | exact .stop _

theorem Tame.useStream : Tame useStream := .bind (.emit _) fun _ => .setClosed _

theorem Tame.recvReply (b : Build) : Tame (recvReply b) := by
  intro w
  have h := recvReply_keeps b w
  exact ⟨fun a ha => h.script.subset ha, h.config⟩

/-- Printing the message of one of the lines panics. -/
def Unprintable (esc : Nat → Bool) (b : Build) (L : List Bytes) (f : Fault) : Prop :=
  ∃ s ∈ L, ∃ m, MsgOwned.parse b s = .ok (some m) ∧ m.print esc false = .error f

/-- `x`, with a subscriber, does what `y` does, unless printing a message panics; its records show only what
they may. -/
def Tracks {α : Type} (esc : Nat → Bool) (b : Build) (g : Bytes) (L : List Bytes) (k k' : Bool) (Q : α → Prop)
    (x : Logged.LAct α) (y : Act α) : Prop :=
  ∀ w rs, LogInv L g k w →
    (∃ new, (x (w, rs)).2.2 = rs ++ new ∧ ∀ r ∈ new, Shows esc b g L r) ∧
    (((x (w, rs)).1 = (y w).1 ∧ (x (w, rs)).2.1 = (y w).2 ∧
        (∀ a, (y w).1 = .ok a → LogInv L g k' (y w).2 ∧ Q a) ∧ (∀ e, (y w).1 = .error e → LogInv L g k (y w).2)) ∨
      ∃ f, (x (w, rs)).1 = .error (.panic f) ∧ Unprintable esc b L f)

theorem lact_bind {α β : Type} (x : Logged.LAct α) (f : α → Logged.LAct β) (w : World × List Record) :
    (x >>= f) w = match x w with
      | (.ok a, w') => f a w'
      | (.error e, w') => (.error e, w') := rfl

section
variable {α β : Type} {esc : Nat → Bool} {b : Build} {g : Bytes} {L : List Bytes}

theorem LogInv.weaken {k : Bool} {w : World} (h : LogInv L g k w) (k' : Bool) (hk : k' = true → k = true) : LogInv L g k' w :=
  ⟨h.lines, fun e => h.login (hk e)⟩

theorem Tracks.bind {k k' k'' : Bool} {Q : α → Prop} {R : β → Prop} {x : Logged.LAct α} {y : Act α}
    {f : α → Logged.LAct β} {h : α → Act β} (hk : k = true → k' = true)
    (hx : Tracks esc b g L k k' Q x y) (hf : ∀ a, Q a → Tracks esc b g L k' k'' R (f a) (h a)) :
    Tracks esc b g L k k'' R (x >>= f) (y >>= h) := by
  intro w rs hw
  obtain ⟨⟨new, hn, hs⟩, hx⟩ := hx w rs hw
  rw [lact_bind, act_bind]
  cases ex : x (w, rs) with
  | mk r wr =>
    obtain ⟨w', rs'⟩ := wr
    rw [ex] at hn hx
    dsimp only at hn hx
    rcases hx with ⟨h1, h2, h3, h4⟩ | ⟨fl, h1, h2⟩
    · cases ey : y w with
      | mk r' w'' =>
        rw [ey] at h1 h2 h3 h4
        dsimp only at h1 h2 h3 h4
        subst h1 h2
        cases r with
        | error e => exact ⟨⟨new, hn, hs⟩, .inl ⟨rfl, rfl, fun a ha => by simp at ha, fun e he => h4 _ rfl⟩⟩
        | ok a =>
          obtain ⟨hi, hq⟩ := h3 a rfl
          obtain ⟨⟨new', hn', hs'⟩, hf⟩ := hf a hq w' rs' hi
          refine ⟨⟨new ++ new', ?_, ?_⟩, ?_⟩
          · rw [← List.append_assoc, ← hn]; exact hn'
          · intro r hr
            rcases List.mem_append.1 hr with hr | hr
            · exact hs r hr
            · exact hs' r hr
          · rcases hf with ⟨g1, g2, g3, g4⟩ | hf
            · exact .inl ⟨g1, g2, g3, fun e he => (g4 e he).weaken k hk⟩
            · exact .inr hf
    · subst h1
      exact ⟨⟨new, hn, hs⟩, .inr ⟨fl, rfl, h2⟩⟩

theorem Tracks.pure {k : Bool} {Q : α → Prop} {a : α} (h : Q a) :
    Tracks esc b g L k k Q (pure a : Logged.LAct α) (pure a : Act α) := fun w rs hw =>
  ⟨⟨[], (List.append_nil _).symm, by simp⟩, .inl ⟨rfl, rfl, fun x hx => by
    cases hx; exact ⟨hw, h⟩, fun e he => by cases he⟩⟩

theorem Tracks.act {k : Bool} {Q : α → Prop} {y : Act α} (ht : Tame y)
    (hq : ∀ w, LogInv L g k w → ∀ a, (y w).1 = .ok a → Q a) : Tracks esc b g L k k Q (Logged.act y) y := by
  intro w rs hw
  obtain ⟨h1, h2⟩ := ht w
  have hi : LogInv L g k (y w).2 := ⟨fun s hs => hw.lines s (h1 _ hs), fun e => by rw [h2]; exact hw.login e⟩
  exact ⟨⟨[], (List.append_nil _).symm, by simp⟩, .inl ⟨rfl, rfl, fun a ha => ⟨hi, hq w hw a ha⟩, fun _ _ => hi⟩⟩

theorem Tracks.tame {k : Bool} {y : Act α} (ht : Tame y) : Tracks esc b g L k k (fun _ => True) (Logged.act y) y :=
  .act ht fun _ _ _ _ => trivial

/-- A `trace!` statement stands for nothing in the run without a subscriber. -/
theorem Tracks.trace {k k' : Bool} {Q : β → Prop} {r : Record} {x : Logged.LAct β} {y : Act β}
    (hr : Shows esc b g L r) (h : Tracks esc b g L k k' Q x y) :
    Tracks esc b g L k k' Q (Logged.trace r >>= fun _ => x) y := by
  intro w rs hw
  obtain ⟨⟨new, hn, hs⟩, hx⟩ := h w (rs ++ [r]) hw
  have e : (Logged.trace r >>= fun _ => x) (w, rs) = x (w, rs ++ [r]) := rfl
  rw [e]
  refine ⟨⟨r :: new, by rw [hn]; simp, ?_⟩, hx⟩
  intro r' hr'
  rcases List.mem_cons.1 hr' with rfl | hr'
  · exact hr
  · exact hs r' hr'

theorem Tracks.note {k k' : Bool} {Q : β → Prop} {s : Bytes} {x : Logged.LAct β} {y : Act β}
    (hs : s ∈ fixedTexts) (h : Tracks esc b g L k k' Q x y) :
    Tracks esc b g L k k' Q (Logged.note s >>= fun _ => x) y := .trace (.fixed s hs) h

theorem Tracks.received {k k' : Bool} {Q : β → Prop} {m : MsgOwned} {s : Bytes} {x : Logged.LAct β} {y : Act β}
    (hs : s ∈ L) (hm : MsgOwned.parse b s = .ok (some m)) (h : Tracks esc b g L k k' Q x y) :
    Tracks esc b g L k k' Q (Logged.traceReceived esc m >>= fun _ => x) y := by
  intro w rs hw
  cases hp : m.print esc false with
  | error f =>
    have e : (Logged.traceReceived esc m >>= fun _ => x) (w, rs) = (.error (.panic f), (w, rs)) := by
      rw [lact_bind]
      unfold Logged.traceReceived
      rw [lact_bind, hp]
      rfl
    rw [e]
    exact ⟨⟨[], (List.append_nil _).symm, by simp⟩, .inr ⟨f, rfl, s, hs, m, hm, hp⟩⟩
  | ok t =>
    have e : (Logged.traceReceived esc m >>= fun _ => x) (w, rs) = (Logged.trace ⟨b!"received message", some t⟩ >>= fun _ => x) (w, rs) := by
      rw [lact_bind]
      unfold Logged.traceReceived
      rw [lact_bind, hp]
      rfl
    rw [e]
    exact Tracks.trace (.received s hs m hm t hp) h w rs hw

theorem Tracks.timeout {k : Bool} {Q : α → Prop} {x : Logged.LAct α} {y : Act α} (d : Nat) (h : Tracks esc b g L k k Q x y) :
    Tracks esc b g L k k (fun r => ∀ a, r = .ok a → Q a) (Logged.withTimeout d x) (withTimeout d y) := by
  intro w rs hw
  obtain ⟨⟨new, hn, hs⟩, hx⟩ := h w rs hw
  unfold Logged.withTimeout withTimeout
  cases ex : x (w, rs) with
  | mk r wr =>
    obtain ⟨w', rs'⟩ := wr
    rw [ex] at hn hx
    dsimp only at hn hx
    rcases hx with ⟨h1, h2, h3, h4⟩ | ⟨fl, h1, h2⟩
    · cases ey : y w with
      | mk r' w'' =>
        rw [ey] at h1 h2 h3 h4
        dsimp only at h1 h2 h3 h4
        subst h1 h2
        cases r with
        | ok a =>
          refine ⟨⟨new, hn, hs⟩, .inl ⟨rfl, rfl, fun r hr => ⟨(h3 a rfl).1, fun a' ha' => ?_⟩, fun e he => by cases he⟩⟩
          cases hr
          cases ha'
          exact (h3 a rfl).2
        | error e =>
          rcases e with _ | n | f
          · exact ⟨⟨new, hn, hs⟩, .inl ⟨rfl, rfl, ⟨fun r hr => by simp at hr, fun e he => h4 _ rfl⟩⟩⟩
          · cases n with
            | zero =>
              exact ⟨⟨new, hn, hs⟩, .inl ⟨rfl, rfl, fun r hr => ⟨h4 _ rfl, fun a' ha' => by cases hr; cases ha'⟩, fun e he => by cases he⟩⟩
            | succ n => exact ⟨⟨new, hn, hs⟩, .inl ⟨rfl, rfl, ⟨fun r hr => by simp at hr, fun e he => h4 _ rfl⟩⟩⟩
          · exact ⟨⟨new, hn, hs⟩, .inl ⟨rfl, rfl, ⟨fun r hr => by simp at hr, fun e he => h4 _ rfl⟩⟩⟩
    · subst h1
      exact ⟨⟨new, hn, hs⟩, .inr ⟨fl, rfl, h2⟩⟩

theorem Tracks.openStream {k : Bool} : Tracks esc b g L k k (fun _ => True) Logged.openStream Model.openStream :=
  .note (by decide) (.tame .openStream)

/-- What `recvReply` returns is the parse of a line. -/
theorem recvReply_line {w : World} {m : MsgOwned} (h : (recvReply b w).1 = .ok (.ok m)) :
    ∃ s, .line s ∈ w.script ∧ MsgOwned.parse b s = .ok (some m) := by
  rw [recvReply_run] at h
  split at h
  · simp at h
  · cases hs : w.script with
    | nil => rw [hs] at h; simp at h
    | cons a rest =>
      rw [hs] at h
      cases a with
      | line s =>
        dsimp only at h
        cases hp : MsgOwned.parse b s with
        | error f => rw [hp] at h; simp at h
        | ok r =>
          rw [hp] at h
          cases r with
          | none => simp at h
          | some m' =>
            dsimp only at h
            injection h with h
            injection h with h
            subst h
            exact ⟨s, by simp, hp⟩
      | elapsed n => cases n <;> simp at h
      | _ => simp at h

theorem Tracks.recvReply {k : Bool} : Tracks esc b g L k k
    (fun r => ∀ m, r = .ok m → ∃ s ∈ L, MsgOwned.parse b s = .ok (some m)) (Logged.act (recvReply b)) (recvReply b) := by
  refine .act (.recvReply b) fun w hw a ha m e => ?_
  subst e
  obtain ⟨s, h1, h2⟩ := recvReply_line ha
  exact ⟨s, hw.lines s h1, h2⟩

theorem lift_ite (c : Bool) (x y : R α) : lift (if c = true then x else y) = if c = true then lift x else lift y := by
  split <;> rfl

theorem Tracks.checkCap {k : Bool} (m : MsgOwned) :
    Tracks esc b g L k k (fun _ => True) (Logged.checkCap m) (lift (checkCap m)) := by
  have e : lift (Model.checkCap m) = (do
      match ← lift m.command with
      | .capability =>
        match ← lift m.params with
        | some v => if hasPrefix (b!"* ACK") v then return none else return some .auth
        | none => return some .auth
      | _ => return some (.welcome m) : Act (Option ConnectError)) := by
    unfold Model.checkCap
    cases hc : m.command with
    | error f => rfl
    | ok c =>
      cases c <;> try rfl
      show lift (m.params >>= _) = (lift m.params >>= _)
      cases m.params with
      | error f => rfl
      | ok p =>
        cases p with
        | none => rfl
        | some v =>
          exact lift_ite _ _ _
  rw [e]
  unfold Logged.checkCap
  refine .bind id (.tame (.lift _)) fun c _ => ?_
  cases c <;> try exact .note (by decide) (.pure trivial)
  refine .bind id (.tame (.lift _)) fun p _ => ?_
  cases p with
  | none => exact .pure trivial
  | some v =>
    dsimp only
    split
    · exact .note (by decide) (.pure trivial)
    · exact .pure trivial

theorem Tracks.checkWelcome {k : Bool} (m : MsgOwned) :
    Tracks esc b g L k k (fun _ => True) (Logged.checkWelcome m) (lift (checkWelcome m)) := by
  have e : lift (Model.checkWelcome m) = (do
      match ← lift m.command with
      | .rplWelcome => return none
      | .notice =>
        match ← lift m.params with
        | some v =>
          if containsStr (b!"authentication failed") v then return some .auth
          else return some (.notice m)
        | none => return some (.notice m)
      | _ => return some (.welcome m) : Act (Option ConnectError)) := by
    unfold Model.checkWelcome
    cases hc : m.command with
    | error f => rfl
    | ok c =>
      cases c <;> try rfl
      show lift (m.params >>= _) = (lift m.params >>= _)
      cases m.params with
      | error f => rfl
      | ok p =>
        cases p with
        | none => rfl
        | some v =>
          exact lift_ite _ _ _
  rw [e]
  unfold Logged.checkWelcome
  refine .bind id (.tame (.lift _)) fun c _ => ?_
  cases c <;> try exact .note (by decide) (.pure trivial)
  refine .bind id (.tame (.lift _)) fun p _ => ?_
  cases p with
  | none => exact .note (by decide) (.pure trivial)
  | some v =>
    dsimp only
    split
    · exact .note (by decide) (.pure trivial)
    · exact .note (by decide) (.pure trivial)

theorem Tracks.awaitWelcome {k : Bool} :
    Tracks esc b g L k k (fun _ => True) (Logged.awaitWelcome esc b) (awaitWelcome b) := by
  unfold Logged.awaitWelcome Model.awaitWelcome
  refine .note (by decide) (.bind id .recvReply fun r hr => ?_)
  cases r with
  | error e => exact .pure trivial
  | ok m =>
    obtain ⟨s, hs, hm⟩ := hr m rfl
    refine .received hs hm (.bind id (.checkCap m) fun o _ => ?_)
    cases o with
    | some e => exact .pure trivial
    | none =>
      refine .note (by decide) (.bind id .recvReply fun r hr => ?_)
      cases r with
      | error e => exact .pure trivial
      | ok m =>
        obtain ⟨s, hs, hm⟩ := hr m rfl
        refine .received hs hm (.bind id (.checkWelcome m) fun o _ => ?_)
        cases o <;> exact .pure trivial

theorem Tracks.handshake : Tracks esc b g L true true (fun _ => True) (Logged.handshake esc b) (handshake b) := by
  unfold Logged.handshake Model.handshake
  refine .note (by decide) (.bind (Q := fun c => c.config.credentials.login = g) id
    (.act .getClient fun w hw a ha => ?_) fun c hc => ?_)
  · cases ha; exact hw.login rfl
  · have hg : Shows esc b g L ⟨helloTrace (debugStr esc) c.config.credentials, none⟩ := by
      have e : helloTrace (debugStr esc) c.config.credentials = greetingText esc g := by
        unfold helloTrace greetingText
        rw [hc]
        have e : debugStr esc (b!"twitch.tv/commands twitch.tv/tags twitch.tv/membership") =
            b!"\"twitch.tv/commands twitch.tv/tags twitch.tv/membership\"" := by
          rfl
        rw [e]
        rfl
      rw [e]
      exact .greeting
    refine .trace hg (.bind id (.tame (.setScratch _)) fun _ _ => .bind id (.tame (.writeAll _)) fun r _ => ?_)
    cases r with
    | error e => exact .pure trivial
    | ok u =>
      refine .bind id (.tame .flush) fun r _ => ?_
      cases r with
      | error e => exact .pure trivial
      | ok u => exact .bind id (.tame (.setScratch _)) fun _ _ => .awaitWelcome

theorem Tracks.setClient (c : Client) (h : c.config.credentials.login = g) :
    Tracks esc b g L false true (fun _ => True) (Logged.act (setClient c)) (setClient c) := fun w rs hw =>
  ⟨⟨[], (List.append_nil _).symm, by simp⟩, .inl ⟨rfl, rfl, fun _ _ => ⟨⟨hw.lines, fun _ => h⟩, trivial⟩,
    fun _ he => by cases he⟩⟩

theorem Tracks.weaken {k k' : Bool} {Q : α → Prop} {x : Logged.LAct α} {y : Act α} (h : Tracks esc b g L k k' Q x y) :
    Tracks esc b g L k false Q x y := by
  intro w rs hw
  obtain ⟨h1, h2⟩ := h w rs hw
  refine ⟨h1, ?_⟩
  rcases h2 with ⟨a1, a2, a3, a4⟩ | h2
  · exact .inl ⟨a1, a2, fun a ha => ⟨(a3 a ha).1.weaken false (by simp), (a3 a ha).2⟩, a4⟩
  · exact .inr h2

theorem Tracks.connect (cfg : Config) (h : cfg.credentials.login = g) :
    Tracks esc b g L false false (fun _ => True) (Logged.connect esc b cfg) (connect b cfg) := by
  unfold Logged.connect Model.connect
  refine .note (by decide) (.note (by decide) (.bind id (.tame .next) fun a _ => ?_))
  cases a <;> try exact .tame (.stop _)
  · refine .note (by decide) (.bind id (.timeout _ .openStream) fun r _ => ?_)
    rcases r with _ | (e | u)
    · exact .pure trivial
    · exact .pure trivial
    · refine .bind id (.tame (.emit _)) fun _ _ => .bind (fun e => by simp at e) (.setClient _ h) fun _ _ =>
        .bind id (.timeout _ .handshake) fun r _ => ?_
      rcases r with _ | r
      · exact .weaken (.pure trivial)
      · exact .weaken (.pure trivial)
  · exact .pure trivial

theorem Tracks.reconnectLoop (cfg : Config) : ∀ (fuel : Nat) (tries : Option Nat) (delay : Nat) (cause : ConnectError),
    Tracks esc b g L true true (fun _ => True) (Logged.reconnectLoop esc b cfg fuel tries delay cause)
      (reconnectLoop b cfg fuel tries delay cause)
  | 0, _, _, _ => .tame (.stop _)
  | fuel + 1, tries, delay, cause => by
    rw [Logged.reconnectLoop, Model.reconnectLoop]
    split
    · exact .pure trivial
    · refine .bind id (.tame (.sleep _)) fun _ _ => .bind id (.tame (.lift _)) fun d _ => .note (by decide)
        (.bind id (.timeout _ .openStream) fun r _ => ?_)
      rcases r with _ | (e | u)
      · exact .pure trivial
      · exact Tracks.reconnectLoop cfg fuel _ _ _
      · refine .bind id (.tame .useStream) fun _ _ => .bind id (.timeout _ .handshake) fun r _ => ?_
        rcases r with _ | (e | u)
        · exact .pure trivial
        · dsimp only
          split
          · exact Tracks.reconnectLoop cfg fuel _ _ _
          · exact .pure trivial
        · exact .pure trivial

theorem Tracks.reconnect : Tracks esc b g L true true (fun _ => True) (Logged.reconnect esc b) (reconnect b) := by
  unfold Logged.reconnect
  refine .note (by decide) ?_
  intro w rs hw
  exact Tracks.reconnectLoop w.client.config _ _ _ _ w rs hw

end

end Tmi.Proofs
