/-
Lemmas for C53: how long connecting takes.
-/
import Verif.Spec.Timed
import Verif.Proofs.Timed
import Verif.Proofs.Attempts

namespace Tmi.Proofs
open Tmi.Model Tmi.Spec


theorem punctual_connect (b : Build) (cfg : Config) : Punctual (Timed.connect b cfg) := by
  refine Punctual.next.bind fun a => ?_
  cases a with
  | tlsLoaded =>
    refine (Punctual.openStream.timeout _).bind fun a => ?_
    rcases a with _ | (e | s)
    · exact .pure _
    · exact .pure _
    · refine (Punctual.emit _).bind fun _ => (Punctual.setClient _).bind fun _ =>
        ((Punctual.handshake b).timeout _).bind fun a => ?_
      cases a <;> exact .pure _
  | tlsFailed => exact .pure _
  | _ => exact .dropped

theorem punctual_loop (b : Build) (cfg : Config) : ∀ (n : Nat) (tries : Option Nat) (d : Nat)
    (cause : ConnectError), Punctual (Timed.reconnectLoop b cfg n tries d cause)
  | 0, _, _, _ => .panic _
  | n + 1, tries, d, cause => by
    rw [Timed.reconnectLoop]
    split
    · exact .pure _
    · refine (Punctual.sleep d).bind fun _ => (Punctual.lift _).bind fun d' => ?_
      refine (Punctual.openStream.timeout _).bind fun a => ?_
      rcases a with _ | (e | s)
      · exact .pure _
      · exact punctual_loop b cfg n _ _ _
      · refine Punctual.useStream.bind fun _ => ((Punctual.handshake b).timeout _).bind fun a => ?_
        rcases a with _ | (e | s)
        · exact .pure _
        · simp only []
          split
          · exact punctual_loop b cfg n _ _ _
          · exact .pure _
        · exact .pure _

theorem lasts_loop (b : Build) (cfg : Config) : ∀ (n : Nat) (t k : Nat) (cause : ConnectError),
    Lasts (attemptsTime cfg.backoff cfg.timeout k t)
      (Timed.reconnectLoop b cfg n (some t) (delay cfg.backoff k) cause)
  | 0, _, _, _ => (Lasts.panic _).mono (Nat.zero_le _)
  | n + 1, 0, _, _ => by
    rw [Timed.reconnectLoop, if_pos rfl]
    exact (Lasts.pure _).mono (Nat.zero_le _)
  | n + 1, t + 1, k, cause => by
    rw [Timed.reconnectLoop, if_neg (by simp), attemptsTime, Nat.add_assoc, Nat.add_assoc]
    refine (Lasts.sleep _).bind fun _ => ?_
    cases h : mulDuration (delay cfg.backoff k) cfg.backoff.delayMultiplier with
    | error f =>
      have := (Lasts.panic (α := Nat) f).bind (t := cfg.timeout + (cfg.timeout +
        attemptsTime cfg.backoff cfg.timeout (k + 1) t)) (f := fun _ => Timed.stop (α := Except ConnectError Unit)
          (.panic f)) fun _ => (Lasts.panic _).mono (Nat.zero_le _)
      intro w hw
      exact ⟨Nat.le_add_right _ _, hw, by simp [tact_bind, Timed.lift, Timed.stop]⟩
    | ok x =>
      have hd : min cfg.backoff.maxDelay x = delay cfg.backoff (k + 1) := by
        rw [delay_succ, (mulDuration_inv h).2]
      refine Lasts.mono (s := 0 + (cfg.timeout + (cfg.timeout +
        attemptsTime cfg.backoff cfg.timeout (k + 1) t))) ?_ (by omega)
      intro w hw
      rw [tact_bind_ok (x := Timed.lift (.ok x)) (a := x) (w' := w) rfl]
      revert w
      show Lasts _ _
      rw [Nat.zero_add]
      simp only [hd]
      refine (Lasts.timeout Punctual.openStream _).bind fun a => ?_
      rcases a with _ | (e | s)
      · exact (Lasts.pure _).mono (Nat.zero_le _)
      · exact (lasts_loop b cfg n t (k + 1) _).mono (Nat.le_add_left _ _)
      · refine Lasts.mono (s := 0 + (cfg.timeout + attemptsTime cfg.backoff cfg.timeout (k + 1) t)) ?_
          (by omega)
        refine Lasts.useStream.bind fun _ => (Lasts.timeout (Punctual.handshake b) _).bind fun a => ?_
        rcases a with _ | (e | s)
        · exact (Lasts.pure _).mono (Nat.zero_le _)
        · simp only []
          split
          · exact lasts_loop b cfg n t (k + 1) _
          · exact (Lasts.pure _).mono (Nat.zero_le _)
        · exact (Lasts.pure _).mono (Nat.zero_le _)

theorem RunVia.ends {α : Type} {script : List Answer} {r : Except TStop α} {w w' : TWorld} {g : Act α}
    (h : RunVia script r w w' g) : g ⟨w.client, w.log, script⟩ = (r.mapError withoutClock, ⟨w'.client, w'.log, []⟩) := by
  have h := h.run
  have e : script ++ [] = script := List.append_nil _
  cases r with
  | ok a => exact e ▸ h []
  | error x =>
    cases x with
    | elapsed k => exact e ▸ h []
    | panic k => exact e ▸ h []
    | dropped => exact h
    | pending => exact h

theorem RunVia.readable {α : Type} {b : Build} {script : List Answer} {r : Except TStop α} {w w' : TWorld}
    {g : Act α} (h : RunVia script r w w' g) (hr : ∀ s ∈ lineWaits w.waits, Parses b s) :
    AllParse b script := by
  intro s hs
  obtain ⟨dt, hdt⟩ := h.lines s hs
  exact hr s (List.mem_filterMap.mpr ⟨_, hdt, rfl⟩)

theorem connect_no_panic {b : Build} {cfg : Config} {w : World} (hr : AllParse b w.script) (f : Fault)
    (w' : World) : connect b cfg w ≠ (.error (.panic f), w') := by
  intro h
  unfold connect at h
  rcases next_cases w with ⟨hs, hn⟩ | ⟨n, rest, hs, hn⟩ | ⟨a, rest, hs, hne, hn⟩
  · rw [act_bind_error hn] at h; simp at h
  · rw [act_bind_error hn] at h; simp at h
  rw [act_bind_ok hn] at h
  cases a with
  | tlsLoaded =>
    simp only [] at h
    rw [act_bind, open_run] at h
    rw [hs] at hr
    cases hr' : rest with
    | nil => rw [hr'] at h; simp at h
    | cons a rest' =>
      rw [hr'] at h hr hs
      cases a with
      | elapsed n => cases n <;> simp [act_pure] at h
      | openFailed e => simp [act_pure] at h
      | opened =>
        simp only [act_bind, emit, setClient, withTimeout] at h
        generalize hw1 : World.mk _ (w.log ++ [.open_] ++ [.connected]) rest' = w1 at h
        have hf := handshake_no_panic (b := b) (w := w1) (by rw [← hw1])
          (by rw [← hw1]; exact hr.tail.tail)
        cases hh : handshake b w1 with
        | mk x w2 =>
          rw [hh] at h
          cases x with
          | ok x => simp [act_pure] at h
          | error st =>
            cases st with
            | elapsed n => cases n <;> simp [act_pure] at h
            | dropped => simp at h
            | panic f => exact hf f w2 hh
      | _ => simp at h
  | _ => simp [act_pure, stop] at h

/-! ### A timeout is not reported early -/

/-- Results that are `P` are not there before `m` has passed. -/
def Patient {α : Type} (m : Nat) (P : α → Prop) (f : TAct α) : Prop :=
  ∀ w, (∀ d ∈ w.deadlines, w.now ≤ d) → ∀ a, (f w).1 = .ok a → P a → w.now + m ≤ (f w).2.now

theorem Patient.bind {α β : Type} {m : Nat} {P : β → Prop} {x : TAct α} {f : α → TAct β}
    (hx : Punctual x) (hf : ∀ a, Punctual (f a))
    (h : ∀ w, (∀ d ∈ w.deadlines, w.now ≤ d) → ∀ a, (x w).1 = .ok a →
      w.now + m ≤ (x w).2.now ∨ Patient m P (f a)) : Patient m P (x >>= f) := by
  intro w hw r hr hP
  have h1 := hx.later w
  have h2 := hx.onTime w hw
  have h3 := hx.keeps w
  have h4 := h w hw
  cases hxw : x w with
  | mk a w' =>
    rw [hxw] at h1 h2 h3 h4
    simp only [] at h1 h2 h3 h4
    cases a with
    | error e => rw [tact_bind_error hxw] at hr; simp at hr
    | ok a =>
      rw [tact_bind_ok hxw] at hr ⊢
      rcases h4 a rfl with h4 | h4
      · exact Nat.le_trans h4 ((hf a).later w')
      · have := h4 w' (by rw [h3]; exact h2) r hr hP
        omega

theorem Patient.later {α β : Type} {m : Nat} {P : β → Prop} {x : TAct α} {f : α → TAct β}
    (hx : Punctual x) (hf : ∀ a, Punctual (f a)) (h : ∀ a, Patient m P (f a)) : Patient m P (x >>= f) :=
  .bind hx hf fun _ _ a _ => .inr (h a)

theorem Patient.not {α : Type} {m : Nat} {P : α → Prop} {a : α} (h : ¬ P a) :
    Patient m P (pure a : TAct α) := by
  intro w _ r hr hP
  simp [tact_pure] at hr
  exact absurd (hr ▸ hP) h

theorem Patient.stop {α : Type} {m : Nat} {P : α → Prop} (e : TStop) :
    Patient m P (Timed.stop e : TAct α) := by
  intro w _ r hr
  simp [Timed.stop] at hr

theorem checkCap_not_timeout {m : MsgOwned} : checkCap m ≠ .ok (some .timeout) := by
  intro h
  unfold checkCap at h
  cases hc : m.command with
  | error f => rw [hc] at h; simp [bind, Except.bind] at h
  | ok c =>
    rw [hc, bind_ok] at h
    split at h
    · cases hp : m.params with
      | error f => rw [hp] at h; simp [bind, Except.bind] at h
      | ok p =>
        rw [hp, bind_ok] at h
        split at h
        · split at h <;> simp [pure, Except.pure] at h
        · simp [pure, Except.pure] at h
    · simp [pure, Except.pure] at h

theorem checkWelcome_not_timeout {m : MsgOwned} : checkWelcome m ≠ .ok (some .timeout) := by
  intro h
  unfold checkWelcome at h
  cases hc : m.command with
  | error f => rw [hc] at h; simp [bind, Except.bind] at h
  | ok c =>
    rw [hc, bind_ok] at h
    split at h
    · simp [pure, Except.pure] at h
    · cases hp : m.params with
      | error f => rw [hp] at h; simp [bind, Except.bind] at h
      | ok p =>
        rw [hp, bind_ok] at h
        split at h
        · split at h <;> simp [pure, Except.pure] at h
        · simp [pure, Except.pure] at h
    · simp [pure, Except.pure] at h

theorem lift_result {α : Type} {x : R α} {w : TWorld} {a : α} (h : (Timed.lift x w).1 = .ok a) : x = .ok a := by
  cases x with
  | ok b => simp [Timed.lift, tact_pure] at h; rw [h]
  | error f => simp [Timed.lift, Timed.stop] at h

/-- The result is `Timeout`. -/
def IsTimeout {α : Type} (r : Except ConnectError α) : Prop := r = .error .timeout

theorem Patient.mono {α : Type} {m n : Nat} {P : α → Prop} {f : TAct α} (h : Patient n P f) (hm : m ≤ n) :
    Patient m P f := fun w hw a ha hP => Nat.le_trans (by omega) (h w hw a ha hP)

theorem Patient.recvReply (b : Build) : Patient 5000000000 IsTimeout (Timed.recvReply b) := by
  have hp := Punctual.recv b
  refine .bind (hp.timeout _) ?_ ?_
  · intro a; rcases a with _ | (e | m) <;> exact .pure _
  · intro w hw a ha
    rcases a with _ | (e | m)
    · left
      rw [(timeout_spec hp _ w hw).2.1 ha]
      exact Nat.le_refl _
    · exact .inr (.not (by simp [IsTimeout]))
    · exact .inr (.not (by simp [IsTimeout]))

theorem Patient.awaitWelcome (b : Build) : Patient 5000000000 IsTimeout (Timed.awaitWelcome b) := by
  have second : ∀ m : MsgOwned, Punctual (do
      match ← Timed.lift (checkWelcome m) with
      | some e => return Except.error e
      | none => return Except.ok () : TAct (Except ConnectError Unit)) := by
    intro m
    refine (Punctual.lift _).bind fun o => ?_
    cases o <;> exact .pure _
  have rest : Punctual (do
      match ← Timed.recvReply b with
      | .error e => return Except.error e
      | .ok m =>
        match ← Timed.lift (checkWelcome m) with
        | some e => return Except.error e
        | none => return Except.ok () : TAct (Except ConnectError Unit)) := by
    refine (Punctual.recvReply b).bind fun a => ?_
    cases a with
    | error e => exact .pure _
    | ok m => exact second m
  refine .bind (Punctual.recvReply b) ?_ ?_
  · intro a
    cases a with
    | error e => exact .pure _
    | ok m =>
      refine (Punctual.lift _).bind fun o => ?_
      cases o with
      | some e => exact .pure _
      | none => exact rest
  · intro w hw a ha
    cases a with
    | error e =>
      by_cases he : e = .timeout
      · left; subst he; exact Patient.recvReply b w hw _ ha rfl
      · exact .inr (.not (by simpa [IsTimeout] using he))
    | ok m =>
      refine .inr (.bind (Punctual.lift _) ?_ ?_)
      · intro o
        cases o with
        | some e => exact .pure _
        | none => exact rest
      · intro w hw o ho
        cases o with
        | some e =>
          refine .inr (.not ?_)
          intro he
          have : e = .timeout := by simpa [IsTimeout] using he
          subst this
          exact checkCap_not_timeout (lift_result ho)
        | none =>
          refine .inr (.bind (Punctual.recvReply b) ?_ ?_)
          · intro a
            cases a with
            | error e => exact .pure _
            | ok m => exact second m
          · intro w hw a ha
            cases a with
            | error e =>
              by_cases he : e = .timeout
              · left; subst he; exact Patient.recvReply b w hw _ ha rfl
              · exact .inr (.not (by simpa [IsTimeout] using he))
            | ok m =>
              refine .inr (.bind (Punctual.lift _) ?_ ?_)
              · intro o; cases o <;> exact .pure _
              · intro w hw o ho
                cases o with
                | some e =>
                  refine .inr (.not ?_)
                  intro he
                  have : e = .timeout := by simpa [IsTimeout] using he
                  subst this
                  exact checkWelcome_not_timeout (lift_result ho)
                | none => exact .inr (.not (by simp [IsTimeout]))

theorem Patient.handshake (b : Build) : Patient 5000000000 IsTimeout (Timed.handshake b) := by
  have h3 : ∀ a : Except IoError Unit, Punctual (match a with
      | .error e => pure (.error (.io e))
      | .ok () => do
        Timed.setScratch []
        Timed.awaitWelcome b) := by
    intro a
    cases a with
    | error e => exact .pure _
    | ok _ => exact (Punctual.setScratch _).bind fun _ => .awaitWelcome b
  have h2 : ∀ a : Except IoError Unit, Punctual (match a with
      | .error e => pure (.error (.io e))
      | .ok () => do
        match ← Timed.flush with
        | .error e => return .error (.io e)
        | .ok () => do
          Timed.setScratch []
          Timed.awaitWelcome b) := by
    intro a
    cases a with
    | error e => exact .pure _
    | ok _ => exact Punctual.flush.bind h3
  refine .later .getClient (fun c => (Punctual.setScratch _).bind fun _ => (Punctual.writeLoop _ _).bind h2)
    fun c => .later (.setScratch _) (fun _ => (Punctual.writeLoop _ _).bind h2)
    fun _ => .later (.writeLoop _ _) h2 fun a => ?_
  cases a with
  | error e => exact .not (by simp [IsTimeout])
  | ok _ =>
    refine .later .flush h3 fun a => ?_
    cases a with
    | error e => exact .not (by simp [IsTimeout])
    | ok _ => exact .later (.setScratch _) (fun _ => .awaitWelcome b) fun _ => .awaitWelcome b

/-- Opening a connection and shaking hands. -/
theorem Patient.timeouts {α : Type} {x : TAct α} (hx : Punctual x) (t : Nat)
    {β : Type} {P : β → Prop} {f : Except Unit α → TAct β} (hf : ∀ a, Punctual (f a))
    (h : ∀ w, (∀ d ∈ w.deadlines, w.now ≤ d) → ∀ a, (x w).1 = .ok a →
      w.now + min t 5000000000 ≤ (x w).2.now ∨ Patient (min t 5000000000) P (f (.ok a))) :
    Patient (min t 5000000000) P (Timed.withTimeout t x >>= f) := by
  refine .bind (hx.timeout t) hf fun w hw a ha => ?_
  cases a with
  | error u =>
    left
    rw [(timeout_spec hx t w hw).2.1 ha]
    omega
  | ok a =>
    rw [timeout_run] at ha ⊢
    have hx' : (x (armed t w)).1 = .ok a := by
      cases hr : (x (armed t w)).1 with
      | ok b => simp [hr, timeoutResult] at ha; rw [ha]
      | error e =>
        simp only [hr] at ha
        cases e with
        | elapsed n => cases n <;> simp [timeoutResult] at ha
        | _ => simp [timeoutResult] at ha
    rcases h (armed t w) (armed_le hw) a hx' with h | h
    · exact .inl h
    · exact .inr h

theorem Patient.shake (b : Build) (t : Nat) {P : Except ConnectError Unit → Prop}
    {f : Except Unit (Except ConnectError Unit) → TAct (Except ConnectError Unit)} (hf : ∀ a, Punctual (f a))
    (h : ∀ a, ¬ IsTimeout a → Patient (min t 5000000000) P (f (.ok a))) :
    Patient (min t 5000000000) P (Timed.withTimeout t (Timed.handshake b) >>= f) := by
  refine .timeouts (Punctual.handshake b) t hf fun w hw a ha => ?_
  by_cases ht : IsTimeout a
  · left
    exact (Patient.handshake b).mono (Nat.min_le_right _ _) w hw a ha ht
  · exact .inr (h a ht)

theorem Patient.connect (b : Build) (cfg : Config) :
    Patient (min cfg.timeout 5000000000) IsTimeout (Timed.connect b cfg) := by
  have h3 : ∀ a : Except Unit (Except ConnectError Unit), Punctual (match a with
      | .error () => pure (.error .timeout)
      | .ok r => pure r : TAct (Except ConnectError Unit)) := by
    intro a; cases a <;> exact .pure _
  have h1 : ∀ a : Except Unit (Except IoError Unit), Punctual (match a with
      | .error () => pure (.error .timeout)
      | .ok (.error e) => pure (.error (.open_ e))
      | .ok (.ok ()) => do
        Timed.emit .connected
        Timed.setClient ⟨false, [], cfg⟩
        match ← Timed.withTimeout cfg.timeout (Timed.handshake b) with
        | .error () => return .error .timeout
        | .ok r => return r) := by
    intro a
    rcases a with _ | (e | s)
    · exact .pure _
    · exact .pure _
    · exact (Punctual.emit _).bind fun _ => (Punctual.setClient _).bind fun _ =>
        ((Punctual.handshake b).timeout _).bind h3
  refine .later .next ?_ fun a => ?_
  · intro a
    cases a with
    | tlsLoaded => exact (Punctual.openStream.timeout _).bind h1
    | tlsFailed => exact .pure _
    | _ => exact .dropped
  cases a with
  | tlsLoaded =>
    refine .timeouts .openStream cfg.timeout h1 fun _ _ a _ => .inr ?_
    rcases a with e | s
    · exact .not (by simp [IsTimeout])
    · refine .later (.emit _) (fun _ => (Punctual.setClient _).bind fun _ =>
        ((Punctual.handshake b).timeout _).bind h3) fun _ => .later (.setClient _) (fun _ =>
        ((Punctual.handshake b).timeout _).bind h3) fun _ => .shake b _ h3 fun a ha => .not ha
  | tlsFailed => exact .not (by simp [IsTimeout])
  | _ => exact .stop _

theorem Patient.after {α β : Type} {d m : Nat} {P : β → Prop} {x : TAct α} {f : α → TAct β}
    (hx : Punctual x) (hd : ∀ w a, (x w).1 = .ok a → w.now + d ≤ (x w).2.now)
    (h : ∀ a, Patient m P (f a)) : Patient (d + m) P (x >>= f) := by
  intro w hw r hr hP
  have h1 := hd w
  have h2 := hx.onTime w hw
  have h3 := hx.keeps w
  cases hxw : x w with
  | mk a w' =>
    rw [hxw] at h1 h2 h3
    simp only [] at h1 h2 h3
    cases a with
    | error e => rw [tact_bind_error hxw] at hr; simp at hr
    | ok a =>
      rw [tact_bind_ok hxw] at hr ⊢
      have := h a w' (by rw [h3]; exact h2) r hr hP
      have := h1 a rfl
      omega

/-- An attempt, after the delay. -/
def attemptThen (b : Build) (cfg : Config) (again : ConnectError → TAct (Except ConnectError Unit)) :
    TAct (Except ConnectError Unit) := do
  match ← Timed.withTimeout cfg.timeout Timed.openStream with
  | .error () => return .error .timeout
  | .ok (.error e) => again (.open_ e)
  | .ok (.ok ()) => do
    Timed.useStream
    match ← Timed.withTimeout cfg.timeout (Timed.handshake b) with
    | .error () => return .error .timeout
    | .ok (.error e) => if e.shouldRetry then again e else return .error e
    | .ok (.ok ()) => return .ok ()

theorem attemptThen_patient (b : Build) (cfg : Config) (again : ConnectError → TAct (Except ConnectError Unit))
    (hp : ∀ e, Punctual (again e))
    (h : ∀ e, e ≠ .timeout → Patient (min cfg.timeout 5000000000) IsTimeout (again e)) :
    Punctual (attemptThen b cfg again) ∧
    Patient (min cfg.timeout 5000000000) IsTimeout (attemptThen b cfg again) := by
  have h3 : ∀ a : Except Unit (Except ConnectError Unit), Punctual (match a with
      | .error () => pure (.error .timeout)
      | .ok (.error e) => if e.shouldRetry then again e else pure (.error e)
      | .ok (.ok ()) => pure (.ok ()) : TAct (Except ConnectError Unit)) := by
    intro a
    rcases a with _ | (e | s)
    · exact .pure _
    · simp only []
      split
      · exact hp e
      · exact .pure _
    · exact .pure _
  have h1 : ∀ a : Except Unit (Except IoError Unit), Punctual (match a with
      | .error () => pure (.error .timeout)
      | .ok (.error e) => again (.open_ e)
      | .ok (.ok ()) => do
        Timed.useStream
        match ← Timed.withTimeout cfg.timeout (Timed.handshake b) with
        | .error () => return .error .timeout
        | .ok (.error e) => if e.shouldRetry then again e else return .error e
        | .ok (.ok ()) => return .ok ()) := by
    intro a
    rcases a with _ | (e | s)
    · exact .pure _
    · exact hp _
    · exact Punctual.useStream.bind fun _ => ((Punctual.handshake b).timeout _).bind h3
  refine ⟨(Punctual.openStream.timeout _).bind h1, ?_⟩
  refine .timeouts .openStream cfg.timeout h1 fun _ _ a _ => .inr ?_
  rcases a with e | s
  · exact h _ (by simp)
  · refine .later .useStream (fun _ => ((Punctual.handshake b).timeout _).bind h3) fun _ =>
      .shake b _ h3 fun a ha => ?_
    rcases a with e | s
    · have he : e ≠ .timeout := by simpa [IsTimeout] using ha
      simp only []
      split
      · exact h e he
      · exact .not ha
    · exact .not ha

theorem loop_step (b : Build) (cfg : Config) (n : Nat) (tries : Option Nat) (d : Nat) (cause : ConnectError)
    (ht : tries ≠ some 0) : Timed.reconnectLoop b cfg (n + 1) tries d cause = (do
      Timed.sleep d
      let d' ← Timed.lift (mulDuration d cfg.backoff.delayMultiplier)
      attemptThen b cfg (Timed.reconnectLoop b cfg n (tries.map (· - 1)) (min cfg.backoff.maxDelay d'))) := by
  rw [Timed.reconnectLoop, if_neg ht]
  rfl

/-- `Timeout` does not come before the delay and a timeout have passed. -/
theorem Patient.loop (b : Build) (cfg : Config) : ∀ (n : Nat) (tries : Option Nat) (d : Nat)
    (cause : ConnectError), (tries ≠ some 0 → Patient (d + min cfg.timeout 5000000000) IsTimeout
      (Timed.reconnectLoop b cfg n tries d cause)) ∧ (cause ≠ .timeout →
    Patient (min cfg.timeout 5000000000) IsTimeout (Timed.reconnectLoop b cfg n tries d cause))
  | 0, _, _, _ => ⟨fun _ => .stop _, fun _ => .stop _⟩
  | n + 1, tries, d, cause => by
    have h1 : tries ≠ some 0 → Patient (d + min cfg.timeout 5000000000) IsTimeout
        (Timed.reconnectLoop b cfg (n + 1) tries d cause) := by
      intro ht
      rw [loop_step _ _ _ _ _ _ ht]
      have ha := fun d' => attemptThen_patient b cfg
        (Timed.reconnectLoop b cfg n (tries.map (· - 1)) (min cfg.backoff.maxDelay d'))
        (fun e => punctual_loop b cfg n _ _ e) fun e he => (Patient.loop b cfg n _ _ e).2 he
      refine .after (.sleep d) (fun w a h => ?_) fun _ =>
        .later (.lift _) (fun d' => (ha d').1) fun d' => (ha d').2
      rcases sleep_cases d w with ⟨k, t, _, _, hs⟩ | ⟨dt, _, _, hs⟩ | ⟨_, hs⟩ <;> rw [hs] at h ⊢
      · simp at h
      · simp at h
      · exact Nat.le_refl _
    refine ⟨h1, fun hc => ?_⟩
    by_cases ht : tries = some 0
    · rw [Timed.reconnectLoop, if_pos ht]
      exact .not (by simpa [IsTimeout] using hc)
    · exact (h1 ht).mono (Nat.le_add_left _ _)

/-! ### The replies -/

/-- Ends by time `t`, when started in `w`. -/
def By {α : Type} (t : Nat) (w : TWorld) (f : TAct α) : Prop := (f w).2.now ≤ t

theorem By.bind {α β : Type} {t : Nat} {w : TWorld} {x : TAct α} {f : α → TAct β} (hx : By t w x)
    (h : ∀ a w', x w = (.ok a, w') → By t w' (f a)) : By t w (x >>= f) := by
  unfold By at *
  cases hw : x w with
  | mk r w' =>
    rw [hw] at hx
    cases r with
    | error e => rw [tact_bind_error hw]; exact hx
    | ok a => rw [tact_bind_ok hw]; exact h a w' hw

theorem By.timeout {α : Type} {t d : Nat} {w : TWorld} {f : TAct α} (h : By t (armed d w) f) :
    By t w (Timed.withTimeout d f) := by
  unfold By
  rw [timeout_run]
  exact h

/-- A wait takes at most its time. -/
theorem next_by {w : TWorld} {dt : Nat} {ev : WaitEnd} {rest : List (Nat × WaitEnd)}
    (hw : w.waits = (dt, ev) :: rest) : By (w.now + dt) w Timed.next ∧
    ∀ a w', Timed.next w = (.ok a, w') → ev = .answer a ∧ w' = { w with now := w.now + dt, waits := rest } := by
  unfold By Timed.next
  rw [hw]
  simp only []
  cases hf : Timed.fires w.deadlines (w.now + dt) with
  | some kd =>
    obtain ⟨k, d⟩ := kd
    have := (fires_some hf).2.2
    refine ⟨by simp only []; omega, fun a w' h => by simp at h⟩
  | none =>
    simp only []
    split
    · exact ⟨Nat.le_refl _, fun a w' h => by simp at h⟩
    · exact ⟨Nat.le_refl _, fun a w' h => by simp at h⟩
    · refine ⟨Nat.le_refl _, fun a w' h => ?_⟩
      simp at h
      exact ⟨by rw [h.1], h.2.symm⟩

theorem recvReply_by (b : Build) {w : TWorld} (hw : ∀ e ∈ w.deadlines, w.now ≤ e) :
    By (w.now + 5000000000) w (Timed.recvReply b) := by
  refine .bind (timeout_spec (Punctual.recv b) _ w hw).1 fun a w' h => ?_
  have := (timeout_spec (Punctual.recv b) 5000000000 w hw).1
  rw [h] at this
  rcases a with _ | (e | m) <;> exact this

theorem awaitWelcome_by (b : Build) {w : TWorld} (hw : ∀ e ∈ w.deadlines, w.now ≤ e) :
    By (w.now + 10000000000) w (Timed.awaitWelcome b) := by
  have step : ∀ w : TWorld, (∀ e ∈ w.deadlines, w.now ≤ e) → ∀ a w', Timed.recvReply b w = (.ok a, w') →
      w'.now ≤ w.now + 5000000000 ∧ ∀ e ∈ w'.deadlines, w'.now ≤ e := by
    intro w hw a w' h
    have h1 := recvReply_by b hw
    have h2 := (Punctual.recvReply b).onTime w hw
    have h3 := (Punctual.recvReply b).keeps w
    unfold By at h1
    rw [h] at h1 h2 h3
    exact ⟨h1, by rw [h3]; exact h2⟩
  refine .bind (Nat.le_trans (recvReply_by b hw) (by omega)) fun a w1 h => ?_
  obtain ⟨t1, d1⟩ := step w hw a w1 h
  cases a with
  | error e => exact Nat.le_trans t1 (by omega)
  | ok m =>
    have hl : ∀ {α : Type} (x : R α) (w : TWorld), (Timed.lift x w).2 = w := by
      intro α x w; cases x <;> rfl
    refine .bind (by unfold By; rw [hl]; omega) fun o w2 h2 => ?_
    have e2 := hl (checkCap m) w1
    rw [h2] at e2
    simp only [] at e2
    subst e2
    cases o with
    | some e => exact Nat.le_trans t1 (by omega)
    | none =>
      refine .bind (Nat.le_trans (recvReply_by b d1) (by omega)) fun a w3 h3 => ?_
      obtain ⟨t3, d3⟩ := step w2 d1 a w3 h3
      cases a with
      | error e => exact Nat.le_trans t3 (by omega)
      | ok m =>
        refine .bind (by unfold By; rw [hl]; omega) fun o w4 h4 => ?_
        have e4 := hl (checkWelcome m) w3
        rw [h4] at e4
        simp only [] at e4
        subst e4
        cases o <;> exact Nat.le_trans t3 (by omega)

/-- The outcome of a wait under a timeout. -/
theorem open_by {t : Nat} {w : TWorld} {dt : Nat} {ev : Answer} {rest : List (Nat × WaitEnd)}
    (hw : w.waits = (dt, .answer ev) :: rest) : By (w.now + dt) w (Timed.withTimeout t Timed.openStream) ∧
    ∀ a w', Timed.withTimeout t Timed.openStream w = (.ok a, w') → w'.now ≤ w.now + dt ∧
      w'.deadlines = w.deadlines ∧ w'.waits = rest := by
  have h0 : By (w.now + dt) w (Timed.withTimeout t Timed.openStream) := by
    refine .timeout (.bind (Nat.le_add_right _ _) fun a w1 h => ?_)
    simp [Timed.emit] at h
    obtain ⟨_, rfl⟩ := h
    have hn := next_by (w := { armed t w with log := (armed t w).log ++ [.open_] }) hw
    refine .bind hn.1 fun a w2 h => ?_
    obtain ⟨_, rfl⟩ := hn.2 a w2 h
    cases a <;> exact Nat.le_refl _
  refine ⟨h0, fun a w' h => ?_⟩
  have h1 : w'.now ≤ w.now + dt := by unfold By at h0; rw [h] at h0; exact h0
  have h2 := (Punctual.openStream.timeout t).keeps w
  rw [h] at h2
  refine ⟨h1, h2, ?_⟩
  rw [timeout_run] at h
  have : w'.waits = (Timed.openStream (armed t w)).2.waits := by
    simp only [Prod.mk.injEq] at h
    rw [← h.2]
  rw [this]
  unfold Timed.openStream
  rw [tact_bind_ok (x := Timed.emit .open_) (a := ())
    (w' := { armed t w with log := (armed t w).log ++ [.open_] }) rfl]
  cases hn : Timed.next { armed t w with log := (armed t w).log ++ [.open_] } with
  | mk a w' =>
    cases a with
    | ok a =>
      rw [tact_bind_ok hn]
      obtain ⟨_, rfl⟩ := (next_by (w := { armed t w with log := (armed t w).log ++ [.open_] }) hw).2 a w' hn
      cases a <;> rfl
    | error e =>
      rw [tact_bind_error hn]
      have : (Timed.next { armed t w with log := (armed t w).log ++ [.open_] }).2.waits = rest := by
        unfold Timed.next
        simp only [armed, hw]
        split
        · rfl
        · split <;> rfl
      rw [hn] at this
      exact this

theorem handshake_by (b : Build) {w : TWorld} (hd : ∀ e ∈ w.deadlines, w.now ≤ e) (hc : w.client.scratch = [])
    {write flush n : Nat} (hn : (hello w.client.config.credentials).length ≤ n) {rest : List (Nat × WaitEnd)}
    (hs : w.waits = (write, .answer (.accept n)) :: (flush, .answer .flushed) :: rest) :
    By (w.now + write + flush + 10000000000) w (Timed.handshake b) := by
  have hp := Punctual.handshake b
  unfold Timed.handshake
  refine .bind (show By _ w Timed.getClient from by show w.now ≤ _; omega) fun c w1 h => ?_
  simp [Timed.getClient] at h
  obtain ⟨rfl, rfl⟩ := h
  refine .bind (show w.now ≤ _ by omega) fun _ w2 h => ?_
  have h : { w with client := { w.client with scratch := w.client.scratch ++ helloText w.client.config.credentials } }
    = w2 := (Prod.mk.inj h).2
  have hw2 : w2.waits = w.waits := by rw [← h]
  have hn2 : w2.now = w.now := by rw [← h]
  have hd2 : w2.deadlines = w.deadlines := by rw [← h]
  have he : w.client.scratch ++ helloText w.client.config.credentials = hello w.client.config.credentials := by
    rw [hc]; exact helloText_eq _
  rw [he]
  have hne := hello_ne_nil w.client.config.credentials
  generalize hello w.client.config.credentials = data at hn hne
  -- the write
  have hwr : By (w.now + write) w2 (Timed.writeAll data) ∧ ∀ a w', Timed.writeAll data w2 = (.ok a, w') →
      w'.now = w.now + write ∧ w'.waits = (flush, .answer .flushed) :: rest := by
    unfold Timed.writeAll
    obtain ⟨k, hk⟩ : ∃ k, data.length = k + 1 := ⟨data.length - 1, by cases data <;> simp at hne ⊢⟩
    have hx := next_by (hw2.trans hs)
    rw [hk, Timed.writeLoop, if_neg hne, ← hn2]
    have key : ∀ a w', Timed.next w2 = (.ok a, w') → w'.now = w2.now + write ∧
        w'.waits = (flush, .answer .flushed) :: rest ∧ a = .accept n := by
      intro a w' h
      obtain ⟨e1, e2⟩ := hx.2 a w' h
      cases e1
      exact ⟨by rw [e2], by rw [e2], rfl⟩
    have fin : ∀ w3 : TWorld, ((do
          Timed.emit (.wrote (data.take n))
          Timed.writeLoop k (data.drop n)) : TAct (Except IoError Unit)) w3
        = (.ok (.ok ()), { w3 with log := w3.log ++ [.wrote (data.take n)] }) := by
      intro w3
      rw [tact_bind_ok (x := Timed.emit (.wrote (data.take n))) (a := ()) (w := w3) rfl,
        List.drop_eq_nil_of_le hn]
      cases k with
      | zero => rfl
      | succ k => rw [Timed.writeLoop, if_pos rfl]; rfl
    have hn0 : n ≠ 0 := by omega
    constructor
    · refine .bind hx.1 fun a w3 h => ?_
      obtain ⟨e1, e2, rfl⟩ := key a w3 h
      simp only [if_neg hn0]
      unfold By
      rw [fin]
      exact Nat.le_of_eq e1
    · intro a w' h
      cases h3 : Timed.next w2 with
      | mk r w3 =>
        cases r with
        | error e => rw [tact_bind_error h3] at h; simp at h
        | ok x =>
          rw [tact_bind_ok h3] at h
          obtain ⟨e1, e2, rfl⟩ := key x w3 h3
          simp only [if_neg hn0] at h
          rw [fin] at h
          simp at h
          rw [← h.2]
          exact ⟨e1, e2⟩
  have hk2 := (Punctual.writeLoop data.length data).keeps w2
  have ho2 := (Punctual.writeLoop data.length data).onTime w2 (by rw [hd2, hn2]; exact hd)
  refine .bind (Nat.le_trans hwr.1 (by omega)) fun a w3 h3 => ?_
  obtain ⟨t3, s3⟩ := hwr.2 a w3 h3
  have h3' : Timed.writeLoop data.length data w2 = (.ok a, w3) := h3
  rw [h3'] at hk2 ho2
  simp only [] at hk2 ho2
  cases a with
  | error e => show w3.now ≤ _; omega
  | ok u =>
    -- the flush
    have hx := next_by s3
    have hfl : By (w3.now + flush) w3 Timed.flush := by
      refine .bind hx.1 fun a w' h => ?_
      obtain ⟨e1, rfl⟩ := hx.2 a w' h
      cases e1
      exact Nat.le_refl _
    have hk3 := Punctual.flush.keeps w3
    have ho3 := Punctual.flush.onTime w3 (by rw [hk2]; exact ho2)
    refine .bind (Nat.le_trans hfl (by omega)) fun a w4 h4 => ?_
    unfold By at hfl
    rw [h4] at hfl hk3 ho3
    simp only [] at hfl hk3 ho3
    cases a with
    | error e => show w4.now ≤ _; omega
    | ok u =>
      refine .bind (show w4.now ≤ _ by omega) fun a w5 h5 => ?_
      have e5 : { w4 with client := { w4.client with scratch := [] } } = w5 := (Prod.mk.inj h5).2
      refine Nat.le_trans (awaitWelcome_by b ?_) ?_
      · rw [← e5]
        show ∀ e ∈ w4.deadlines, w4.now ≤ e
        rw [hk3]; exact ho3
      · rw [← e5]
        show w4.now + _ ≤ _
        omega

end Tmi.Proofs
