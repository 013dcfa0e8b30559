/-
Lemmas about the client with a clock.
-/
import Verif.Model.Timed
import Verif.Proofs.Attempts

namespace Tmi.Proofs
open Tmi.Model Tmi.Spec

theorem tact_bind {α β : Type} (x : TAct α) (f : α → TAct β) (w : TWorld) :
    (x >>= f) w = match x w with
      | (.ok a, w') => f a w'
      | (.error e, w') => (.error e, w') := rfl

theorem tact_bind_ok {α β : Type} {x : TAct α} {f : α → TAct β} {w w' : TWorld} {a : α}
    (h : x w = (.ok a, w')) : (x >>= f) w = f a w' := by rw [tact_bind, h]

theorem tact_bind_error {α β : Type} {x : TAct α} {f : α → TAct β} {w w' : TWorld} {e : TStop}
    (h : x w = (.error e, w')) : (x >>= f) w = (.error e, w') := by rw [tact_bind, h]

theorem tact_pure {α : Type} (a : α) (w : TWorld) : (pure a : TAct α) w = (.ok a, w) := rfl

/-! ### Timers -/

theorem earliest_none {l : List Nat} (h : Timed.earliest l = none) : l = [] := by
  cases l with
  | nil => rfl
  | cons d ds =>
    unfold Timed.earliest at h
    split at h
    · simp at h
    · split at h <;> simp at h

theorem earliest_some {l : List Nat} : ∀ {k d : Nat}, Timed.earliest l = some (k, d) →
    l[k]? = some d ∧ ∀ e ∈ l, d ≤ e := by
  induction l with
  | nil => intro k d h; simp [Timed.earliest] at h
  | cons x xs ih =>
    intro k d h
    unfold Timed.earliest at h
    split at h
    · rename_i h0
      have := earliest_none h0
      subst this
      simp at h
      obtain ⟨rfl, rfl⟩ := h
      simp
    · rename_i k' e h0
      obtain ⟨h1, h2⟩ := ih h0
      split at h
      · simp at h
        obtain ⟨rfl, rfl⟩ := h
        refine ⟨rfl, ?_⟩
        intro y hy
        rcases List.mem_cons.1 hy with rfl | hy
        · exact Nat.le_refl _
        · have := h2 y hy; omega
      · simp at h
        obtain ⟨rfl, rfl⟩ := h
        refine ⟨by simpa using h1, ?_⟩
        intro y hy
        rcases List.mem_cons.1 hy with rfl | hy
        · omega
        · exact h2 y hy

theorem fires_some {l : List Nat} {t k d : Nat} (h : Timed.fires l t = some (k, d)) :
    l[k]? = some d ∧ (∀ e ∈ l, d ≤ e) ∧ d < t := by
  unfold Timed.fires at h
  split at h
  · rename_i k' d' h0
    split at h
    · simp at h
      obtain ⟨rfl, rfl⟩ := h
      exact ⟨(earliest_some h0).1, (earliest_some h0).2, by assumption⟩
    · simp at h
  · simp at h

theorem fires_none {l : List Nat} {t : Nat} (h : Timed.fires l t = none) : ∀ e ∈ l, t ≤ e := by
  unfold Timed.fires at h
  split at h
  · rename_i k d h0
    split at h
    · simp at h
    · intro e he
      have := (earliest_some h0).2 e he
      omega
  · rename_i h0
    rw [earliest_none h0]; simp

/-- The timers of a computation are respected: it ends before the enclosing deadlines, it is stopped by a timer
exactly at its time, and it does not wait for ever if there is a timer. -/
structure Punctual {α : Type} (f : TAct α) : Prop where
  keeps : ∀ w, (f w).2.deadlines = w.deadlines
  later : ∀ w, w.now ≤ (f w).2.now
  onTime : ∀ w, (∀ d ∈ w.deadlines, w.now ≤ d) → ∀ d ∈ w.deadlines, (f w).2.now ≤ d
  fires : ∀ w k, (∀ d ∈ w.deadlines, w.now ≤ d) → (f w).1 = .error (.elapsed k) →
    w.deadlines[k]? = some (f w).2.now
  awake : ∀ w, w.deadlines ≠ [] → (f w).1 ≠ .error .pending
  uses : ∀ w, (f w).2.waits.length ≤ w.waits.length

/-- A computation that does not wait. -/
theorem Punctual.instant {α : Type} {f : TAct α} (h1 : ∀ w, (f w).2.deadlines = w.deadlines)
    (h2 : ∀ w, (f w).2.now = w.now) (h3 : ∀ w k, (f w).1 ≠ .error (.elapsed k))
    (h4 : ∀ w, (f w).1 ≠ .error .pending) (h5 : ∀ w, (f w).2.waits = w.waits) : Punctual f :=
  ⟨h1, fun w => by rw [h2]; exact Nat.le_refl _, fun w hw d hd => by rw [h2]; exact hw d hd,
    fun w k _ hk => absurd hk (h3 w k), fun w _ => h4 w,
    fun w => by rw [h5]; exact Nat.le_refl _⟩

theorem Punctual.pure {α : Type} (a : α) : Punctual (pure a : TAct α) :=
  .instant (fun _ => rfl) (fun _ => rfl) (fun _ _ h => by simp [tact_pure] at h)
    (fun _ h => by simp [tact_pure] at h) (fun _ => rfl)

theorem Punctual.dropped {α : Type} : Punctual (Timed.stop .dropped : TAct α) :=
  .instant (fun _ => rfl) (fun _ => rfl) (fun _ _ h => by simp [Timed.stop] at h)
    (fun _ h => by simp [Timed.stop] at h) (fun _ => rfl)

theorem Punctual.panic {α : Type} (f : Fault) : Punctual (Timed.stop (.panic f) : TAct α) :=
  .instant (fun _ => rfl) (fun _ => rfl) (fun _ _ h => by simp [Timed.stop] at h)
    (fun _ h => by simp [Timed.stop] at h) (fun _ => rfl)

theorem Punctual.lift {α : Type} (x : R α) : Punctual (Timed.lift x) := by
  cases x with
  | ok a => exact .pure a
  | error f => exact .panic f

theorem Punctual.emit (e : Effect) : Punctual (Timed.emit e) :=
  .instant (fun _ => rfl) (fun _ => rfl) (fun _ _ h => by simp [Timed.emit] at h)
    (fun _ h => by simp [Timed.emit] at h) (fun _ => rfl)

theorem Punctual.getClient : Punctual Timed.getClient :=
  .instant (fun _ => rfl) (fun _ => rfl) (fun _ _ h => by simp [Timed.getClient] at h)
    (fun _ h => by simp [Timed.getClient] at h) (fun _ => rfl)

theorem Punctual.setClient (c : Client) : Punctual (Timed.setClient c) :=
  .instant (fun _ => rfl) (fun _ => rfl) (fun _ _ h => by simp [Timed.setClient] at h)
    (fun _ h => by simp [Timed.setClient] at h) (fun _ => rfl)

theorem Punctual.setScratch (s : Bytes) : Punctual (Timed.setScratch s) :=
  .instant (fun _ => rfl) (fun _ => rfl) (fun _ _ h => by simp [Timed.setScratch] at h)
    (fun _ h => by simp [Timed.setScratch] at h) (fun _ => rfl)

theorem Punctual.setClosed (s : Bool) : Punctual (Timed.setClosed s) :=
  .instant (fun _ => rfl) (fun _ => rfl) (fun _ _ h => by simp [Timed.setClosed] at h)
    (fun _ h => by simp [Timed.setClosed] at h) (fun _ => rfl)

theorem Punctual.bind {α β : Type} {x : TAct α} {f : α → TAct β} (hx : Punctual x)
    (hf : ∀ a, Punctual (f a)) : Punctual (x >>= f) := by
  have key : ∀ w, (∃ e w', x w = (.error e, w') ∧ (x >>= f) w = (.error e, w')) ∨
      ∃ a w', x w = (.ok a, w') ∧ (x >>= f) w = f a w' := by
    intro w
    cases h : x w with
    | mk r w' =>
      cases r with
      | error e => exact .inl ⟨e, w', rfl, tact_bind_error h⟩
      | ok a => exact .inr ⟨a, w', rfl, tact_bind_ok h⟩
  refine ⟨?_, ?_, ?_, ?_, ?_, ?_⟩
  · intro w
    rcases key w with ⟨e, w', h, h'⟩ | ⟨a, w', h, h'⟩
    · have := hx.keeps w; rw [h] at this; rw [h']; exact this
    · have := hx.keeps w; rw [h] at this; rw [h', (hf a).keeps]; exact this
  · intro w
    rcases key w with ⟨e, w', h, h'⟩ | ⟨a, w', h, h'⟩
    · have := hx.later w; rw [h] at this; rw [h']; exact this
    · have := hx.later w; rw [h] at this; rw [h']; exact Nat.le_trans this ((hf a).later w')
  · intro w hw d hd
    rcases key w with ⟨e, w', h, h'⟩ | ⟨a, w', h, h'⟩
    · have := hx.onTime w hw d hd; rw [h] at this; rw [h']; exact this
    · have h1 := hx.onTime w hw; rw [h] at h1
      have h2 := hx.keeps w; rw [h] at h2
      simp only [] at h1 h2
      rw [h']
      exact (hf a).onTime w' (by rw [h2]; exact h1) d (by rw [h2]; exact hd)
  · intro w k hw hk
    rcases key w with ⟨e, w', h, h'⟩ | ⟨a, w', h, h'⟩
    · have := hx.fires w k hw; rw [h] at this; rw [h'] at hk ⊢; exact this (by simpa using hk)
    · have h1 := hx.onTime w hw; rw [h] at h1
      have h2 := hx.keeps w; rw [h] at h2
      simp only [] at h1 h2
      rw [h'] at hk ⊢
      rw [← h2]
      exact (hf a).fires w' k (by rw [h2]; exact h1) hk
  · intro w hw
    rcases key w with ⟨e, w', h, h'⟩ | ⟨a, w', h, h'⟩
    · have := hx.awake w hw; rw [h] at this; rw [h']; exact fun hh => this (by simpa using hh)
    · have h2 := hx.keeps w; rw [h] at h2
      simp only [] at h2
      rw [h']
      exact (hf a).awake w' (by rw [h2]; exact hw)
  · intro w
    rcases key w with ⟨e, w', h, h'⟩ | ⟨a, w', h, h'⟩
    · have := hx.uses w; rw [h] at this; rw [h']; exact this
    · have := hx.uses w; rw [h] at this; rw [h']; exact Nat.le_trans ((hf a).uses w') this

theorem Punctual.next : Punctual Timed.next := by
  have key : ∀ w, (w.waits = [] ∧ w.deadlines = [] ∧ Timed.next w = (.error .pending, w)) ∨
      (∃ k d rest, rest.length ≤ w.waits.length ∧ w.deadlines[k]? = some d ∧ (∀ e ∈ w.deadlines, d ≤ e) ∧
        Timed.next w = (.error (.elapsed k), { w with now := max w.now d, waits := rest })) ∨
      (∃ r dt rest, rest.length < w.waits.length ∧ (∀ e ∈ w.deadlines, w.now + dt ≤ e) ∧ (∀ k, r ≠ .error (.elapsed k)) ∧
        r ≠ .error .pending ∧ Timed.next w = (r, { w with now := w.now + dt, waits := rest })) := by
    intro w
    unfold Timed.next
    split
    · rename_i hw
      split
      · rename_i k d h
        refine .inr (.inl ⟨k, d, w.waits, Nat.le_refl _, (earliest_some h).1, (earliest_some h).2, rfl⟩)
      · rename_i h
        exact .inl ⟨hw, earliest_none h, rfl⟩
    · rename_i dt ev rest hw
      split
      · rename_i k d h
        refine .inr (.inl ⟨k, d, rest, by rw [hw]; simp, (fires_some h).1, (fires_some h).2.1, rfl⟩)
      · rename_i h
        refine .inr (.inr ?_)
        split
        · exact ⟨_, dt, rest, by rw [hw]; simp, fires_none h, by simp, by simp, rfl⟩
        · exact ⟨_, dt, rest, by rw [hw]; simp, fires_none h, by simp, by simp, rfl⟩
        · exact ⟨_, dt, rest, by rw [hw]; simp, fires_none h, by simp, by simp, rfl⟩
  refine ⟨?_, ?_, ?_, ?_, ?_, ?_⟩
  · intro w
    rcases key w with ⟨_, _, h⟩ | ⟨k, d, rest, _, _, _, h⟩ | ⟨r, dt, rest, _, _, _, _, h⟩ <;> rw [h]
  · intro w
    rcases key w with ⟨_, _, h⟩ | ⟨k, d, rest, _, _, _, h⟩ | ⟨r, dt, rest, _, _, _, _, h⟩ <;> rw [h]
    · exact Nat.le_refl _
    · exact Nat.le_max_left _ _
    · exact Nat.le_add_right _ _
  · intro w hw d hd
    rcases key w with ⟨_, _, h⟩ | ⟨k, d', rest, _, _, h1, h⟩ | ⟨r, dt, rest, _, h1, _, _, h⟩ <;> rw [h]
    · exact hw d hd
    · have := hw d hd
      have := h1 d hd
      simp only []
      omega
    · exact h1 d hd
  · intro w k hw hk
    rcases key w with ⟨_, _, h⟩ | ⟨k', d', rest, _, h0, h1, h⟩ | ⟨r, dt, rest, _, h1, h2, _, h⟩ <;>
      rw [h] at hk ⊢
    · simp at hk
    · simp at hk
      subst hk
      rw [h0]
      have := hw d' (List.mem_of_getElem? h0)
      simp only []
      congr 1
      omega
    · exact absurd hk (h2 k)
  · intro w hw
    rcases key w with ⟨_, h0, h⟩ | ⟨k, d', rest, _, _, h1, h⟩ | ⟨r, dt, rest, _, h1, _, h3, h⟩ <;> rw [h]
    · exact absurd h0 hw
    · simp
    · exact h3
  · intro w
    rcases key w with ⟨_, h0, h⟩ | ⟨k, d', rest, hr, _, _, h⟩ | ⟨r, dt, rest, hr, _, _, _, h⟩ <;> rw [h]
    · exact Nat.le_refl _
    · exact hr
    · exact Nat.le_of_lt hr

/-- What a timeout makes of the result of the future. -/
def timeoutResult {α : Type} : Except TStop α → Except TStop (Except Unit α)
  | .ok a => .ok (.ok a)
  | .error (.elapsed 0) => .ok (.error ())
  | .error (.elapsed (n + 1)) => .error (.elapsed n)
  | .error .dropped => .error .dropped
  | .error .pending => .error .pending
  | .error (.panic f) => .error (.panic f)

/-- The world with one more timer. -/
def armed (d : Nat) (w : TWorld) : TWorld := { w with deadlines := (w.now + d) :: w.deadlines }

theorem timeout_run {α : Type} (f : TAct α) (d : Nat) (w : TWorld) :
    Timed.withTimeout d f w
      = (timeoutResult (f (armed d w)).1, { (f (armed d w)).2 with deadlines := w.deadlines }) := by
  unfold Timed.withTimeout armed
  simp only []
  cases (f { w with deadlines := (w.now + d) :: w.deadlines }).1 with
  | ok a => rfl
  | error e =>
    cases e with
    | elapsed n => cases n <;> rfl
    | _ => rfl

theorem armed_le {d : Nat} {w : TWorld} (hw : ∀ e ∈ w.deadlines, w.now ≤ e) :
    ∀ e ∈ (armed d w).deadlines, (armed d w).now ≤ e := by
  intro e he
  rcases List.mem_cons.1 he with rfl | he
  · exact Nat.le_add_right _ _
  · exact hw e he

theorem Punctual.timeout {α : Type} {f : TAct α} (hf : Punctual f) (d : Nat) :
    Punctual (Timed.withTimeout d f) := by
  refine ⟨?_, ?_, ?_, ?_, ?_, ?_⟩
  · intro w; rw [timeout_run]
  · intro w; rw [timeout_run]; exact hf.later (armed d w)
  · intro w hw e he
    rw [timeout_run]
    exact hf.onTime (armed d w) (armed_le hw) e (List.mem_cons_of_mem _ he)
  · intro w k hw hk
    rw [timeout_run] at hk ⊢
    simp only [] at hk
    have : (f (armed d w)).1 = .error (.elapsed (k + 1)) := by
      cases h : (f (armed d w)).1 with
      | ok a => rw [h] at hk; simp [timeoutResult] at hk
      | error e =>
        rw [h] at hk
        cases e with
        | elapsed n => cases n <;> simp [timeoutResult] at hk; simp [hk]
        | _ => simp [timeoutResult] at hk
    have := hf.fires (armed d w) (k + 1) (armed_le hw) this
    simpa [armed] using this
  · intro w _ hk
    rw [timeout_run] at hk
    simp only [] at hk
    have h1 := hf.awake (armed d w) (by simp [armed])
    cases h : (f (armed d w)).1 with
    | ok a => rw [h] at hk; simp [timeoutResult] at hk
    | error e =>
      rw [h] at hk
      cases e with
      | elapsed n => cases n <;> simp [timeoutResult] at hk
      | pending => exact h1 h
      | _ => simp [timeoutResult] at hk
  · intro w; rw [timeout_run]; exact hf.uses (armed d w)

/-- A timeout ends in time; it reports `Elapsed` only when its time has come; it does not wait for ever. -/
theorem timeout_spec {α : Type} {f : TAct α} (hf : Punctual f) (d : Nat) (w : TWorld)
    (hw : ∀ e ∈ w.deadlines, w.now ≤ e) :
    (Timed.withTimeout d f w).2.now ≤ w.now + d ∧
    ((Timed.withTimeout d f w).1 = .ok (.error ()) → (Timed.withTimeout d f w).2.now = w.now + d) ∧
    (Timed.withTimeout d f w).1 ≠ .error .pending := by
  refine ⟨?_, ?_, ?_⟩
  · rw [timeout_run]
    exact hf.onTime (armed d w) (armed_le hw) _ (List.mem_cons_self ..)
  · intro hk
    rw [timeout_run] at hk ⊢
    simp only [] at hk
    have : (f (armed d w)).1 = .error (.elapsed 0) := by
      cases h : (f (armed d w)).1 with
      | ok a => rw [h] at hk; simp [timeoutResult] at hk
      | error e =>
        rw [h] at hk
        cases e with
        | elapsed n => cases n <;> simp [timeoutResult] at hk; rfl
        | _ => simp [timeoutResult] at hk
    have := hf.fires (armed d w) 0 (armed_le hw) this
    simpa [armed] using this.symm
  · intro hk
    rw [timeout_run] at hk
    simp only [] at hk
    have h1 := hf.awake (armed d w) (by simp [armed])
    cases h : (f (armed d w)).1 with
    | ok a => rw [h] at hk; simp [timeoutResult] at hk
    | error e =>
      rw [h] at hk
      cases e with
      | elapsed n => cases n <;> simp [timeoutResult] at hk
      | pending => exact h1 h
      | _ => simp [timeoutResult] at hk

/-! ### The functions -/

theorem Punctual.writeLoop : ∀ (k : Nat) (data : Bytes), Punctual (Timed.writeLoop k data)
  | 0, _ => .pure _
  | k + 1, data => by
    rw [Timed.writeLoop]
    split
    · exact .pure _
    · refine Punctual.next.bind fun a => ?_
      cases a with
      | accept n =>
        simp only []
        split
        · exact .pure _
        · exact (Punctual.emit _).bind fun _ => Punctual.writeLoop k _
      | writeFailed e => exact .pure _
      | _ => exact .dropped

theorem Punctual.flush : Punctual Timed.flush := by
  refine Punctual.next.bind fun a => ?_
  cases a with
  | flushed => exact (Punctual.emit _).bind fun _ => .pure _
  | flushFailed e => exact .pure _
  | _ => exact .dropped

theorem Punctual.readerNext : Punctual Timed.readerNext := by
  refine Punctual.getClient.bind fun c => ?_
  split
  · exact .pure _
  · refine Punctual.next.bind fun a => ?_
    cases a with
    | line s => exact (Punctual.emit _).bind fun _ => .pure _
    | readFailed e => exact .pure _
    | eof => exact (Punctual.setClosed _).bind fun _ => .pure _
    | _ => exact .dropped

theorem Punctual.openStream : Punctual Timed.openStream := by
  refine (Punctual.emit _).bind fun _ => Punctual.next.bind fun a => ?_
  cases a with
  | opened => exact .pure _
  | openFailed e => exact .pure _
  | _ => exact .dropped

theorem Punctual.recv (b : Build) : Punctual (Timed.recv b) := by
  refine Punctual.readerNext.bind fun a => ?_
  rcases a with _ | (e | s)
  · exact .pure _
  · exact .pure _
  · refine (Punctual.lift _).bind fun m => ?_
    cases m <;> exact .pure _

theorem Punctual.recvReply (b : Build) : Punctual (Timed.recvReply b) := by
  refine ((Punctual.recv b).timeout _).bind fun a => ?_
  rcases a with _ | (e | s) <;> exact .pure _

theorem Punctual.awaitWelcome (b : Build) : Punctual (Timed.awaitWelcome b) := by
  refine (Punctual.recvReply b).bind fun a => ?_
  cases a with
  | error e => exact .pure _
  | ok m =>
    refine (Punctual.lift _).bind fun o => ?_
    cases o with
    | some e => exact .pure _
    | none =>
      refine (Punctual.recvReply b).bind fun a => ?_
      cases a with
      | error e => exact .pure _
      | ok m =>
        refine (Punctual.lift _).bind fun o => ?_
        cases o <;> exact .pure _

theorem Punctual.handshake (b : Build) : Punctual (Timed.handshake b) := by
  refine Punctual.getClient.bind fun c => (Punctual.setScratch _).bind fun _ =>
    (Punctual.writeLoop _ _).bind fun a => ?_
  cases a with
  | error e => exact .pure _
  | ok u =>
    refine Punctual.flush.bind fun a => ?_
    cases a with
    | error e => exact .pure _
    | ok u => exact (Punctual.setScratch _).bind fun _ => .awaitWelcome b

theorem Punctual.useStream : Punctual Timed.useStream :=
  (Punctual.emit _).bind fun _ => .setClosed _

/-- What a sleep does. -/
theorem sleep_cases (d : Nat) (w : TWorld) :
    (∃ k t, w.deadlines[k]? = some t ∧ (∀ e ∈ w.deadlines, t ≤ e) ∧
      Timed.sleep d w = (.error (.elapsed k),
        { w with log := w.log ++ [.sleep d], now := max w.now t, waits := w.waits.tail })) ∨
    (∃ dt, dt < d ∧ (∀ e ∈ w.deadlines, w.now + dt ≤ e) ∧ Timed.sleep d w = (.error .dropped,
        { w with log := w.log ++ [.sleep d], now := w.now + dt, waits := w.waits.tail })) ∨
    ((∀ e ∈ w.deadlines, w.now + d ≤ e) ∧ Timed.sleep d w = (.ok (),
        { w with log := w.log ++ [.sleep d], now := w.now + d, waits := w.waits.tail })) := by
  unfold Timed.sleep
  simp only []
  have hlt : ∀ dt, Timed.dropsAt d w.waits = some dt → dt < d := by
    intro dt h
    unfold Timed.dropsAt at h
    split at h
    · split at h
      · simp at h; omega
      · simp at h
    · simp at h
  generalize Timed.dropsAt d w.waits = dropAt at hlt ⊢
  cases hf : Timed.fires w.deadlines (w.now + dropAt.getD d) with
  | some kt =>
    obtain ⟨k, t⟩ := kt
    exact .inl ⟨k, t, (fires_some hf).1, (fires_some hf).2.1, rfl⟩
  | none =>
    cases dropAt with
    | some dt => exact .inr (.inl ⟨dt, hlt dt rfl, fires_none hf, rfl⟩)
    | none => exact .inr (.inr ⟨fires_none hf, rfl⟩)

theorem Punctual.sleep (d : Nat) : Punctual (Timed.sleep d) := by
  refine ⟨?_, ?_, ?_, ?_, ?_, ?_⟩
  · intro w
    rcases sleep_cases d w with ⟨k, t, _, _, h⟩ | ⟨dt, _, _, h⟩ | ⟨_, h⟩ <;> rw [h]
  · intro w
    rcases sleep_cases d w with ⟨k, t, _, _, h⟩ | ⟨dt, _, _, h⟩ | ⟨_, h⟩ <;> rw [h]
    · exact Nat.le_max_left _ _
    · exact Nat.le_add_right _ _
    · exact Nat.le_add_right _ _
  · intro w hw e he
    rcases sleep_cases d w with ⟨k, t, _, h1, h⟩ | ⟨dt, _, h1, h⟩ | ⟨h1, h⟩ <;> rw [h]
    · have := hw e he
      have := h1 e he
      simp only []
      omega
    · exact h1 e he
    · exact h1 e he
  · intro w k hw hk
    rcases sleep_cases d w with ⟨k', t, h0, h1, h⟩ | ⟨dt, _, h1, h⟩ | ⟨h1, h⟩ <;> rw [h] at hk ⊢
    · simp at hk
      subst hk
      rw [h0]
      have := hw t (List.mem_of_getElem? h0)
      simp only []
      congr 1
      omega
    · simp at hk
    · simp at hk
  · intro w _
    rcases sleep_cases d w with ⟨k', t, h0, h1, h⟩ | ⟨dt, _, h1, h⟩ | ⟨h1, h⟩ <;> rw [h] <;> simp
  · intro w
    rcases sleep_cases d w with ⟨k', t, h0, h1, h⟩ | ⟨dt, _, h1, h⟩ | ⟨h1, h⟩ <;> rw [h] <;> simp

/-! ### Runs with a clock are runs of the model without one -/

/-- The world without the clock. -/
def untimed (w : TWorld) (script : List Answer) : World := ⟨w.client, w.log, script⟩

/-- `f`, run with a clock, is a run of `g`: there is a script with which `g` does the same.  Unless `f` did not
come to an end the script may go on. -/
def RunCore {α : Type} (script : List Answer) (r : Except TStop α) (w w' : TWorld) (g : Act α) : Prop :=
  match r with
  | .ok a => ∀ more, g (untimed w (script ++ more)) = (.ok a, untimed w' more)
  | .error (.elapsed k) => ∀ more, g (untimed w (script ++ more)) = (.error (.elapsed k), untimed w' more)
  | .error (.panic f) => ∀ more, g (untimed w (script ++ more)) = (.error (.panic f), untimed w' more)
  | .error _ => g (untimed w script) = (.error .dropped, untimed w' [])

/-- ... and the lines that the script has are lines that were received. -/
structure RunVia {α : Type} (script : List Answer) (r : Except TStop α) (w w' : TWorld) (g : Act α) : Prop where
  run : RunCore script r w w' g
  lines : ∀ s, .line s ∈ script → ∃ dt, (dt, WaitEnd.answer (.line s)) ∈ w.waits
  rest : w'.waits <:+ w.waits

theorem RunVia.quick {α : Type} {r : Except TStop α} {w w' : TWorld} {g : Act α} (h : RunCore [] r w w' g)
    (hw : w'.waits = w.waits) : RunVia [] r w w' g :=
  ⟨h, fun _ h => by simp at h, by rw [hw]; exact List.suffix_refl _⟩

theorem RunVia.one {α : Type} {r : Except TStop α} {w w' : TWorld} {g : Act α} {a : Answer}
    (h : RunCore [a] r w w' g) (ha : ∀ s, a ≠ .line s) (hw : w'.waits <:+ w.waits) : RunVia [a] r w w' g :=
  ⟨h, fun s h => by simp at h; exact absurd h.symm (ha s), hw⟩

def RunOf {α : Type} (r : Except TStop α) (w w' : TWorld) (g : Act α) : Prop :=
  ∃ script, RunVia script r w w' g

def Refines {α : Type} (f : TAct α) (g : Act α) : Prop := ∀ w, RunOf (f w).1 w (f w).2 g

theorem Refines.pure {α : Type} (a : α) : Refines (pure a : TAct α) (pure a : Act α) :=
  fun _ => ⟨[], .quick (fun _ => rfl) rfl⟩

theorem Refines.dropped {α : Type} : Refines (Timed.stop .dropped : TAct α) (stop .dropped : Act α) :=
  fun _ => ⟨[], .quick rfl rfl⟩

theorem Refines.panic {α : Type} (f : Fault) :
    Refines (Timed.stop (.panic f) : TAct α) (stop (.panic f) : Act α) :=
  fun _ => ⟨[], .quick (fun _ => rfl) rfl⟩

theorem Refines.lift {α : Type} (x : R α) : Refines (Timed.lift x) (lift x) := by
  cases x with
  | ok a => exact .pure a
  | error f => exact .panic f

theorem Refines.emit (e : Effect) : Refines (Timed.emit e) (emit e) := fun _ => ⟨[], .quick (fun _ => rfl) rfl⟩
theorem Refines.getClient : Refines Timed.getClient getClient := fun _ => ⟨[], .quick (fun _ => rfl) rfl⟩
theorem Refines.setClient (c : Client) : Refines (Timed.setClient c) (setClient c) :=
  fun _ => ⟨[], .quick (fun _ => rfl) rfl⟩
theorem Refines.setScratch (s : Bytes) : Refines (Timed.setScratch s) (setScratch s) :=
  fun _ => ⟨[], .quick (fun _ => rfl) rfl⟩
theorem Refines.setClosed (s : Bool) : Refines (Timed.setClosed s) (setClosed s) :=
  fun _ => ⟨[], .quick (fun _ => rfl) rfl⟩

theorem RunVia.bind_error {α β : Type} {x : TAct α} {y : Act α} {f : α → TAct β} {g : α → Act β}
    {s : List Answer} {w w' : TWorld} {e : TStop} (h : x w = (.error e, w'))
    (hs : RunVia s (.error e) w w' y) : RunVia s ((x >>= f) w).1 w ((x >>= f) w).2 (y >>= g) := by
  rw [tact_bind_error h]
  obtain ⟨hs, hl, hw⟩ := hs
  refine ⟨?_, hl, hw⟩
  cases e with
  | elapsed k => exact fun more => act_bind_error (hs more)
  | panic f => exact fun more => act_bind_error (hs more)
  | _ => exact act_bind_error hs

theorem RunVia.bind_ok {α β : Type} {x : TAct α} {y : Act α} {f : α → TAct β} {g : α → Act β}
    {s s' : List Answer} {w w' : TWorld} {a : α} (h : x w = (.ok a, w')) (hs : RunVia s (.ok a) w w' y)
    (hs' : RunVia s' (f a w').1 w' (f a w').2 (g a)) :
    RunVia (s ++ s') ((x >>= f) w).1 w ((x >>= f) w).2 (y >>= g) := by
  rw [tact_bind_ok h]
  obtain ⟨hs, hl, hw⟩ := hs
  obtain ⟨hs', hl', hw'⟩ := hs'
  refine ⟨?_, fun x hx => ?_, hw'.trans hw⟩
  case refine_2 =>
    rcases List.mem_append.mp hx with hx | hx
    · exact hl x hx
    · obtain ⟨dt, hdt⟩ := hl' x hx
      exact ⟨dt, hw.subset hdt⟩
  generalize f a w' = p at hs' ⊢
  obtain ⟨r, w2⟩ := p
  have hs0 : ∀ more, y (untimed w (s ++ more)) = (.ok a, untimed w' more) := hs
  cases r with
  | ok b =>
    intro more
    rw [List.append_assoc, act_bind_ok (hs0 _)]
    exact hs' more
  | error e =>
    cases e with
    | elapsed k =>
      intro more
      rw [List.append_assoc, act_bind_ok (hs0 _)]
      exact hs' more
    | panic k =>
      intro more
      rw [List.append_assoc, act_bind_ok (hs0 _)]
      exact hs' more
    | dropped => exact (act_bind_ok (hs0 _)).trans hs'
    | pending => exact (act_bind_ok (hs0 _)).trans hs'

theorem Refines.bind {α β : Type} {x : TAct α} {y : Act α} {f : α → TAct β} {g : α → Act β}
    (hx : Refines x y) (hf : ∀ a, Refines (f a) (g a)) : Refines (x >>= f) (y >>= g) := by
  intro w
  obtain ⟨s, hs⟩ := hx w
  cases h : x w with
  | mk r w' =>
    rw [h] at hs
    cases r with
    | error e => exact ⟨s, .bind_error h hs⟩
    | ok a =>
      obtain ⟨s', hs'⟩ := hf a w'
      exact ⟨s ++ s', .bind_ok h hs hs'⟩

theorem Refines.next : Refines Timed.next next := by
  intro w
  unfold Timed.next
  split
  · split
    · exact ⟨[.elapsed _], .one (fun _ => rfl) (by simp) (List.suffix_refl _)⟩
    · exact ⟨[], .quick rfl rfl⟩
  · rename_i dt ev rest hw
    have hsuf : rest <:+ w.waits := by rw [hw]; exact List.suffix_cons _ _
    split
    · exact ⟨[.elapsed _], .one (fun _ => rfl) (by simp) hsuf⟩
    · split
      · exact ⟨[], rfl, by simp, hsuf⟩
      · exact ⟨[], rfl, by simp, hsuf⟩
      · rename_i _ a h
        refine ⟨[a], fun more => ?_, fun s hs => ⟨dt, by simp at hs; rw [hw, hs]; simp⟩, hsuf⟩
        show Model.next (untimed w (a :: more)) = _
        cases a with
        | elapsed n => exact absurd rfl (h n)
        | _ => rfl

theorem Refines.timeout {α : Type} {f : TAct α} {g : Act α} (h : Refines f g) (d : Nat) :
    Refines (Timed.withTimeout d f) (withTimeout d g) := by
  intro w
  rw [timeout_run]
  obtain ⟨s, hs, hl, hw⟩ := h (armed d w)
  refine ⟨s, ?_, hl, hw⟩
  have hu : ∀ l, untimed (armed d w) l = untimed w l := fun _ => rfl
  cases hr : (f (armed d w)).1 with
  | ok a =>
    rw [hr] at hs
    intro more
    have := hs more
    rw [hu] at this
    unfold withTimeout
    rw [this]
    rfl
  | error e =>
    rw [hr] at hs
    cases e with
    | elapsed k =>
      cases k with
      | zero =>
        intro more
        have := hs more
        rw [hu] at this
        unfold withTimeout
        rw [this]
        rfl
      | succ k =>
        intro more
        have := hs more
        rw [hu] at this
        unfold withTimeout
        rw [this]
        rfl
    | panic f =>
      intro more
      have := hs more
      rw [hu] at this
      unfold withTimeout
      rw [this]
      rfl
    | dropped =>
      have hs : g (untimed w s) = (.error .dropped, untimed (f (armed d w)).2 []) := hs
      show withTimeout d g _ = _
      unfold withTimeout
      rw [hs]
      rfl
    | pending =>
      have hs : g (untimed w s) = (.error .dropped, untimed (f (armed d w)).2 []) := hs
      show withTimeout d g _ = _
      unfold withTimeout
      rw [hs]
      rfl

theorem Refines.writeLoop : ∀ (k : Nat) (data : Bytes), Refines (Timed.writeLoop k data) (writeLoop k data)
  | 0, _ => .pure _
  | k + 1, data => by
    rw [Timed.writeLoop, Model.writeLoop]
    split
    · exact .pure _
    · refine Refines.next.bind fun a => ?_
      cases a with
      | accept n =>
        simp only []
        split
        · exact .pure _
        · exact (Refines.emit _).bind fun _ => Refines.writeLoop k _
      | writeFailed e => exact .pure _
      | _ => exact .dropped

theorem Refines.flush : Refines Timed.flush flush := by
  refine Refines.next.bind fun a => ?_
  cases a with
  | flushed => exact (Refines.emit _).bind fun _ => .pure _
  | flushFailed e => exact .pure _
  | _ => exact .dropped

theorem Refines.readerNext : Refines Timed.readerNext readerNext := by
  refine Refines.getClient.bind fun c => ?_
  split
  · exact .pure _
  · refine Refines.next.bind fun a => ?_
    cases a with
    | line s => exact (Refines.emit _).bind fun _ => .pure _
    | readFailed e => exact .pure _
    | eof => exact (Refines.setClosed _).bind fun _ => .pure _
    | _ => exact .dropped

theorem Refines.openStream : Refines Timed.openStream openStream := by
  refine (Refines.emit _).bind fun _ => Refines.next.bind fun a => ?_
  cases a with
  | opened => exact .pure _
  | openFailed e => exact .pure _
  | _ => exact .dropped

theorem Refines.useStream : Refines Timed.useStream useStream :=
  (Refines.emit _).bind fun _ => .setClosed _

theorem Refines.recv (b : Build) : Refines (Timed.recv b) (recv b) := by
  refine Refines.readerNext.bind fun a => ?_
  rcases a with _ | (e | s)
  · exact .pure _
  · exact .pure _
  · refine (Refines.lift _).bind fun m => ?_
    cases m <;> exact .pure _

theorem Refines.recvReply (b : Build) : Refines (Timed.recvReply b) (recvReply b) := by
  refine ((Refines.recv b).timeout _).bind fun a => ?_
  rcases a with _ | (e | s) <;> exact .pure _

theorem Refines.awaitWelcome (b : Build) : Refines (Timed.awaitWelcome b) (awaitWelcome b) := by
  refine (Refines.recvReply b).bind fun a => ?_
  cases a with
  | error e => exact .pure _
  | ok m =>
    refine (Refines.lift _).bind fun o => ?_
    cases o with
    | some e => exact .pure _
    | none =>
      refine (Refines.recvReply b).bind fun a => ?_
      cases a with
      | error e => exact .pure _
      | ok m =>
        refine (Refines.lift _).bind fun o => ?_
        cases o <;> exact .pure _

theorem Refines.handshake (b : Build) : Refines (Timed.handshake b) (handshake b) := by
  refine Refines.getClient.bind fun c => (Refines.setScratch _).bind fun _ =>
    (Refines.writeLoop _ _).bind fun a => ?_
  cases a with
  | error e => exact .pure _
  | ok u =>
    refine Refines.flush.bind fun a => ?_
    cases a with
    | error e => exact .pure _
    | ok u => exact (Refines.setScratch _).bind fun _ => .awaitWelcome b

theorem Refines.connect (b : Build) (cfg : Config) : Refines (Timed.connect b cfg) (connect b cfg) := by
  refine Refines.next.bind fun a => ?_
  cases a with
  | tlsLoaded =>
    refine (Refines.openStream.timeout _).bind fun a => ?_
    rcases a with _ | (e | s)
    · exact .pure _
    · exact .pure _
    · refine (Refines.emit _).bind fun _ => (Refines.setClient _).bind fun _ =>
        ((Refines.handshake b).timeout _).bind fun a => ?_
      cases a <;> exact .pure _
  | tlsFailed => exact .pure _
  | _ => exact .dropped

theorem Refines.sleep (d : Nat) : Refines (Timed.sleep d) (sleep d) := by
  intro w
  rcases sleep_cases d w with ⟨k, t, _, _, h⟩ | ⟨dt, _, _, h⟩ | ⟨_, h⟩ <;> rw [h]
  · exact ⟨[.elapsed k], .one (fun _ => rfl) (by simp) (List.tail_suffix _)⟩
  · exact ⟨[], rfl, by simp, List.tail_suffix _⟩
  · exact ⟨[.slept], .one (fun _ => rfl) (by simp) (List.tail_suffix _)⟩

/-! ### Reconnecting -/

/-- The outcomes of opening a connection: the number of waits shrinks whenever it is answered. -/
theorem open_uses (t : Nat) (w : TWorld) (r : Except IoError Unit)
    (h : (Timed.withTimeout t Timed.openStream w).1 = .ok (.ok r)) :
    (Timed.withTimeout t Timed.openStream w).2.waits.length < w.waits.length := by
  rw [timeout_run] at h ⊢
  simp only [] at h ⊢
  have h0 : (Timed.openStream (armed t w)).1 = .ok r := by
    cases hx : (Timed.openStream (armed t w)).1 with
    | ok a => rw [hx] at h; simp [timeoutResult] at h; rw [h]
    | error e =>
      rw [hx] at h
      cases e with
      | elapsed n => cases n <;> simp [timeoutResult] at h
      | _ => simp [timeoutResult] at h
  revert h0
  unfold Timed.openStream
  rw [tact_bind_ok (x := Timed.emit .open_) (a := ())
    (w' := { armed t w with log := (armed t w).log ++ [.open_] }) rfl]
  cases hn : Timed.next { armed t w with log := (armed t w).log ++ [.open_] } with
  | mk a w' =>
    cases a with
    | error e => rw [tact_bind_error hn]; intro h0; simp at h0
    | ok a =>
      rw [tact_bind_ok hn]
      intro _
      have hlen : w'.waits.length < w.waits.length := by
        unfold Timed.next at hn
        split at hn
        · split at hn <;> simp at hn
        · rename_i dt ev rest hw
          have hw' : w.waits = (dt, ev) :: rest := hw
          split at hn
          · simp at hn
          · split at hn
            · simp at hn
            · simp at hn
            · simp at hn
              rw [← hn.2, hw']
              simp
      cases a <;> exact hlen

/-- The loop with a clock, given more rounds than there are waits to come, is a run of the loop without one, given
more rounds than the script has answers. -/
theorem loop_refines (b : Build) (cfg : Config) : ∀ (n : Nat) (tries : Option Nat) (d : Nat)
    (cause : ConnectError) (w : TWorld), w.waits.length < n → ∃ script, ∀ m, script.length < m →
      RunVia script (Timed.reconnectLoop b cfg n tries d cause w).1 w
        (Timed.reconnectLoop b cfg n tries d cause w).2 (reconnectLoop b cfg m tries d cause)
  | 0, _, _, _, _, h => by omega
  | n + 1, tries, d, cause, w, hn => by
    by_cases ht : tries = some 0
    · refine ⟨[], fun m hm => ?_⟩
      obtain ⟨m, rfl⟩ : ∃ k, m = k + 1 := ⟨m - 1, by omega⟩
      rw [Timed.reconnectLoop, reconnectLoop, if_pos ht, if_pos ht]
      exact .quick (fun _ => rfl) rfl
    · rw [Timed.reconnectLoop, if_neg ht]
      have hstep : ∀ s : List Answer, (∀ m, s.length < m + 1 → RunVia s
          (Timed.reconnectLoop b cfg (n + 1) tries d cause w).1 w
          (Timed.reconnectLoop b cfg (n + 1) tries d cause w).2 (reconnectLoop b cfg (m + 1) tries d cause)) →
          ∃ script, ∀ m, script.length < m → RunVia script
            (Timed.reconnectLoop b cfg (n + 1) tries d cause w).1 w
            (Timed.reconnectLoop b cfg (n + 1) tries d cause w).2 (reconnectLoop b cfg m tries d cause) := by
        intro s hs
        refine ⟨s, fun m hm => ?_⟩
        obtain ⟨m, rfl⟩ : ∃ k, m = k + 1 := ⟨m - 1, by omega⟩
        exact hs m hm
      rw [Timed.reconnectLoop, if_neg ht] at hstep
      -- the sleep
      cases hsl : Timed.sleep d w with
      | mk r w1 =>
        cases r with
        | error e =>
          obtain ⟨s, hs⟩ := Refines.sleep d w
          rw [hsl] at hs
          refine hstep s fun m _ => ?_
          rw [reconnectLoop, if_neg ht]
          exact .bind_error hsl hs
        | ok u =>
          have hs1 : RunVia [.slept] (.ok u) w w1 (sleep d) := by
            rcases sleep_cases d w with ⟨k, t, _, _, h⟩ | ⟨dt, _, _, h⟩ | ⟨_, h⟩ <;> rw [hsl] at h
            · simp at h
            · simp at h
            · simp at h
              subst h
              exact .one (fun _ => rfl) (by simp) (List.tail_suffix _)
          have hw1 : w1.waits.length ≤ w.waits.length := by
            have := (Punctual.sleep d).uses w
            rw [hsl] at this
            exact this
          -- the delay
          cases hmul : mulDuration d cfg.backoff.delayMultiplier with
          | error f =>
            rw [hmul] at hstep
            refine hstep ([.slept] ++ []) fun m _ => ?_
            rw [reconnectLoop, if_neg ht, hmul]
            refine .bind_ok hsl hs1 ?_
            exact .bind_error (x := Timed.lift (.error f)) (w' := w1) (e := .panic f) rfl (.quick (fun _ => rfl) rfl)
          | ok d' =>
            rw [hmul] at hstep
            -- opening
            cases hop : Timed.withTimeout cfg.timeout Timed.openStream w1 with
            | mk r w2 =>
              obtain ⟨so, hso⟩ := (Refines.openStream.timeout cfg.timeout) w1
              rw [hop] at hso
              cases r with
              | error e =>
                refine hstep ([.slept] ++ ([] ++ so)) fun m _ => ?_
                rw [reconnectLoop, if_neg ht, hmul]
                refine .bind_ok hsl hs1 (.bind_ok (x := Timed.lift (.ok d')) (w' := w1) (a := d') rfl
                  (.quick (fun _ => rfl) rfl) ?_)
                exact .bind_error hop hso
              | ok r =>
                have hw2 : ∀ x, r = .ok x → w2.waits.length < n := by
                  intro x hx
                  have := open_uses cfg.timeout w1 x (by rw [hop, hx])
                  rw [hop] at this
                  simp only [] at this
                  omega
                rcases r with _ | (e | u2)
                · refine hstep ([.slept] ++ ([] ++ (so ++ []))) fun m _ => ?_
                  rw [reconnectLoop, if_neg ht, hmul]
                  refine .bind_ok hsl hs1 (.bind_ok (x := Timed.lift (.ok d')) (w' := w1) (a := d') rfl
                    (.quick (fun _ => rfl) rfl) (.bind_ok hop hso ?_))
                  exact .quick (fun _ => rfl) rfl
                · obtain ⟨sr, hsr⟩ := loop_refines b cfg n (tries.map (· - 1))
                    (min cfg.backoff.maxDelay d') (.open_ e) w2 (hw2 _ rfl)
                  refine hstep ([.slept] ++ ([] ++ (so ++ sr))) fun m hm => ?_
                  rw [reconnectLoop, if_neg ht, hmul]
                  refine .bind_ok hsl hs1 (.bind_ok (x := Timed.lift (.ok d')) (w' := w1) (a := d') rfl
                    (.quick (fun _ => rfl) rfl) (.bind_ok hop hso ?_))
                  exact hsr m (by simp at hm; omega)
                · -- the handshake
                  cases hus : Timed.useStream w2 with
                  | mk r w3 =>
                    obtain ⟨su, hsu⟩ := Refines.useStream w2
                    rw [hus] at hsu
                    cases r with
                    | error e => simp [Timed.useStream, tact_bind, Timed.emit, Timed.setClosed] at hus
                    | ok u3 =>
                      have hw3 : w3.waits.length ≤ w2.waits.length := by
                        have := Punctual.useStream.uses w2
                        rw [hus] at this
                        exact this
                      cases hhs : Timed.withTimeout cfg.timeout (Timed.handshake b) w3 with
                      | mk r w4 =>
                        obtain ⟨sh, hsh⟩ := ((Refines.handshake b).timeout cfg.timeout) w3
                        have hw4 := ((Punctual.handshake b).timeout cfg.timeout).uses w3
                        rw [hhs] at hsh hw4
                        simp only [] at hw4
                        cases r with
                        | error e =>
                          refine hstep ([.slept] ++ ([] ++ (so ++ (su ++ sh)))) fun m _ => ?_
                          rw [reconnectLoop, if_neg ht, hmul]
                          refine .bind_ok hsl hs1 (.bind_ok (x := Timed.lift (.ok d')) (w' := w1) (a := d') rfl
                            (.quick (fun _ => rfl) rfl) (.bind_ok hop hso ?_))
                          exact .bind_ok hus hsu (.bind_error hhs hsh)
                        | ok r =>
                          have hlt := hw2 _ rfl
                          rcases r with _ | (e | u4)
                          · refine hstep ([.slept] ++ ([] ++ (so ++ (su ++ (sh ++ []))))) fun m hm => ?_
                            rw [reconnectLoop, if_neg ht, hmul]
                            refine .bind_ok hsl hs1 (.bind_ok (x := Timed.lift (.ok d')) (w' := w1) (a := d')
                              rfl (.quick (fun _ => rfl) rfl) (.bind_ok hop hso ?_))
                            refine .bind_ok hus hsu (.bind_ok hhs hsh ?_)
                            exact .quick (fun _ => rfl) rfl
                          · by_cases hre : e.shouldRetry = true
                            · obtain ⟨sr, hsr⟩ := loop_refines b cfg n (tries.map (· - 1))
                                (min cfg.backoff.maxDelay d') e w4 (by omega)
                              refine hstep ([.slept] ++ ([] ++ (so ++ (su ++ (sh ++ sr))))) fun m hm => ?_
                              rw [reconnectLoop, if_neg ht, hmul]
                              refine .bind_ok hsl hs1 (.bind_ok (x := Timed.lift (.ok d')) (w' := w1) (a := d')
                                rfl (.quick (fun _ => rfl) rfl) (.bind_ok hop hso ?_))
                              refine .bind_ok hus hsu (.bind_ok hhs hsh ?_)
                              simp only [hre, if_true]
                              exact hsr m (by simp at hm; omega)
                            · refine hstep ([.slept] ++ ([] ++ (so ++ (su ++ (sh ++ []))))) fun m hm => ?_
                              rw [reconnectLoop, if_neg ht, hmul]
                              refine .bind_ok hsl hs1 (.bind_ok (x := Timed.lift (.ok d')) (w' := w1) (a := d')
                                rfl (.quick (fun _ => rfl) rfl) (.bind_ok hop hso ?_))
                              refine .bind_ok hus hsu (.bind_ok hhs hsh ?_)
                              simp only [hre]
                              exact .quick (fun _ => rfl) rfl
                          · refine hstep ([.slept] ++ ([] ++ (so ++ (su ++ (sh ++ []))))) fun m hm => ?_
                            rw [reconnectLoop, if_neg ht, hmul]
                            refine .bind_ok hsl hs1 (.bind_ok (x := Timed.lift (.ok d')) (w' := w1) (a := d')
                              rfl (.quick (fun _ => rfl) rfl) (.bind_ok hop hso ?_))
                            refine .bind_ok hus hsu (.bind_ok hhs hsh ?_)
                            exact .quick (fun _ => rfl) rfl

theorem Refines.reconnect (b : Build) : Refines (Timed.reconnect b) (reconnect b) := by
  intro w
  obtain ⟨s, hs⟩ := loop_refines b w.client.config (w.waits.length + 1) w.client.config.backoff.maxTries
    w.client.config.backoff.initialDelay .timeout w (Nat.lt_succ_self _)
  refine ⟨s, ?_⟩
  show RunVia s (Timed.reconnectLoop b w.client.config (w.waits.length + 1) w.client.config.backoff.maxTries
    w.client.config.backoff.initialDelay .timeout w).1 w (Timed.reconnectLoop b w.client.config
    (w.waits.length + 1) w.client.config.backoff.maxTries
    w.client.config.backoff.initialDelay .timeout w).2 _
  have h1 := hs (s.length + 1) (Nat.lt_succ_self _)
  have h2 := fun more : List Answer => hs ((s ++ more).length + 1) (by simp; omega)
  generalize hr : (Timed.reconnectLoop b w.client.config (w.waits.length + 1) w.client.config.backoff.maxTries
    w.client.config.backoff.initialDelay .timeout w) = rw' at h1 h2 ⊢
  obtain ⟨r, w'⟩ := rw'
  refine ⟨?_, h1.lines, h1.rest⟩
  cases r with
  | ok a => exact fun more => (h2 more).run more
  | error e =>
    cases e with
    | elapsed k => exact fun more => (h2 more).run more
    | panic f => exact fun more => (h2 more).run more
    | _ => exact h1.run

/-! ### Time -/

/-- At the top level `f` takes at most `t`, and it does not wait for ever. -/
def Lasts {α : Type} (t : Nat) (f : TAct α) : Prop :=
  ∀ w, w.deadlines = [] → (f w).2.now ≤ w.now + t ∧ (f w).2.deadlines = [] ∧ (f w).1 ≠ .error .pending

theorem Lasts.mono {α : Type} {s t : Nat} {f : TAct α} (h : Lasts s f) (hst : s ≤ t) : Lasts t f :=
  fun w hw => ⟨Nat.le_trans (h w hw).1 (by omega), (h w hw).2⟩

theorem Lasts.bind {α β : Type} {s t : Nat} {x : TAct α} {f : α → TAct β} (hx : Lasts s x)
    (hf : ∀ a, Lasts t (f a)) : Lasts (s + t) (x >>= f) := by
  intro w hw
  obtain ⟨h1, h2, h3⟩ := hx w hw
  cases h : x w with
  | mk r w' =>
    rw [h] at h1 h2 h3
    simp only [] at h1 h2 h3
    cases r with
    | error e =>
      rw [tact_bind_error h]
      exact ⟨by simp only []; omega, h2, fun hh => h3 (by simpa using hh)⟩
    | ok a =>
      rw [tact_bind_ok h]
      obtain ⟨g1, g2, g3⟩ := hf a w' h2
      exact ⟨by omega, g2, g3⟩

theorem Lasts.timeout {α : Type} {f : TAct α} (hf : Punctual f) (d : Nat) :
    Lasts d (Timed.withTimeout d f) := by
  intro w hw
  obtain ⟨h1, _, h3⟩ := timeout_spec hf d w (by rw [hw]; simp)
  exact ⟨h1, by rw [(hf.timeout d).keeps, hw], h3⟩

theorem Lasts.pure {α : Type} (a : α) : Lasts 0 (pure a : TAct α) :=
  fun w hw => ⟨Nat.le_refl _, hw, by simp [tact_pure]⟩

theorem Lasts.panic {α : Type} (f : Fault) : Lasts 0 (Timed.stop (.panic f) : TAct α) :=
  fun w hw => ⟨Nat.le_refl _, hw, by simp [Timed.stop]⟩

theorem Lasts.dropped {α : Type} : Lasts 0 (Timed.stop .dropped : TAct α) :=
  fun w hw => ⟨Nat.le_refl _, hw, by simp [Timed.stop]⟩

theorem Lasts.sleep (d : Nat) : Lasts d (Timed.sleep d) := by
  intro w hw
  rcases sleep_cases d w with ⟨k, t, h0, _, h⟩ | ⟨dt, h1, _, h⟩ | ⟨_, h⟩
  · rw [hw] at h0; simp at h0
  · rw [h]; exact ⟨by simp only []; omega, hw, by simp⟩
  · rw [h]; exact ⟨by simp only []; omega, hw, by simp⟩

theorem Lasts.useStream : Lasts 0 Timed.useStream :=
  fun w hw => ⟨Nat.le_refl _, hw, by simp [Timed.useStream, tact_bind, Timed.emit, Timed.setClosed]⟩

end Tmi.Proofs
