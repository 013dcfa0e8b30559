/-
Lemmas: calls of a client panic only on lines that cannot be parsed, or when a wait cannot be computed.
-/
import Verif.Spec.Calm
import Verif.Proofs.LikeNew
import Verif.Props.Crash
import Verif.Props.ErrorText

namespace Tmi.Proofs
open Tmi.Model Tmi.Spec Tmi.Props

/-- `x` does not panic in a world that is harmless, uses up some of the world's answers, keeps the configuration, and
returns `Q`. -/
def Calm {α : Type} (b : Build) (Q : α → Prop) (x : Act α) : Prop :=
  ∀ w, Harmless b w.script → (∀ f, (x w).1 ≠ .error (.panic f)) ∧ (x w).2.script <:+ w.script ∧
    (x w).2.client.config = w.client.config ∧ ∀ a, (x w).1 = .ok a → Q a

theorem harmless_suffix {b : Build} {s t : List Answer} (h : Harmless b s) (ht : t <:+ s) : Harmless b t :=
  fun x hx => h x (ht.subset hx)

variable {α β : Type} {b : Build}

theorem Calm.pure {Q : α → Prop} {a : α} (h : Q a) : Calm b Q (Pure.pure a : Act α) :=
  fun w _ => ⟨fun f h => by simp [Pure.pure] at h, List.suffix_refl _, rfl, fun a' h' => by
    simp only [Pure.pure, Except.ok.injEq] at h'; exact h' ▸ h⟩

theorem Calm.stop {Q : α → Prop} {e : Stop} (h : ∀ f, e ≠ .panic f) : Calm b Q (Model.stop e : Act α) :=
  fun w _ => ⟨fun f h' => h f (by simpa [Model.stop] using h'), List.suffix_refl _, rfl, fun a h' => by simp [Model.stop] at h'⟩

theorem Calm.bind {Q : α → Prop} {P : β → Prop} {x : Act α} {f : α → Act β} (hx : Calm b Q x)
    (hf : ∀ a, Q a → Calm b P (f a)) : Calm b P (x >>= f) := by
  intro w hw
  obtain ⟨h1, h2, h3, h4⟩ := hx w hw
  rw [act_bind]
  rcases hr : x w with ⟨r, w'⟩
  rw [hr] at h1 h2 h3 h4
  cases r with
  | error e => exact ⟨fun f h => h1 f (by simpa using h), h2, h3, fun a h => by simp at h⟩
  | ok a =>
    obtain ⟨k1, k2, k3, k4⟩ := hf a (h4 a rfl) w' (harmless_suffix hw h2)
    exact ⟨k1, k2.trans h2, k3.trans h3, k4⟩

theorem Calm.mono {Q P : α → Prop} {x : Act α} (hx : Calm b Q x) (h : ∀ a, Q a → P a) : Calm b P x := by
  intro w hw
  obtain ⟨h1, h2, h3, h4⟩ := hx w hw
  exact ⟨h1, h2, h3, fun a ha => h a (h4 a ha)⟩

theorem Calm.next : Calm b (fun a => ∀ s, a = .line s → Utf8 s ∧ s.length < 4294967296 ∧ ¬ Crashing b s) next := by
  intro w hw
  unfold Model.next
  rcases hs : w.script with _ | ⟨a, rest⟩
  · refine ⟨by simp, by simp [hs], by simp, by simp⟩
  · have hl : ∀ s, a = .line s → Utf8 s ∧ s.length < 4294967296 ∧ ¬ Crashing b s := fun s h =>
      hw s (by rw [hs, h]; exact List.mem_cons_self ..)
    cases a <;> first
      | (refine ⟨by simp, List.suffix_cons .., rfl, fun a h => ?_⟩
         simp only [Except.ok.injEq] at h
         subst h
         exact hl)
      | exact ⟨by simp, List.suffix_cons .., rfl, by simp⟩

theorem Calm.emit (e : Effect) : Calm b (fun _ => True) (emit e) :=
  fun w _ => ⟨fun f h => by simp [Model.emit] at h, List.suffix_refl _, rfl, fun _ _ => trivial⟩

theorem Calm.getClient : Calm b (fun _ => True) getClient :=
  fun w _ => ⟨fun f h => by simp [Model.getClient] at h, List.suffix_refl _, rfl, fun _ _ => trivial⟩

theorem Calm.setScratch (x : Bytes) : Calm b (fun _ => True) (setScratch x) :=
  fun w _ => ⟨fun f h => by simp [Model.setScratch] at h, List.suffix_refl _, rfl, fun _ _ => trivial⟩

theorem Calm.takeScratch : Calm b (fun _ => True) takeScratch :=
  fun w _ => ⟨fun f h => by simp [Model.takeScratch] at h, List.suffix_refl _, rfl, fun _ _ => trivial⟩

theorem Calm.setClosed (x : Bool) : Calm b (fun _ => True) (setClosed x) :=
  fun w _ => ⟨fun f h => by simp [Model.setClosed] at h, List.suffix_refl _, rfl, fun _ _ => trivial⟩

theorem Calm.lift {Q : α → Prop} {r : R α} (h : ∃ a, r = .ok a) (hq : ∀ a, r = .ok a → Q a) : Calm b Q (lift r) := by
  obtain ⟨a, rfl⟩ := h
  exact .pure (hq a rfl)

theorem Calm.withTimeout {Q : α → Prop} {x : Act α} (d : Nat) (hx : Calm b Q x) :
    Calm b (fun r => ∀ a, r = .ok a → Q a) (withTimeout d x) := by
  intro w hw
  obtain ⟨h1, h2, h3, h4⟩ := hx w hw
  unfold Model.withTimeout
  rcases hr : x w with ⟨r, w'⟩
  rw [hr] at h1 h2 h3 h4
  cases r with
  | ok a =>
    refine ⟨by simp, h2, h3, fun a' h a'' h' => ?_⟩
    simp only [Except.ok.injEq] at h
    subst h
    injection h' with h'
    subst h'
    exact h4 _ rfl
  | error e =>
    cases e with
    | elapsed n =>
      cases n with
      | zero =>
        refine ⟨by simp, h2, h3, fun a' h a'' h' => ?_⟩
        simp only [Except.ok.injEq] at h
        subst h
        cases h'
      | succ n => exact ⟨by simp, h2, h3, by simp⟩
    | dropped => exact ⟨by simp, h2, h3, by simp⟩
    | panic f => exact absurd rfl (h1 f)

theorem Calm.writeLoop : ∀ (rounds : Nat) (data : Bytes), Calm b (fun _ => True) (writeLoop rounds data)
  | 0, _ => .pure trivial
  | rounds + 1, data => by
    rw [Model.writeLoop]
    split
    · exact .pure trivial
    · refine .bind .next fun a _ => ?_
      split
      · split
        · exact .pure trivial
        · exact .bind (.emit _) fun _ _ => Calm.writeLoop rounds _
      · exact .pure trivial
      · exact .stop (by simp)

theorem Calm.flush : Calm b (fun _ => True) flush := by
  unfold Model.flush
  refine .bind .next fun a _ => ?_
  split
  · exact .bind (.emit _) fun _ _ => .pure trivial
  · exact .pure trivial
  · exact .stop (by simp)

theorem Calm.readerNext : Calm b (fun r => ∀ s, r = some (.ok s) → Utf8 s ∧ s.length < 4294967296 ∧ ¬ Crashing b s)
    readerNext := by
  unfold Model.readerNext
  refine .bind .getClient fun c _ => ?_
  split
  · exact .pure (by simp)
  · refine .bind .next fun a ha => ?_
    split
    · refine .bind (.emit _) fun _ _ => .pure fun s h => ?_
      injection h with h
      injection h with h
      subst h
      exact ha _ rfl
    · exact .pure (by simp)
    · exact .bind (.setClosed _) fun _ _ => .pure (by simp)
    · exact .stop (by simp)

/-- The parse of a harmless line. -/
def Good (b : Build) (m : MsgOwned) : Prop :=
  ∃ s m', m = MsgRef.intoOwned m' ∧ Utf8 s ∧ s.length < 4294967296 ∧ ¬ Crashing b s ∧ MsgRef.parse b s = .ok (some m')

theorem parse_harmless {s : Bytes} (hu : Utf8 s) (hl : s.length < 4294967296) (h : ¬ Crashing b s) :
    (∃ r, MsgOwned.parse b s = .ok r) ∧ ∀ m, MsgOwned.parse b s = .ok (some m) → Good b m := by
  have hn : ¬ CanPanic b s := fun h' => h ((C103_exact b s hu hl).1 h')
  constructor
  · cases hr : MsgOwned.parse b s with
    | ok r => exact ⟨r, rfl⟩
    | error e => exact absurd (.parseOwned e hr) hn
  · intro m hm
    rw [owned_of_ref] at hm
    cases hr : MsgRef.parse b s with
    | error e => rw [hr] at hm; simp [Except.map] at hm
    | ok r =>
      cases r with
      | none => rw [hr] at hm; simp [Except.map] at hm
      | some m' =>
        rw [hr] at hm
        simp only [Except.map, Option.map_some, Except.ok.injEq, Option.some.injEq] at hm
        exact ⟨s, m', hm.symm, hu, hl, h, hr⟩

theorem Calm.recv : Calm b (fun r => ∀ m, r = .ok m → Good b m) (recv b) := by
  unfold Model.recv
  refine .bind .readerNext fun r hr => ?_
  split
  · obtain ⟨hu, hl, hc⟩ := hr _ rfl
    obtain ⟨h1, h2⟩ := parse_harmless hu hl hc
    refine .bind (.lift (Q := fun r => ∀ m, r = some m → Good b m) h1 fun r hr m hm => h2 m (hm ▸ hr)) fun m hm => ?_
    split
    · exact .pure fun m h => by injection h with h; subst h; exact hm _ rfl
    · exact .pure (by simp)
  · exact .pure (by simp)
  · exact .pure (by simp)

theorem Calm.sendRaw (s : Bytes) : Calm b (fun _ => True) (sendRaw s) := by
  unfold Model.sendRaw
  split
  · exact .pure trivial
  · refine .bind (.writeLoop _ _) fun r _ => ?_
    split <;> exact .pure trivial

theorem Calm.withScratch {body : Bytes → Act α} (h : ∀ s, Calm b (fun _ => True) (body s)) :
    Calm b (fun _ => True) (withScratch body) :=
  .bind .takeScratch fun s _ => .bind (h s) fun _ _ => .bind (.setScratch _) fun _ _ => .pure trivial

theorem Calm.send (c : Cmd) : Calm b (fun _ => True) c.send := by
  cases c with
  | join channel =>
    refine .bind .takeScratch fun s _ => .bind (.sendRaw _) fun r _ => ?_
    split
    · exact .pure trivial
    · exact .bind (.setScratch _) fun _ _ => .pure trivial
  | raw s => exact .sendRaw s
  | privmsg _ _ _ _ => exact .withScratch fun _ => .sendRaw _
  | ping _ => exact .withScratch fun _ => .sendRaw _
  | pong _ => exact .withScratch fun _ => .sendRaw _
  | joinAll _ => exact .withScratch fun _ => .sendRaw _

/-- A message of the error, if it has one, is good. -/
def GoodError (b : Build) (e : ConnectError) : Prop := ∀ m, quoted e = some m → Good b m

theorem good_accessors {m : MsgOwned} (h : Good b m) : (∃ c, m.command = .ok c) ∧ ∃ p, m.params = .ok p := by
  obtain ⟨s, m', rfl, hu, hl, -, hp⟩ := h
  obtain ⟨-, h2, -, h4, -⟩ := C01_accessors_exact b s hu hl m' hp
  exact ⟨h2, h4⟩

theorem Calm.recvReply : Calm b (fun r => (∀ m, r = .ok m → Good b m) ∧ ∀ e, r = .error e → GoodError b e) (recvReply b) := by
  unfold Model.recvReply
  refine .bind (.withTimeout _ .recv) fun r hr => ?_
  split
  · refine .pure ⟨by simp, fun e h => ?_⟩
    injection h with h; subst h; intro m hm; simp [quoted] at hm
  · refine .pure ⟨by simp, fun e h => ?_⟩
    injection h with h; subst h; intro m hm; simp [quoted] at hm
  · refine .pure ⟨fun m h => ?_, by simp⟩
    injection h with h; subst h; exact hr _ rfl _ rfl

theorem about_good {m : MsgOwned} (hm : Good b m) {o : Option ConnectError} (h : About m o) : ∀ e, o = some e → GoodError b e := by
  intro e he m' hm'
  rcases h e he with rfl | rfl | rfl <;> simp [quoted] at hm' <;> subst hm' <;> exact hm

theorem checkCap_fine {m : MsgOwned} (h : Good b m) : ∃ o, checkCap m = .ok o := by
  obtain ⟨⟨c, hc⟩, p, hp⟩ := good_accessors h
  unfold checkCap
  rw [hc, hp]
  cases c <;> first
    | exact ⟨_, rfl⟩
    | (cases p with
       | none => exact ⟨_, rfl⟩
       | some v =>
         by_cases hh : hasPrefix (b!"* ACK") v = true
         · exact ⟨none, if_pos hh⟩
         · exact ⟨some .auth, if_neg hh⟩)

theorem checkWelcome_fine {m : MsgOwned} (h : Good b m) : ∃ o, checkWelcome m = .ok o := by
  obtain ⟨⟨c, hc⟩, p, hp⟩ := good_accessors h
  unfold checkWelcome
  rw [hc, hp]
  cases c <;> first
    | exact ⟨_, rfl⟩
    | (cases p with
       | none => exact ⟨_, rfl⟩
       | some v =>
         by_cases hh : containsStr (b!"authentication failed") v = true
         · exact ⟨some .auth, if_pos hh⟩
         · exact ⟨some (.notice m), if_neg hh⟩)

theorem Calm.awaitWelcome : Calm b (fun r => ∀ e, r = .error e → GoodError b e) (awaitWelcome b) := by
  unfold Model.awaitWelcome
  refine .bind .recvReply fun r hr => ?_
  split
  · exact .pure fun e h => by injection h with h; subst h; exact hr.2 _ rfl
  · rename_i m
    have hm := hr.1 m rfl
    refine .bind (.lift (Q := fun o => ∀ e, o = some e → GoodError b e) (checkCap_fine hm)
      fun o ho => about_good hm (checkCap_about ho)) fun o ho => ?_
    split
    · exact .pure fun e h => by injection h with h; subst h; exact ho _ rfl
    · refine .bind .recvReply fun r hr => ?_
      split
      · exact .pure fun e h => by injection h with h; subst h; exact hr.2 _ rfl
      · rename_i m
        have hm := hr.1 m rfl
        refine .bind (.lift (Q := fun o => ∀ e, o = some e → GoodError b e) (checkWelcome_fine hm)
          fun o ho => about_good hm (checkWelcome_about ho)) fun o ho => ?_
        split
        · exact .pure fun e h => by injection h with h; subst h; exact ho _ rfl
        · exact .pure (by simp)

theorem goodError_of {e : ConnectError} (h : quoted e = none) : GoodError b e := fun m hm => by rw [h] at hm; cases hm

theorem Calm.handshake : Calm b (fun r => ∀ e, r = .error e → GoodError b e) (handshake b) := by
  unfold Model.handshake
  refine .bind .getClient fun c _ => .bind (.setScratch _) fun _ _ => .bind (.writeLoop _ _) fun r _ => ?_
  split
  · exact .pure fun e h => by injection h with h; subst h; exact goodError_of rfl
  · refine .bind .flush fun r _ => ?_
    split
    · exact .pure fun e h => by injection h with h; subst h; exact goodError_of rfl
    · exact .bind (.setScratch _) fun _ _ => .awaitWelcome

theorem Calm.openStream : Calm b (fun _ => True) openStream := by
  unfold Model.openStream
  refine .bind (.emit _) fun _ _ => .bind .next fun a _ => ?_
  split <;> first | exact .pure trivial | exact .stop (by simp)

theorem Calm.sleep (d : Nat) : Calm b (fun _ => True) (sleep d) := by
  unfold Model.sleep
  refine .bind (.emit _) fun _ _ => .bind .next fun a _ => ?_
  split <;> first | exact .pure trivial | exact .stop (by simp)

theorem Calm.useStream : Calm b (fun _ => True) useStream := .bind (.emit _) fun _ _ => .setClosed _

/-! ### The loop of `reconnect` -/

/-- `Calm`, for scripts of fewer than `n` answers. -/
def CalmUpTo {α : Type} (b : Build) (n : Nat) (Q : α → Prop) (x : Act α) : Prop :=
  ∀ w, Harmless b w.script → w.script.length < n → (∀ f, (x w).1 ≠ .error (.panic f)) ∧ (x w).2.script <:+ w.script ∧
    (x w).2.client.config = w.client.config ∧ ∀ a, (x w).1 = .ok a → Q a

theorem Calm.upTo {Q : α → Prop} {x : Act α} (n : Nat) (h : Calm b Q x) : CalmUpTo b n Q x := fun w hw _ => h w hw

theorem CalmUpTo.bind {n : Nat} {Q : α → Prop} {P : β → Prop} {x : Act α} {f : α → Act β} (hx : Calm b Q x)
    (hf : ∀ a, Q a → CalmUpTo b n P (f a)) : CalmUpTo b n P (x >>= f) := by
  intro w hw hn
  obtain ⟨h1, h2, h3, h4⟩ := hx w hw
  rw [act_bind]
  rcases hr : x w with ⟨r, w'⟩
  rw [hr] at h1 h2 h3 h4
  cases r with
  | error e => exact ⟨fun f h => h1 f (by simpa using h), h2, h3, fun a h => by simp at h⟩
  | ok a =>
    obtain ⟨k1, k2, k3, k4⟩ := hf a (h4 a rfl) w' (harmless_suffix hw h2) (Nat.lt_of_le_of_lt h2.length_le hn)
    exact ⟨k1, k2.trans h2, k3.trans h3, k4⟩

theorem CalmUpTo.reconnectLoop (cfg : Config) (hc : Computable cfg.backoff) : ∀ (fuel : Nat) (tries : Option Nat)
    (delay : Nat) (cause : ConnectError), delay * cfg.backoff.delayMultiplier ≤ durationMax → GoodError b cause →
    CalmUpTo b fuel (fun r => ∀ e, r = .error e → GoodError b e) (reconnectLoop b cfg fuel tries delay cause)
  | 0, _, _, _, _, _ => fun w _ h => by omega
  | fuel + 1, tries, delay, cause, hd, hq => by
    rw [Model.reconnectLoop]
    split
    · exact Calm.upTo _ (.pure fun e h => by injection h with h; subst h; exact hq)
    · rw [mulDuration_ok hd]
      have hd' : min cfg.backoff.maxDelay (delay * cfg.backoff.delayMultiplier) * cfg.backoff.delayMultiplier ≤ durationMax :=
        Nat.le_trans (Nat.mul_le_mul_right _ (Nat.min_le_left _ _)) hc.2
      have rest : CalmUpTo b fuel (fun r => ∀ e, r = .error e → GoodError b e) (do
          let delay' ← lift (.ok (delay * cfg.backoff.delayMultiplier))
          let delay' := min cfg.backoff.maxDelay delay'
          let tries' := tries.map (· - 1)
          match ← Model.withTimeout cfg.timeout Model.openStream with
          | .error () => return .error .timeout
          | .ok (.error e) => Model.reconnectLoop b cfg fuel tries' delay' (.open_ e)
          | .ok (.ok ()) => do
            Model.useStream
            match ← Model.withTimeout cfg.timeout (Model.handshake b) with
            | .error () => return .error .timeout
            | .ok (.error e) =>
              if e.shouldRetry then Model.reconnectLoop b cfg fuel tries' delay' e
              else return .error e
            | .ok (.ok ()) => return .ok ()) := by
        refine .bind (.lift (Q := fun x => x = delay * cfg.backoff.delayMultiplier) ⟨_, rfl⟩ fun a h => by injection h with h; exact h.symm)
          fun x hx => ?_
        subst hx
        refine .bind (.withTimeout _ .openStream) fun r _ => ?_
        split
        · exact Calm.upTo _ (.pure fun e h => by injection h with h; subst h; exact goodError_of rfl)
        · exact CalmUpTo.reconnectLoop cfg hc fuel _ _ _ hd' (goodError_of rfl)
        · refine .bind .useStream fun _ _ => .bind (.withTimeout _ .handshake) fun r hr => ?_
          split
          · exact Calm.upTo _ (.pure fun e h => by injection h with h; subst h; exact goodError_of rfl)
          · split
            · exact CalmUpTo.reconnectLoop cfg hc fuel _ _ _ hd' (hr _ rfl _ rfl)
            · exact Calm.upTo _ (.pure fun e h => by injection h with h; subst h; exact hr _ rfl _ rfl)
          · exact Calm.upTo _ (.pure (by simp))
      intro w hw hn
      have hs := Calm.sleep (b := b) delay w hw
      rw [act_bind]
      rw [sleep_run] at hs ⊢
      rcases hscr : w.script with _ | ⟨a, tl⟩
      · exact ⟨by simp, by simp [hscr], by simp, by simp⟩
      · have hh : Harmless b tl := harmless_suffix hw (by rw [hscr]; exact List.suffix_cons ..)
        have hlen : tl.length < fuel := by rw [hscr] at hn; simp at hn; exact hn
        cases a <;> first
          | (obtain ⟨k1, k2, k3, k4⟩ := rest { w with log := w.log ++ [.sleep delay], script := tl } hh hlen
             exact ⟨k1, k2.trans (List.suffix_cons ..), k3, k4⟩)
          | (refine ⟨by simp, ?_, rfl, by simp⟩; exact List.suffix_cons ..)

theorem reconnect_calm (w : World) (hw : Harmless b w.script) (hc : Computable w.client.config.backoff) :
    (∀ f, (reconnect b w).1 ≠ .error (.panic f)) ∧ (reconnect b w).2.script <:+ w.script ∧
    (reconnect b w).2.client.config = w.client.config ∧ ∀ e, (reconnect b w).1 = .ok (.error e) → GoodError b e := by
  obtain ⟨h1, h2, h3, h4⟩ := CalmUpTo.reconnectLoop (b := b) w.client.config hc (w.script.length + 1)
    w.client.config.backoff.maxTries w.client.config.backoff.initialDelay .timeout hc.1 (goodError_of rfl) w hw
    (Nat.lt_succ_self _)
  exact ⟨h1, h2, h3, fun e h => h4 _ h e rfl⟩

theorem connect_calm (cfg : Config) (w : World) (hw : Harmless b w.script) :
    (∀ f, (connect b cfg w).1 ≠ .error (.panic f)) ∧ (connect b cfg w).2.script <:+ w.script ∧
    ((connect b cfg w).1 = .ok (.ok ()) → (connect b cfg w).2.client.config = cfg) ∧
    ∀ e, (connect b cfg w).1 = .ok (.error e) → GoodError b e := by
  unfold Model.connect
  obtain ⟨a1, a2, -, -⟩ := Calm.next (b := b) w hw
  rw [act_bind]
  rcases hn : next w with ⟨r, w₁⟩
  rw [hn] at a1 a2
  cases r with
  | error e => exact ⟨fun f h => a1 f (by simpa using h), a2, by simp, by simp⟩
  | ok a =>
    simp only
    split
    · obtain ⟨b1, b2, -, -⟩ := Calm.withTimeout (b := b) cfg.timeout .openStream w₁ (harmless_suffix hw a2)
      rw [act_bind]
      rcases ho : withTimeout cfg.timeout openStream w₁ with ⟨r, w₂⟩
      rw [ho] at b1 b2
      have s2 := b2.trans a2
      cases r with
      | error e => exact ⟨fun f h => b1 f (by simpa using h), s2, by simp, by simp⟩
      | ok r =>
        simp only
        split
        · refine ⟨by simp [Pure.pure], s2, by simp [Pure.pure], fun e h => ?_⟩
          simp only [Pure.pure, Except.ok.injEq, Except.error.injEq] at h
          subst h
          exact goodError_of rfl
        · refine ⟨by simp [Pure.pure], s2, by simp [Pure.pure], fun e h => ?_⟩
          simp only [Pure.pure, Except.ok.injEq, Except.error.injEq] at h
          subst h
          exact goodError_of rfl
        · have tail : Calm b (fun r => ∀ e, r = .error e → GoodError b e) (do
              match ← withTimeout cfg.timeout (handshake b) with
              | .error () => return .error .timeout
              | .ok r => return r) := by
            refine .bind (.withTimeout _ .handshake) fun r hr => ?_
            split
            · exact .pure fun e h => by injection h with h; subst h; exact goodError_of rfl
            · exact .pure (hr _ rfl)
          obtain ⟨c1, c2, c3, c4⟩ := tail ⟨⟨false, [], cfg⟩, w₂.log ++ [.connected], w₂.script⟩ (harmless_suffix hw s2)
          exact ⟨c1, c2.trans s2, fun _ => c3, fun e h => c4 _ h e rfl⟩
    · refine ⟨by simp [Pure.pure], a2, by simp [Pure.pure], fun e h => ?_⟩
      simp only [Pure.pure, Except.ok.injEq, Except.error.injEq] at h
      subst h
      exact goodError_of rfl
    · exact ⟨by simp [Model.stop], a2, by simp [Model.stop], by simp [Model.stop]⟩

/-! ### What was received -/

theorem good_asks {m : MsgOwned} (h : Good b m) (t : Tag) (name : Bytes) (esc : Nat → Bool) (alternate : Bool) :
    ∀ x ∈ asksReceived t name esc alternate m, x = .ok () := by
  obtain ⟨s, m, rfl, hu, hl, hc, hp⟩ := h
  have hn : ¬ CanPanic b s := fun h' => hc ((C103_exact b s hu hl).1 h')
  have ho : MsgOwned.parse b s = .ok (some m.intoOwned) := by rw [owned_of_ref, hp]; rfl
  have all : ∀ x : R Unit, (∀ e, x ≠ .error e) → x = .ok () := by
    intro x hx
    cases x with
    | ok u => rfl
    | error e => exact absurd rfl (hx e)
  intro x hx
  unfold asksReceived at hx
  rcases List.mem_append.1 hx with hx | hx
  · rcases List.mem_append.1 hx with hx | hx
    · exact all x fun e he => hn (.owned _ ho t name esc alternate e (he ▸ hx))
    · exact all x fun e he => hn (.ref _ hp t name esc alternate e (he ▸ hx))
  · split at hx
    · rename_i M hM
      refine all x fun e he => hn (.typed M ?_ esc alternate e (he ▸ hx))
      unfold Message.parse
      rw [hp]
      exact hM
    · simp at hx

theorem good_display {e : ConnectError} (h : GoodError b e) (esc : Nat → Bool) (io : IoError → Bytes) (tls : Bytes) :
    ∃ t, e.display esc io tls = .ok t := by
  cases hq : quoted e with
  | none => cases e <;> first | exact ⟨_, rfl⟩ | (simp [quoted] at hq; done)
  | some m =>
    obtain ⟨p, -, hp⟩ := display_quoted hq esc io tls
    have := good_asks (h m hq) .id [] esc false (tried (m.print esc false)) (by simp [asksReceived, asksOwned])
    rw [hp]
    cases hm : m.print esc false with
    | ok t => exact ⟨_, rfl⟩
    | error f => rw [hm] at this; simp [tried, Except.map] at this

end Tmi.Proofs
