/-
Lemmas about receiving, the handshake and reconnecting.
-/
import Verif.Proofs.Client

namespace Tmi.Proofs
open Tmi.Model Tmi.Spec

/-! ### Receiving -/

/-- `recv`, as a function of what happens. -/
theorem recv_run (b : Build) (w : World) : recv b w =
    if w.client.closed = true then (.ok (.error .streamClosed), w)
    else match w.script with
      | [] => (.error .dropped, w)
      | .elapsed n :: rest => (.error (.elapsed n), { w with script := rest })
      | .line s :: rest =>
        let w' := { w with log := w.log ++ [.took s], script := rest }
        match MsgOwned.parse b s with
        | .error f => (.error (.panic f), w')
        | .ok none => (.ok (.error (.parse s)), w')
        | .ok (some m) => (.ok (.ok m), w')
      | .readFailed e :: rest => (.ok (.error (.io e)), { w with script := rest })
      | .eof :: rest =>
        (.ok (.error .streamClosed), { w with script := rest, client := { w.client with closed := true } })
      | _ :: rest => (.error .dropped, { w with script := rest }) := by
  unfold recv readerNext
  by_cases hc : w.client.closed = true
  · rw [if_pos hc]
    simp only [act_bind, getClient, hc, if_true, act_pure]
  · rw [if_neg hc]
    simp only [act_bind, getClient, hc, if_false, Bool.false_eq_true]
    rcases next_cases w with ⟨hs, hn⟩ | ⟨n, rest, hs, hn⟩ | ⟨a, rest, hs, hne, hn⟩
    · simp only [act_bind, hn, hs]
    · simp only [act_bind, hn, hs]
    · simp only [act_bind, hn, hs]
      cases a with
      | elapsed n => exact absurd rfl (hne n)
      | line s =>
        simp only [act_bind, emit, act_pure]
        cases MsgOwned.parse b s with
        | error f => simp only [lift, stop]
        | ok r => cases r <;> simp only [lift, act_pure]
      | readFailed e => simp only [act_pure]
      | eof => simp only [act_bind, setClosed, act_pure]
      | _ => simp only [stop]

/-- `recvReply`, as a function of what happens. -/
theorem recvReply_run (b : Build) (w : World) : recvReply b w =
    if w.client.closed = true then (.ok (.error (.read .streamClosed)), w)
    else match w.script with
      | [] => (.error .dropped, w)
      | .elapsed 0 :: rest => (.ok (.error .timeout), { w with script := rest })
      | .elapsed (n + 1) :: rest => (.error (.elapsed n), { w with script := rest })
      | .line s :: rest =>
        let w' := { w with log := w.log ++ [.took s], script := rest }
        match MsgOwned.parse b s with
        | .error f => (.error (.panic f), w')
        | .ok none => (.ok (.error (.read (.parse s))), w')
        | .ok (some m) => (.ok (.ok m), w')
      | .readFailed e :: rest => (.ok (.error (.read (.io e))), { w with script := rest })
      | .eof :: rest =>
        (.ok (.error (.read .streamClosed)),
          { w with script := rest, client := { w.client with closed := true } })
      | _ :: rest => (.error .dropped, { w with script := rest }) := by
  unfold recvReply
  rw [act_bind]
  simp only [withTimeout, recv_run]
  by_cases hc : w.client.closed = true
  · simp only [if_pos hc, act_pure]
  · simp only [if_neg hc]
    cases hs : w.script with
    | nil => simp only []
    | cons a rest =>
      cases a with
      | elapsed n => cases n <;> simp only [act_pure]
      | line s =>
        simp only []
        cases MsgOwned.parse b s with
        | error f => simp only []
        | ok r => cases r <;> simp only [act_pure]
      | _ => simp only [act_pure]

/-- What reading may do: take lines; the buffer and the configuration stay. -/
structure ReadEffect (w w' : World) : Prop where
  log : ∃ ss, w'.log = w.log ++ List.map Effect.took ss
  scratch : w'.client.scratch = w.client.scratch
  config : w'.client.config = w.client.config
  script : w'.script <:+ w.script

theorem ReadEffect.refl (w : World) : ReadEffect w w := ⟨⟨[], by simp⟩, rfl, rfl, List.suffix_refl _⟩

theorem ReadEffect.trans {a b c : World} (h : ReadEffect a b) (h' : ReadEffect b c) : ReadEffect a c := by
  obtain ⟨⟨s, h1⟩, h2, h3, h4⟩ := h
  obtain ⟨⟨s', h1'⟩, h2', h3', h4'⟩ := h'
  exact ⟨⟨s ++ s', by rw [h1', h1]; simp⟩, h2'.trans h2, h3'.trans h3, h4'.trans h4⟩

/-- A computation whose steps are all related by a transitive relation. -/
def Keeps {α : Type} (P : World → World → Prop) (x : Act α) : Prop := ∀ w, P w (x w).2

theorem Keeps.bind {α β : Type} {P : World → World → Prop} (ht : ∀ a b c, P a b → P b c → P a c)
    {x : Act α} {f : α → Act β} (hx : Keeps P x) (hf : ∀ a, Keeps P (f a)) : Keeps P (x >>= f) := by
  intro w
  have h := hx w
  rw [act_bind]
  cases hw : x w with
  | mk r w' =>
    rw [hw] at h
    cases r with
    | error e => exact h
    | ok a => exact ht _ _ _ h (hf a w')

theorem Keeps.pure {α : Type} {P : World → World → Prop} (hr : ∀ w, P w w) (a : α) :
    Keeps P (pure a : Act α) := fun w => hr w

theorem Keeps.stop {α : Type} {P : World → World → Prop} (hr : ∀ w, P w w) (e : Stop) :
    Keeps P (stop e : Act α) := fun w => hr w

theorem Keeps.lift {α : Type} {P : World → World → Prop} (hr : ∀ w, P w w) (x : R α) :
    Keeps P (lift x : Act α) := by
  cases x with
  | ok a => exact fun w => hr w
  | error f => exact fun w => hr w

theorem recvReply_keeps (b : Build) : Keeps ReadEffect (recvReply b) := by
  intro w
  rw [recvReply_run]
  split
  · exact .refl _
  · have suf : ∀ {a : Answer} {rest : List Answer}, w.script = a :: rest → rest <:+ w.script := by
      intro a rest h; rw [h]; exact List.suffix_cons _ _
    split
    · exact .refl _
    · exact ⟨⟨[], by simp⟩, rfl, rfl, suf ‹_›⟩
    · exact ⟨⟨[], by simp⟩, rfl, rfl, suf ‹_›⟩
    · rename_i s rest h
      simp only []
      split <;> exact ⟨⟨[s], by simp⟩, rfl, rfl, suf ‹_›⟩
    · exact ⟨⟨[], by simp⟩, rfl, rfl, suf ‹_›⟩
    · exact ⟨⟨[], by simp⟩, rfl, rfl, suf ‹_›⟩
    · exact ⟨⟨[], by simp⟩, rfl, rfl, suf ‹_›⟩

theorem awaitWelcome_keeps (b : Build) : Keeps ReadEffect (awaitWelcome b) := by
  unfold awaitWelcome
  refine Keeps.bind (P := ReadEffect) (fun _ _ _ => ReadEffect.trans) (recvReply_keeps b) fun r => ?_
  cases r with
  | error e => exact .pure ReadEffect.refl _
  | ok m =>
    refine Keeps.bind (P := ReadEffect) (fun _ _ _ => ReadEffect.trans) (.lift ReadEffect.refl _) fun r => ?_
    cases r with
    | some e => exact .pure ReadEffect.refl _
    | none =>
      refine Keeps.bind (P := ReadEffect) (fun _ _ _ => ReadEffect.trans) (recvReply_keeps b) fun r => ?_
      cases r with
      | error e => exact .pure ReadEffect.refl _
      | ok m =>
        refine Keeps.bind (P := ReadEffect) (fun _ _ _ => ReadEffect.trans) (.lift ReadEffect.refl _) fun r => ?_
        cases r <;> exact .pure ReadEffect.refl _

/-- Reading the replies never fails in a way that is retried. -/
theorem awaitWelcome_not_retried (b : Build) (w w' : World) (e : ConnectError)
    (h : awaitWelcome b w = (.ok (.error e), w')) : e.shouldRetry = false := by
  have key : ∀ w w' e, recvReply b w = (.ok (.error e), w') → e.shouldRetry = false := by
    intro w w' e h
    rw [recvReply_run] at h
    split at h
    · simp at h; rw [← h.1]; rfl
    · split at h
      · simp at h
      · simp at h; rw [← h.1]; rfl
      · simp at h
      · simp only [] at h
        split at h
        · simp at h
        · simp at h; rw [← h.1]; rfl
        · simp at h
      · simp at h; rw [← h.1]; rfl
      · simp at h; rw [← h.1]; rfl
      · simp at h
  have cap : ∀ m e, checkCap m = .ok (some e) → e.shouldRetry = false := by
    intro m e h
    unfold checkCap at h
    cases hc : m.command with
    | error f => rw [hc] at h; simp [bind, Except.bind] at h
    | ok c =>
      rw [hc, bind_ok] at h
      split at h
      · cases hp : m.params with
        | error f => rw [hp] at h; simp [bind, Except.bind] at h
        | ok p =>
          rw [hp, bind_ok] at h
          split at h
          · split at h <;> simp [pure, Except.pure] at h
            rw [← h]; rfl
          · simp [pure, Except.pure] at h; rw [← h]; rfl
      · simp [pure, Except.pure] at h; rw [← h]; rfl
  have wel : ∀ m e, checkWelcome m = .ok (some e) → e.shouldRetry = false := by
    intro m e h
    unfold checkWelcome at h
    cases hc : m.command with
    | error f => rw [hc] at h; simp [bind, Except.bind] at h
    | ok c =>
      rw [hc, bind_ok] at h
      split at h
      · simp [pure, Except.pure] at h
      · cases hp : m.params with
        | error f => rw [hp] at h; simp [bind, Except.bind] at h
        | ok p =>
          rw [hp, bind_ok] at h
          split at h
          · split at h <;> simp [pure, Except.pure] at h <;> rw [← h] <;> rfl
          · simp [pure, Except.pure] at h; rw [← h]; rfl
      · simp [pure, Except.pure] at h; rw [← h]; rfl
  unfold awaitWelcome at h
  rw [act_bind] at h
  cases h1 : recvReply b w with
  | mk r w1 =>
    rw [h1] at h
    cases r with
    | error s => simp at h
    | ok r =>
      cases r with
      | error e1 =>
        simp [act_pure] at h
        rw [← h.1]; exact key _ _ _ h1
      | ok m =>
        simp only [act_bind] at h
        cases h2 : checkCap m with
        | error f => rw [h2] at h; simp [lift, stop] at h
        | ok r =>
          rw [h2] at h
          cases r with
          | some e2 =>
            simp [lift, act_pure] at h
            rw [← h.1]; exact cap _ _ h2
          | none =>
            simp only [lift, act_pure, act_bind] at h
            cases h3 : recvReply b w1 with
            | mk r w3 =>
              rw [h3] at h
              cases r with
              | error s => simp at h
              | ok r =>
                cases r with
                | error e3 =>
                  simp [act_pure] at h
                  rw [← h.1]; exact key _ _ _ h3
                | ok m =>
                  simp only [act_bind] at h
                  cases h4 : checkWelcome m with
                  | error f => rw [h4] at h; simp [lift, stop] at h
                  | ok r =>
                    rw [h4] at h
                    cases r with
                    | some e4 =>
                      simp [lift, act_pure] at h
                      rw [← h.1]; exact wel _ _ h4
                    | none => simp [lift, act_pure] at h

/-! ### Handshake -/

theorem hasPrefix_iff (p s : Bytes) : hasPrefix p s = true ↔ p <+: s := by
  unfold hasPrefix; exact List.isPrefixOf_iff_prefix

theorem containsStr_iff (n : Bytes) : ∀ s : Bytes, containsStr n s = true ↔ n <:+: s
  | [] => by simp [containsStr]
  | c :: t => by
    rw [containsStr, Bool.or_eq_true, hasPrefix_iff, containsStr_iff n t, List.infix_cons_iff]

theorem helloText_eq (c : Credentials) : helloText c = hello c := by
  unfold helloText hello passToken
  obtain ⟨login, token⟩ := c
  have key : ∀ t : Bytes, ((if hasPrefix (b!"oauth:") t = true then [] else b!"oauth:") ++ t : Bytes)
      = (if b!"oauth:" <+: t then t else b!"oauth:" ++ t) := by
    intro t
    by_cases h : b!"oauth:" <+: t
    · rw [if_pos h, if_pos ((hasPrefix_iff _ _).2 h)]; rfl
    · rw [if_neg h, if_neg (fun h' => h ((hasPrefix_iff _ _).1 h'))]
  cases token with
  | none =>
    have := key (b!"just_a_lil_guy")
    simp only [Option.getD_none, ← this]
    simp
  | some t =>
    have := key t
    simp only [Option.getD_some, ← this]
    simp

theorem hello_ne_nil (c : Credentials) : hello c ≠ [] := by
  unfold hello
  intro h
  have := congrArg List.length h
  simp at this

/-- The handshake, after the buffer is filled. -/
theorem handshake_eq (b : Build) (w : World) :
    handshake b w =
      (do
        match ← writeAll (w.client.scratch ++ hello w.client.config.credentials) with
        | .error e => return .error (.io e)
        | .ok () =>
          match ← flush with
          | .error e => return .error (.io e)
          | .ok () => do
            setScratch []
            awaitWelcome b : Act (Except ConnectError Unit))
      { w with client := { w.client with
          scratch := w.client.scratch ++ hello w.client.config.credentials } } := by
  unfold handshake
  rw [act_bind_ok (x := getClient) (a := w.client) (w' := w) rfl]
  rw [helloText_eq]
  rfl

/-- What a handshake may do: the greeting, after anything pending, is handed to the socket.  Either
all of it was handed over and flushed, and the buffer is empty; or it stays in the buffer. -/
structure HelloEffect (w : World) (r : Except Stop (Except ConnectError Unit)) (w' : World) : Prop where
  log : ∃ ws ss, w'.log = w.log ++ ws ++ List.map Effect.took ss ∧
    (∀ e ∈ ws, e = .flush ∨ ∃ bs, e = .wrote bs) ∧
    written ws <+: w.client.scratch ++ hello w.client.config.credentials ∧
    ((w'.client.scratch = [] ∧
        written ws = w.client.scratch ++ hello w.client.config.credentials) ∨
     (w'.client.scratch = w.client.scratch ++ hello w.client.config.credentials ∧ ss = [] ∧
        r ≠ .ok (.ok ()) ∧ ∀ e, r = .ok (.error e) → ∃ i, e = .io i))
  retried : ∀ e, r = .ok (.error e) → e.shouldRetry = true →
    w'.client.scratch = w.client.scratch ++ hello w.client.config.credentials
  config : w'.client.config = w.client.config
  script : w'.script <:+ w.script

theorem handshake_effect (b : Build) (w : World) :
    HelloEffect w (handshake b w).1 (handshake b w).2 := by
  rw [handshake_eq]
  generalize hd : w.client.scratch ++ hello w.client.config.credentials = data
  have hw := writeAll_effect data { w with client := { w.client with scratch := data } }
  have hok := @writeAll_ok data { w with client := { w.client with scratch := data } }
  rw [act_bind]
  cases h1 : writeAll data { w with client := { w.client with scratch := data } } with
  | mk r w1 =>
    rw [h1] at hw
    obtain ⟨⟨ev, l1, l2, l3, l4⟩, l5, l6, l7⟩ := hw
    simp only at l1 l4 l5 l6 l7
    have ev' : ∀ e ∈ ev, e = .flush ∨ ∃ bs, e = .wrote bs := fun e he => .inr (l2 e he)
    cases r with
    | error s =>
      simp only []
      exact ⟨⟨ev, [], by simp [l1], ev', by rw [hd]; exact l3,
        .inr ⟨by rw [l5, hd], rfl, by simp, by simp⟩⟩, by simp, by rw [l5], l6⟩
    | ok r =>
      cases r with
      | error e =>
        simp only [act_pure]
        exact ⟨⟨ev, [], by simp [l1], ev', by rw [hd]; exact l3,
          .inr ⟨by rw [l5, hd], rfl, by simp, by simp⟩⟩, fun _ _ _ => by rw [l5, hd], by rw [l5], l6⟩
      | ok _ =>
        simp only []
        have l4 := l4 rfl
        rw [act_bind]
        unfold flush
        rw [act_bind]
        rcases next_cases w1 with ⟨hs, hn⟩ | ⟨n, rest, hs, hn⟩ | ⟨a, rest, hs, hne, hn⟩
        · rw [hn]
          exact ⟨⟨ev, [], by simp [l1], ev', by rw [hd]; exact l3,
            .inr ⟨by rw [l5, hd], rfl, by simp, by simp⟩⟩, by simp, by rw [l5], l6⟩
        · rw [hn]
          exact ⟨⟨ev, [], by simp [l1], ev', by rw [hd]; exact l3,
            .inr ⟨by simp [l5, hd], rfl, by simp, by simp⟩⟩, by simp, by simp [l5],
            (by rw [hs]; exact List.suffix_cons _ _ : rest <:+ w1.script).trans l6⟩
        · rw [hn]
          have suf : rest <:+ w.script :=
            (by rw [hs]; exact List.suffix_cons _ _ : rest <:+ w1.script).trans l6
          cases a with
          | elapsed n => exact absurd rfl (hne n)
          | flushed =>
            simp only [act_bind, emit, act_pure, setScratch]
            have hk := awaitWelcome_keeps b
              { client := { w1.client with scratch := [] }, log := w1.log ++ [.flush], script := rest }
            obtain ⟨⟨ss, k1⟩, k2, k3, k4⟩ := hk
            refine ⟨⟨ev ++ [.flush], ss, ?_, ?_, ?_, .inl ⟨k2, ?_⟩⟩, ?_, ?_, ?_⟩
            · rw [k1, l1]; simp
            · intro e he
              rcases List.mem_append.1 he with he | he
              · exact ev' e he
              · simp at he; exact .inl he
            · rw [written_append, l4, hd]; simp [written]
            · rw [written_append, l4, hd]; simp [written]
            · intro e he hr
              have := awaitWelcome_not_retried b _ _ e (Prod.ext he rfl)
              rw [this] at hr; simp at hr
            · rw [k3, l5]
            · exact k4.trans suf
          | flushFailed e =>
            simp only [act_pure]
            exact ⟨⟨ev, [], by simp [l1], ev', by rw [hd]; exact l3,
              .inr ⟨by simp [l5, hd], rfl, by simp, by simp⟩⟩, fun _ _ _ => by simp [l5, hd],
              by simp [l5], suf⟩
          | _ =>
            simp only [stop]
            exact ⟨⟨ev, [], by simp [l1], ev', by rw [hd]; exact l3,
              .inr ⟨by simp [l5, hd], rfl, by simp, by simp⟩⟩, by simp, by simp [l5], suf⟩

/-- The handshake on a network that accepts and flushes the greeting: the replies decide. -/
theorem handshake_accepts (b : Build) (w : World) (rest : List Answer)
    (h : Accepts (w.client.scratch ++ hello w.client.config.credentials) w.script (.flushed :: rest)) :
    ∃ ev, (∀ e ∈ ev, e = .flush ∨ ∃ bs, e = .wrote bs) ∧
      written ev = w.client.scratch ++ hello w.client.config.credentials ∧
      handshake b w = awaitWelcome b
        { client := { w.client with scratch := [] }, log := w.log ++ ev, script := rest } := by
  rw [handshake_eq]
  generalize hd : w.client.scratch ++ hello w.client.config.credentials = data at *
  have hw := writeAll_effect data { w with client := { w.client with scratch := data } }
  obtain ⟨w1, h1, h2⟩ := writeAll_accepts { w with client := { w.client with scratch := data } } h
  rw [h1] at hw
  obtain ⟨⟨ev, l1, l2, l3, l4⟩, l5, l6, l7⟩ := hw
  simp only at l1 l4 l5 l6 l7
  refine ⟨ev ++ [.flush], ?_, ?_, ?_⟩
  · intro e he
    rcases List.mem_append.1 he with he | he
    · exact .inr (l2 e he)
    · simp at he; exact .inl he
  · rw [written_append, l4 trivial]; simp [written]
  · rw [act_bind, h1]
    simp only []
    have hn : next w1 = (.ok .flushed, { w1 with script := rest }) := by unfold next; rw [h2]
    unfold flush
    simp only [act_bind, hn, emit, act_pure, setScratch]
    rw [l1, l5]
    simp

/-- A successful handshake: what must have happened. -/
theorem handshake_ok_inv (b : Build) (w w' : World) (h : handshake b w = (.ok (.ok ()), w')) :
    ∃ rest, Accepts (w.client.scratch ++ hello w.client.config.credentials) w.script
      (.flushed :: rest) := by
  rw [handshake_eq] at h
  generalize hd : w.client.scratch ++ hello w.client.config.credentials = data at *
  rw [act_bind] at h
  cases h1 : writeAll data { w with client := { w.client with scratch := data } } with
  | mk r w1 =>
    rw [h1] at h
    cases r with
    | error s => simp at h
    | ok r =>
      cases r with
      | error e => simp [act_pure] at h
      | ok _ =>
        have := writeAll_ok h1
        simp only at this h
        rw [act_bind] at h
        unfold flush at h
        rw [act_bind] at h
        rcases next_cases w1 with ⟨hs, hn⟩ | ⟨n, rest, hs, hn⟩ | ⟨a, rest, hs, hne, hn⟩
        · rw [hn] at h; simp at h
        · rw [hn] at h; simp at h
        · rw [hn] at h
          cases a with
          | elapsed n => exact absurd rfl (hne n)
          | flushed => rw [hs] at this; exact ⟨rest, this⟩
          | flushFailed e => simp [act_pure] at h
          | _ => simp [stop] at h

end Tmi.Proofs
