/-
Lemmas: `handshake`, `connect` and `reconnect` refine their specifications.
-/
import Verif.Proofs.Replies
import Verif.Proofs.Sending

namespace Tmi.Proofs
open Tmi.Model Tmi.Spec

/-! ### Writing: the other outcomes -/

theorem writeLoop_inv : ∀ (k : Nat) (data : Bytes) (w w' : World), data.length ≤ k →
    (∀ e, writeLoop k data w = (.ok (.error e), w') → Rejects data w.script e w'.script) ∧
    (writeLoop k data w = (.error (.elapsed 0), w') → Stalls data w.script w'.script)
  | 0, data, w, w', hk => by
    simp [writeLoop, act_pure]
  | k + 1, data, w, w', hk => by
    rw [writeLoop]
    by_cases hd : data = []
    · rw [if_pos hd]; simp [act_pure]
    rw [if_neg hd]
    rcases next_cases w with ⟨hs, hn⟩ | ⟨n, rest, hs, hn⟩ | ⟨a, rest, hs, hne, hn⟩
    · rw [act_bind_error hn]; simp
    · rw [act_bind_error hn]
      refine ⟨by simp, fun h => ?_⟩
      simp at h
      rw [hs, h.1, ← h.2]; exact .now _ hd
    · rw [act_bind_ok hn]
      cases a with
      | accept n =>
        simp only []
        by_cases h0 : n = 0
        · rw [if_pos h0]
          refine ⟨fun e h => ?_, by simp [act_pure]⟩
          simp [act_pure] at h
          rw [hs, h0, ← h.1, ← h.2]; exact .zero _ hd
        · rw [if_neg h0]
          have hpos : data.length ≠ 0 := by simpa using hd
          rw [act_bind_ok (x := emit (.wrote (data.take n)))
            (w' := { client := w.client, log := w.log ++ [.wrote (data.take n)], script := rest })
            rfl]
          have ih := writeLoop_inv k (data.drop n)
            { client := w.client, log := w.log ++ [.wrote (data.take n)], script := rest } w'
            (by rw [List.length_drop]; omega)
          rw [hs]
          exact ⟨fun e h => .more hd h0 (ih.1 e h), fun h => .more hd h0 (ih.2 h)⟩
      | writeFailed e =>
        refine ⟨fun e h => ?_, by simp [act_pure]⟩
        simp [act_pure] at h
        rw [hs, ← h.1, ← h.2]; exact .now _ _ hd
      | elapsed n => exact absurd rfl (hne n)
      | _ => simp [stop]

theorem writeLoop_stalls {data : Bytes} {script rest : List Answer} (h : Stalls data script rest) :
    ∀ (k : Nat) (w : World), data.length ≤ k → w.script = script →
      ∃ w', writeLoop k data w = (.error (.elapsed 0), w') ∧ w'.script = rest := by
  induction h with
  | @now data rest hd =>
    intro k w hk hs
    have hpos : data.length ≠ 0 := by simpa using hd
    cases k with
    | zero => omega
    | succ k =>
      rw [writeLoop, if_neg hd]
      have hnx : next w = (.error (.elapsed 0), { w with script := rest }) := by
        unfold next; rw [hs]
      rw [act_bind_error hnx]
      exact ⟨_, rfl, rfl⟩
  | @more data n script rest hd hn h ih =>
    intro k w hk hs
    have hpos : data.length ≠ 0 := by simpa using hd
    cases k with
    | zero => omega
    | succ k =>
      rw [writeLoop, if_neg hd]
      have hnx : next w = (.ok (.accept n), { w with script := script }) := by
        unfold next; rw [hs]
      rw [act_bind_ok hnx]
      simp only [if_neg hn]
      exact ih k _ (by rw [List.length_drop]; omega) rfl

/-! ### The deadline during the replies -/

theorem recvReply_late {b : Build} {w : World} (hc : w.client.closed = false) :
    (∀ rest, w.script = .elapsed 1 :: rest →
      recvReply b w = (.error (.elapsed 0), { w with script := rest })) ∧
    (∀ w', recvReply b w = (.error (.elapsed 0), w') → w.script = .elapsed 1 :: w'.script) := by
  have hc' : ¬ w.client.closed = true := by simp [hc]
  rw [recvReply_run, if_neg hc']
  constructor
  · intro rest h; rw [h]
  · intro w' h
    cases hs : w.script with
    | nil => rw [hs] at h; simp at h
    | cons a rest =>
      rw [hs] at h
      cases a with
      | elapsed n =>
        cases n with
        | zero => simp at h
        | succ n =>
          simp at h
          rw [h.1, ← h.2]
      | line s =>
        simp only [] at h
        split at h <;> simp at h
      | _ => simp at h

theorem awaitWelcome_late {b : Build} {w : World} (hc : w.client.closed = false)
    (hr : AllParse b w.script) :
    (∀ rest, (w.script = .elapsed 1 :: rest ∨ ∃ l x, ServerReply w.script (.ok (l, x)) (.elapsed 1 :: rest) ∧
        FirstReply l (parsed b x) none) →
      ∃ w', awaitWelcome b w = (.error (.elapsed 0), w') ∧ w'.script = rest) ∧
    (∀ w', awaitWelcome b w = (.error (.elapsed 0), w') →
      w.script = .elapsed 1 :: w'.script ∨
      ∃ l x, ServerReply w.script (.ok (l, x)) (.elapsed 1 :: w'.script) ∧
        FirstReply l (parsed b x) none) := by
  constructor
  · rintro rest (h | ⟨l, s, h, h'⟩)
    · unfold awaitWelcome
      rw [act_bind_error ((recvReply_late hc).1 rest h)]
      exact ⟨_, rfl, rfl⟩
    · unfold awaitWelcome
      obtain ⟨w', h1, h2, _, _, h3⟩ := (recvReply_spec hc hr).1 _ _ h
      obtain ⟨hR, hsuf⟩ := h.represents hr
      rw [act_bind_ok h1]
      simp only [toReply]
      rw [(checkCap_spec hR _).2 h', lift, act_bind, act_pure]
      simp only []
      rw [act_bind_error ((recvReply_late (h3 _ rfl)).1 rest h2)]
      exact ⟨_, rfl, rfl⟩
  · intro w' h
    unfold awaitWelcome at h
    rw [act_bind] at h
    cases h1 : recvReply b w with
    | mk x w1 =>
      rw [h1] at h
      cases x with
      | error s =>
        simp at h
        rw [h.1, h.2] at h1
        exact .inl ((recvReply_late hc).2 _ h1)
      | ok x =>
        obtain ⟨y, e1, e2, e3⟩ := (recvReply_spec hc hr).2 _ _ h1
        cases y with
        | error e =>
          simp only [toReply] at e1
          subst e1
          simp [act_pure] at h
        | ok y =>
          obtain ⟨l, s⟩ := y
          simp only [toReply] at e1
          subst e1
          obtain ⟨hR, hsuf⟩ := e2.represents hr
          simp only [act_bind] at h
          cases h2 : checkCap (parsed b s) with
          | error f => rw [h2] at h; simp [lift, stop] at h
          | ok o =>
            rw [h2] at h
            have f1 := (checkCap_spec hR _).1 h2
            cases o with
            | some e => simp [lift, act_pure] at h
            | none =>
              simp only [lift, act_pure, act_bind] at h
              cases h3 : recvReply b w1 with
              | mk x w3 =>
                rw [h3] at h
                cases x with
                | error s' =>
                  simp at h
                  rw [h.1, h.2] at h3
                  refine .inr ⟨l, s, ?_, f1⟩
                  rw [← (recvReply_late (e3 _ rfl)).2 _ h3]
                  exact e2
                | ok x =>
                  cases x with
                  | error e => simp [act_pure] at h
                  | ok m =>
                    simp only [act_bind] at h
                    cases h4 : checkWelcome m with
                    | error f => rw [h4] at h; simp [lift, stop] at h
                    | ok o =>
                      rw [h4] at h
                      cases o <;> simp [lift, act_pure] at h

/-! ### The handshake -/

theorem flush_run (w : World) : flush w =
    match w.script with
    | [] => (.error .dropped, w)
    | .elapsed n :: rest => (.error (.elapsed n), { w with script := rest })
    | .flushed :: rest => (.ok (.ok ()), { w with log := w.log ++ [.flush], script := rest })
    | .flushFailed e :: rest => (.ok (.error e), { w with script := rest })
    | _ :: rest => (.error .dropped, { w with script := rest }) := by
  unfold flush
  simp only [act_bind, next]
  cases hs : w.script with
  | nil => rfl
  | cons a rest => cases a <;> rfl

/-- The text that a handshake sends. -/
abbrev greetingOf (w : World) : Bytes := w.client.scratch ++ hello w.client.config.credentials

theorem Accepts.suffix {data : Bytes} {s r : List Answer} (h : Accepts data s r) : r <:+ s := by
  induction h with
  | done => exact List.suffix_refl _
  | more _ _ _ ih => exact ih.trans (List.suffix_cons _ _)

theorem handshake_to {b : Build} {w : World} (hc : w.client.closed = false)
    (hr : AllParse b w.script) :
    (∀ o rest, Handshake (parsed b) (greetingOf w) w.script o rest →
      ∃ w', handshake b w = (.ok (toResult o), w') ∧ w'.script = rest) ∧
    (∀ rest, HandshakeLate (parsed b) (greetingOf w) w.script rest →
      ∃ w', handshake b w = (.error (.elapsed 0), w') ∧ w'.script = rest) := by
  have wr : ∀ r, Accepts (greetingOf w) w.script (.flushed :: r) → ∃ w1 : World,
      handshake b w = awaitWelcome b w1 ∧ w1.client.closed = false ∧ w1.script = r ∧
      AllParse b w1.script := by
    intro r h
    obtain ⟨ev, _, _, h3⟩ := handshake_accepts b w r h
    refine ⟨_, h3, hc, rfl, hr.suffix ?_⟩
    exact (List.suffix_cons _ _).trans (Accepts.suffix h)
  constructor
  · intro o rest h
    generalize hs : w.script = script at h
    cases h with
    | write h =>
      rw [handshake_eq]
      obtain ⟨w1, h1, h2⟩ := writeAll_rejects
        { w with client := { w.client with scratch := greetingOf w } } (by rw [← hs] at h; exact h)
      rw [act_bind_ok h1]
      exact ⟨w1, rfl, h2⟩
    | flush h =>
      rw [handshake_eq]
      obtain ⟨w1, h1, h2⟩ := writeAll_accepts
        { w with client := { w.client with scratch := greetingOf w } } (by rw [← hs] at h; exact h)
      rw [act_bind_ok h1]
      simp only []
      rw [act_bind, flush_run, h2]
      exact ⟨_, rfl, rfl⟩
    | replies h h' =>
      obtain ⟨w1, h1, h2, h3, h4⟩ := wr _ (by rw [hs]; exact h)
      rw [h1]
      exact (awaitWelcome_spec h2 h4).1 _ _ (by rw [h3]; exact h')
  · intro rest h
    generalize hs : w.script = script at h
    cases h with
    | writing h =>
      rw [handshake_eq]
      obtain ⟨w1, h1, h2⟩ := writeLoop_stalls h _
        { w with client := { w.client with scratch := greetingOf w } } (Nat.le_refl _) hs
      have h1' : writeAll (greetingOf w) { w with client := { w.client with scratch := greetingOf w } }
        = _ := h1
      rw [act_bind_error h1']
      exact ⟨w1, rfl, h2⟩
    | flushing h =>
      rw [handshake_eq]
      obtain ⟨w1, h1, h2⟩ := writeAll_accepts
        { w with client := { w.client with scratch := greetingOf w } } (by rw [← hs] at h; exact h)
      rw [act_bind_ok h1]
      simp only []
      rw [act_bind, flush_run, h2]
      exact ⟨_, rfl, rfl⟩
    | first h =>
      obtain ⟨w1, h1, h2, h3, h4⟩ := wr _ (by rw [hs]; exact h)
      rw [h1]
      exact (awaitWelcome_late h2 h4).1 _ (.inl h3)
    | second h h1 h2 =>
      obtain ⟨w1, k1, k2, k3, k4⟩ := wr _ (by rw [hs]; exact h)
      rw [k1]
      exact (awaitWelcome_late k2 k4).1 _ (.inr ⟨_, _, by rw [k3]; exact h1, h2⟩)

theorem handshake_from {b : Build} {w : World} (hc : w.client.closed = false)
    (hr : AllParse b w.script) :
    (∀ r w', handshake b w = (.ok r, w') →
      ∃ o, r = toResult o ∧ Handshake (parsed b) (greetingOf w) w.script o w'.script) ∧
    (∀ w', handshake b w = (.error (.elapsed 0), w') →
      HandshakeLate (parsed b) (greetingOf w) w.script w'.script) := by
  rw [handshake_eq]
  have inv := fun w' => writeLoop_inv _ (greetingOf w)
    { w with client := { w.client with scratch := greetingOf w } } w' (Nat.le_refl _)
  rw [act_bind]
  cases h1 : writeAll (greetingOf w) { w with client := { w.client with scratch := greetingOf w } } with
  | mk r w1 =>
    cases r with
    | error s =>
      refine ⟨by simp, fun w' h => ?_⟩
      simp at h
      rw [h.1, h.2] at h1
      exact .writing ((inv _).2 h1)
    | ok r =>
      cases r with
      | error e =>
        refine ⟨fun r w' h => ?_, by simp [act_pure]⟩
        simp [act_pure] at h
        refine ⟨some (.io e), h.1.symm, .write ?_⟩
        rw [← h.2]
        exact (inv _).1 _ h1
      | ok _ =>
        have ha := writeAll_ok h1
        have hcl := (writeAll_effect (greetingOf w)
          { w with client := { w.client with scratch := greetingOf w } }).client
        rw [h1] at hcl
        simp only at ha hcl ⊢
        rw [act_bind, flush_run]
        cases hs : w1.script with
        | nil => simp
        | cons a rest =>
          rw [hs] at ha
          cases a with
          | elapsed n =>
            refine ⟨by simp, fun w' h => ?_⟩
            simp at h
            rw [h.1] at ha
            rw [← h.2]
            exact .flushing ha
          | flushed =>
            simp only [act_bind, setScratch]
            generalize hw2 : World.mk _ (w1.log ++ [.flush]) rest = w2
            have c2 : w2.client.closed = false := by rw [← hw2]; simp only [hcl]; exact hc
            have s2 : w2.script = rest := by rw [← hw2]
            have r2 : AllParse b w2.script := by
              rw [s2]; exact hr.suffix ((List.suffix_cons _ _).trans (Accepts.suffix ha))
            constructor
            · intro r w' h
              obtain ⟨o, e1, e2⟩ := (awaitWelcome_spec c2 r2).2 _ _ h
              rw [s2] at e2
              exact ⟨o, e1, .replies ha e2⟩
            · intro w' h
              rcases (awaitWelcome_late c2 r2).2 _ h with e | ⟨l, x, e1, e2⟩
              · rw [s2] at e; rw [e] at ha; exact .first ha
              · rw [s2] at e1; exact .second ha e1 e2
          | flushFailed e =>
            refine ⟨fun r w' h => ?_, by simp [act_pure]⟩
            simp [act_pure] at h
            refine ⟨some (.io e), h.1.symm, .flush ?_⟩
            rw [← h.2]; exact ha
          | _ => simp

theorem firstReply_total (l : Line) (m : MsgOwned) : ∃ o, FirstReply l m o := by
  by_cases h : l.command = b!"CAP"
  · by_cases h' : IsCapAck l
    · exact ⟨_, .ack h'⟩
    · exact ⟨_, .refused h h'⟩
  · exact ⟨_, .other h⟩

theorem secondReply_total (l : Line) (m : MsgOwned) : ∃ o, SecondReply l m o := by
  by_cases h : l.command = b!"001"
  · exact ⟨_, .welcome h⟩
  · by_cases h' : l.command = b!"NOTICE"
    · by_cases h2 : IsAuthNotice l
      · exact ⟨_, .denied h2⟩
      · exact ⟨_, .notice h' h2⟩
    · exact ⟨_, .other h h'⟩

theorem recvReply_no_panic {b : Build} {w : World} (hr : AllParse b w.script) (f : Fault) (w' : World) :
    recvReply b w ≠ (.error (.panic f), w') := by
  intro h
  rw [recvReply_run] at h
  split at h
  · simp at h
  · cases hs : w.script with
    | nil => rw [hs] at h; simp at h
    | cons a rest =>
      rw [hs] at h
      cases a with
      | elapsed n => cases n <;> simp at h
      | line s =>
        have hrs := hr s (by rw [hs]; simp)
        simp only [] at h
        cases hl : Spec.line s with
        | none => rw [parses_none hrs hl] at h; simp at h
        | some l => rw [(parses_some hrs hl).1] at h; simp at h
      | _ => simp at h

theorem awaitWelcome_no_panic {b : Build} {w : World} (hc : w.client.closed = false)
    (hr : AllParse b w.script) (f : Fault) (w' : World) :
    awaitWelcome b w ≠ (.error (.panic f), w') := by
  intro h
  unfold awaitWelcome at h
  rw [act_bind] at h
  cases h1 : recvReply b w with
  | mk x w1 =>
    rw [h1] at h
    cases x with
    | error s =>
      simp at h
      rw [h.1] at h1
      exact recvReply_no_panic hr _ _ h1
    | ok x =>
      obtain ⟨y, e1, e2, e3⟩ := (recvReply_spec hc hr).2 _ _ h1
      cases y with
      | error e =>
        simp only [toReply] at e1
        subst e1
        simp [act_pure] at h
      | ok y =>
        obtain ⟨l, s⟩ := y
        simp only [toReply] at e1
        subst e1
        obtain ⟨hR, hsuf⟩ := e2.represents hr
        obtain ⟨o, ho⟩ := firstReply_total l (parsed b s)
        simp only [act_bind, (checkCap_spec hR _).2 ho, lift, act_pure] at h
        cases o with
        | some e => simp [act_pure] at h
        | none =>
          simp only [act_bind] at h
          cases h3 : recvReply b w1 with
          | mk x w3 =>
            rw [h3] at h
            cases x with
            | error s' =>
              simp at h
              rw [h.1] at h3
              exact recvReply_no_panic (hr.suffix hsuf) _ _ h3
            | ok x =>
              obtain ⟨y, e1', e2', _⟩ := (recvReply_spec (e3 _ rfl) (hr.suffix hsuf)).2 _ _ h3
              cases y with
              | error e =>
                simp only [toReply] at e1'
                subst e1'
                simp [act_pure] at h
              | ok y =>
                obtain ⟨l', s'⟩ := y
                simp only [toReply] at e1'
                subst e1'
                obtain ⟨hR', _⟩ := e2'.represents (hr.suffix hsuf)
                obtain ⟨o, ho⟩ := secondReply_total l' (parsed b s')
                simp only [act_bind, (checkWelcome_spec hR' _).2 ho, lift, act_pure] at h
                cases o <;> simp [act_pure] at h

theorem handshake_no_panic {b : Build} {w : World} (hc : w.client.closed = false)
    (hr : AllParse b w.script) (f : Fault) (w' : World) :
    handshake b w ≠ (.error (.panic f), w') := by
  intro h
  rw [handshake_eq, act_bind] at h
  have he := writeAll_effect (greetingOf w) { w with client := { w.client with scratch := greetingOf w } }
  cases h1 : writeAll (greetingOf w) { w with client := { w.client with scratch := greetingOf w } } with
  | mk r w1 =>
    have h1' := h1
    unfold greetingOf at h1
    rw [h1] at h
    rw [h1'] at he
    cases r with
    | error s =>
      simp at h
      exact he.noPanic f (by rw [h.1])
    | ok r =>
      cases r with
      | error e => simp [act_pure] at h
      | ok _ =>
        have ha := writeAll_ok h1'
        have hcl := he.client
        simp only at ha hcl h
        rw [act_bind, flush_run] at h
        cases hs : w1.script with
        | nil => rw [hs] at h; simp at h
        | cons a rest =>
          rw [hs] at h ha
          cases a with
          | flushed =>
            simp only [act_bind, setScratch] at h
            refine awaitWelcome_no_panic ?_ ?_ f w' h
            · simp only [hcl]; exact hc
            · exact hr.suffix ((List.suffix_cons _ _).trans (Accepts.suffix ha))
          | _ => simp [act_pure] at h

/-! ### Attempts -/

theorem shouldRetry_iff (e : ConnectError) : e.shouldRetry = true ↔ Transient (some e) := by
  cases e <;> simp [ConnectError.shouldRetry, Transient]

theorem toResult_inj {o o' : Option ConnectError} (h : toResult o = toResult o') : o = o' := by
  cases o <;> cases o' <;> simp [toResult] at h <;> simp [h]

theorem _root_.Tmi.Spec.AllParse.tail {b : Build} {a : Answer} {s : List Answer} (h : AllParse b (a :: s)) :
    AllParse b s := h.suffix (List.suffix_cons _ _)

/-- `connect` and its specification. -/
theorem connect_to {b : Build} {cfg : Config} {w : World} {s : List Answer} (hs : w.script = .tlsLoaded :: s)
    (hr : AllParse b s) {o : Option ConnectError} {rest : List Answer}
    (h : Attempt (parsed b) (hello cfg.credentials) s o rest) :
    ∃ w', connect b cfg w = (.ok (toResult o), w') ∧ w'.script = rest := by
  have hn : next w = (.ok .tlsLoaded, { w with script := s }) := by unfold next; rw [hs]
  unfold connect
  rw [act_bind_ok hn]
  simp only []
  rw [act_bind, open_run]
  cases h with
  | noConnection e => exact ⟨_, rfl, rfl⟩
  | openLate => exact ⟨_, rfl, rfl⟩
  | handshake h =>
    simp only [act_bind, emit, setClient, withTimeout]
    generalize hw1 : World.mk _ (w.log ++ [.open_] ++ [.connected]) _ = w1
    have e1 : greetingOf w1 = hello cfg.credentials := by rw [← hw1]; rfl
    obtain ⟨w', h1, h2⟩ := (handshake_to (b := b) (w := w1) (by rw [← hw1])
      (by rw [← hw1]; exact hr.tail)).1 o rest (by rw [e1, ← hw1]; exact h)
    rw [h1]
    exact ⟨w', rfl, h2⟩
  | handshakeLate h =>
    simp only [act_bind, emit, setClient, withTimeout]
    generalize hw1 : World.mk _ (w.log ++ [.open_] ++ [.connected]) _ = w1
    have e1 : greetingOf w1 = hello cfg.credentials := by rw [← hw1]; rfl
    obtain ⟨w', h1, h2⟩ := (handshake_to (b := b) (w := w1) (by rw [← hw1])
      (by rw [← hw1]; exact hr.tail)).2 rest (by rw [e1, ← hw1]; exact h)
    rw [h1]
    exact ⟨w', rfl, h2⟩

theorem connect_from {b : Build} {cfg : Config} {w w' : World} {r : Except ConnectError Unit}
    (hr : AllParse b w.script) (h : connect b cfg w = (.ok r, w')) :
    (w.script = .tlsFailed :: w'.script ∧ r = .error .tls) ∨
    ∃ o s, r = toResult o ∧ w.script = .tlsLoaded :: s ∧
      Attempt (parsed b) (hello cfg.credentials) s o w'.script := by
  unfold connect at h
  rcases next_cases w with ⟨hs, hn⟩ | ⟨n, rest, hs, hn⟩ | ⟨a, rest, hs, hne, hn⟩
  · rw [act_bind_error hn] at h; simp at h
  · rw [act_bind_error hn] at h; simp at h
  rw [act_bind_ok hn] at h
  cases a with
  | tlsFailed =>
    simp [act_pure] at h
    exact .inl ⟨by rw [hs, ← h.2], h.1.symm⟩
  | tlsLoaded =>
    refine .inr ?_
    simp only [] at h
    rw [act_bind, open_run] at h
    rw [hs] at hr
    cases hr' : rest with
    | nil => rw [hr'] at h; simp at h
    | cons a rest' =>
      rw [hr'] at h hr hs
      cases a with
      | elapsed n =>
        cases n with
        | zero =>
          simp [act_pure] at h
          exact ⟨some .timeout, _, h.1.symm, hs, by rw [← h.2]; exact .openLate _⟩
        | succ n => simp at h
      | openFailed e =>
        simp [act_pure] at h
        exact ⟨some (.open_ e), _, h.1.symm, hs, by rw [← h.2]; exact .noConnection _ _⟩
      | opened =>
        simp only [act_bind, emit, setClient, withTimeout] at h
        generalize hw1 : World.mk _ (w.log ++ [.open_] ++ [.connected]) rest' = w1 at h
        have e1 : greetingOf w1 = hello cfg.credentials := by rw [← hw1]; rfl
        have e2 : w1.script = rest' := by rw [← hw1]
        have hf := handshake_from (b := b) (w := w1) (by rw [← hw1])
          (by rw [← hw1]; exact hr.tail.tail)
        cases hh : handshake b w1 with
        | mk x w2 =>
          rw [hh] at h
          cases x with
          | ok x =>
            simp [act_pure] at h
            obtain ⟨o, o1, o2⟩ := hf.1 _ _ hh
            rw [e1, e2, h.2] at o2
            exact ⟨o, _, by rw [← h.1, o1], hs, .handshake o2⟩
          | error st =>
            cases st with
            | elapsed n =>
              cases n with
              | zero =>
                simp [act_pure] at h
                have := hf.2 _ hh
                rw [e1, e2, h.2] at this
                exact ⟨some .timeout, _, h.1.symm, hs, .handshakeLate this⟩
              | succ n => simp at h
            | _ => simp at h
      | _ => simp at h
  | elapsed n => exact absurd rfl (hne n)
  | _ => simp [stop] at h

/-- A handshake ends with an I/O error before the greeting is gone. -/
theorem handshake_io {b : Build} {w w' : World} {e : IoError}
    (h : handshake b w = (.ok (.error (.io e)), w')) :
    w'.client.scratch = greetingOf w ∧ w'.client.config = w.client.config := by
  have := handshake_effect b w
  rw [h] at this
  exact ⟨this.retried _ rfl rfl, this.config⟩

theorem maxDuration_eq : maxDuration = durationMax := by decide +kernel

theorem mulDuration_ok {d m : Nat} (h : d * m ≤ durationMax) : mulDuration d m = .ok (d * m) := by
  unfold mulDuration; rw [maxDuration_eq, if_pos h]

theorem mulDuration_inv {d m x : Nat} (h : mulDuration d m = .ok x) : d * m ≤ durationMax ∧ x = d * m := by
  unfold mulDuration at h
  rw [maxDuration_eq] at h
  split at h
  · simp at h; exact ⟨‹_›, h.symm⟩
  · simp at h

theorem delay_succ (c : Backoff) (k : Nat) :
    delay c (k + 1) = min c.maxDelay (delay c k * c.delayMultiplier) := by
  have key : ∀ (k d : Nat), delayFrom c d (k + 1) = min c.maxDelay (delayFrom c d k * c.delayMultiplier) := by
    intro k
    induction k with
    | zero => intro d; rfl
    | succ k ih => intro d; rw [delayFrom, ih]; rfl
  rw [← delayFrom_eq, ← delayFrom_eq, key]

/-- The loop does what the specification says. -/
theorem loop_to {b : Build} {cfg : Config} {k n : Nat} {left : Option Nat} {cause : ConnectError}
    {p : Bytes} {s rest : List Answer} {o : Option ConnectError}
    (h : Reconnects (parsed b) cfg.backoff (hello cfg.credentials) k left cause p s o rest n) :
    ∀ (fuel : Nat) (w : World), s.length < fuel → w.script = s → w.client.scratch = p →
      w.client.config = cfg → AllParse b s →
      ∃ w', reconnectLoop b cfg fuel left (delay cfg.backoff k) cause w = (.ok (toResult o), w') ∧
        w'.script = rest := by
  induction h with
  | exhausted s =>
    intro fuel w hf hs hp hc hr
    cases fuel with
    | zero => omega
    | succ fuel => rw [reconnectLoop, if_pos rfl]; exact ⟨w, rfl, hs⟩
  | @final k left cause p s r o hl hd ha ht =>
    intro fuel w hf hs hp hc hr
    cases fuel with
    | zero => omega
    | succ fuel =>
      rw [reconnectLoop, if_neg hl, act_bind, sleep_run, hs]
      simp only [mulDuration_ok hd, lift]
      rw [act_bind, act_pure]
      simp only []
      rw [act_bind, open_run]
      cases ha with
      | noConnection e => exact absurd ⟨e, .inl rfl⟩ ht
      | openLate => exact ⟨_, rfl, rfl⟩
      | handshake h =>
        simp only [act_bind, emit, useStream, setClosed, withTimeout]
        generalize hw1 : World.mk _ _ _ = w1
        have e1 : greetingOf w1 = p ++ hello cfg.credentials := by
          rw [← hw1]; simp only [greetingOf, hp, hc]
        obtain ⟨w', h1, h2⟩ := (handshake_to (b := b) (w := w1) (by rw [← hw1])
          (by rw [← hw1]; exact hr.tail.tail)).1 o r (by rw [e1, ← hw1]; exact h)
        rw [h1]
        cases o with
        | none => exact ⟨w', rfl, h2⟩
        | some e =>
          simp only [toResult]
          rw [if_neg (fun h => ht ((shouldRetry_iff e).1 h))]
          exact ⟨w', rfl, h2⟩
      | handshakeLate h =>
        simp only [act_bind, emit, useStream, setClosed, withTimeout]
        generalize hw1 : World.mk _ _ _ = w1
        have e1 : greetingOf w1 = p ++ hello cfg.credentials := by
          rw [← hw1]; simp only [greetingOf, hp, hc]
        obtain ⟨w', h1, h2⟩ := (handshake_to (b := b) (w := w1) (by rw [← hw1])
          (by rw [← hw1]; exact hr.tail.tail)).2 r (by rw [e1, ← hw1]; exact h)
        rw [h1]
        exact ⟨w', rfl, h2⟩
  | @reopen k n left cause p s r e o hl hd _ ih =>
    intro fuel w hf hs hp hc hr
    cases fuel with
    | zero => omega
    | succ fuel =>
      rw [reconnectLoop, if_neg hl, act_bind, sleep_run, hs]
      simp only [mulDuration_ok hd, lift]
      rw [act_bind, act_pure]
      simp only []
      rw [act_bind, open_run]
      simp only []
      rw [← delay_succ]
      exact ih fuel _ (by simp at hf; omega) rfl hp hc hr.tail.tail
  | @resend k n left cause p s s' r e o hl hd ha _ ih =>
    intro fuel w hf hs hp hc hr
    cases fuel with
    | zero => omega
    | succ fuel =>
      rw [reconnectLoop, if_neg hl, act_bind, sleep_run, hs]
      simp only [mulDuration_ok hd, lift]
      rw [act_bind, act_pure]
      simp only []
      rw [act_bind, open_run]
      simp only [act_bind, emit, useStream, setClosed, withTimeout]
      generalize hw1 : World.mk _ _ _ = w1
      have e1 : greetingOf w1 = p ++ hello cfg.credentials := by
        rw [← hw1]; simp only [greetingOf, hp, hc]
      have s1 : w1.script = s := by rw [← hw1]
      obtain ⟨w', h1, h2⟩ := (handshake_to (b := b) (w := w1) (by rw [← hw1])
        (by rw [← hw1]; exact hr.tail.tail)).1 _ _ (by rw [e1, s1]; exact ha)
      have hsuf := (handshake_effect b w1).script
      obtain ⟨k1, k2⟩ := handshake_io h1
      rw [h1] at hsuf ⊢
      simp only [toResult, ConnectError.shouldRetry, if_true]
      rw [← delay_succ]
      simp only [h2, s1] at hsuf
      have hlen := hsuf.length_le
      refine ih fuel w' (by simp at hf; omega) h2 (by rw [k1, e1]) ?_ (hr.tail.tail.suffix hsuf)
      rw [k2, ← hw1]; exact hc

/-- Number of attempts seen in a log. -/
def Attempts (n : Nat) (w w' : World) : Prop :=
  ∃ ev, w'.log = w.log ++ ev ∧ opens ev = n ∧ (sleeps ev).length = n

/-- and nothing else. -/
theorem loop_from {b : Build} {cfg : Config} : ∀ (fuel k : Nat) (left : Option Nat)
    (cause : ConnectError) (w w' : World) (r : Except Stop (Except ConnectError Unit)), w.script.length < fuel →
    w.client.config = cfg → AllParse b w.script →
    reconnectLoop b cfg fuel left (delay cfg.backoff k) cause w = (r, w') →
    (∀ f, r = .error (.panic f) → f = .overflow) ∧
    ∀ x, r = .ok x → ∃ o n, x = toResult o ∧ Reconnects (parsed b) cfg.backoff (hello cfg.credentials)
      k left cause w.client.scratch w.script o w'.script n ∧ Attempts n w w'
  | 0, k, left, cause, w, w', r, hf, hc, hr, h => by omega
  | fuel + 1, k, left, cause, w, w', r, hf, hc, hr, h => by
    rw [reconnectLoop] at h
    by_cases ht : left = some 0
    · rw [if_pos ht] at h
      simp [act_pure] at h
      subst ht
      rw [← h.1, ← h.2]
      refine ⟨by simp, fun x hx => ⟨some cause, 0, ?_, .exhausted _, [], by simp, rfl, rfl⟩⟩
      simp at hx; exact hx.symm
    rw [if_neg ht, act_bind, sleep_run] at h
    cases hs : w.script with
    | nil => rw [hs] at h; simp at h; rw [← h.1]; simp
    | cons a rest =>
      rw [hs] at h hr hf
      cases a with
      | slept =>
        simp only [] at h
        cases hm : mulDuration (delay cfg.backoff k) cfg.backoff.delayMultiplier with
        | error f =>
          rw [hm] at h
          have hfo : f = .overflow := by
            unfold mulDuration at hm; split at hm <;> simp at hm; exact hm.symm
          simp [lift, act_bind, stop] at h
          rw [← h.1, hfo]; simp
        | ok x =>
          obtain ⟨hd, hx⟩ := mulDuration_inv hm
          rw [hm] at h
          simp only [lift] at h
          rw [act_bind, act_pure] at h
          simp only [] at h
          rw [act_bind, open_run, hx, ← delay_succ] at h
          cases hr' : rest with
          | nil => rw [hr'] at h; simp at h; rw [← h.1]; simp
          | cons a' rest' =>
            rw [hr'] at h hr hf
            have hlen : rest'.length < fuel := by simp at hf; omega
            cases a' with
            | elapsed n =>
              cases n with
              | zero =>
                simp [act_pure] at h
                rw [← h.1]
                refine ⟨by simp, fun x hx => ⟨some .timeout, 1, ?_, ?_, [.sleep (delay cfg.backoff k), .open_], ?_, rfl, rfl⟩⟩
                · simp at hx; exact hx.symm
                · rw [← h.2]; exact .final ht hd (.openLate _) (by simp [Transient])
                · rw [← h.2]
              | succ n => simp at h; rw [← h.1]; simp
            | openFailed e =>
              simp only [] at h
              have ih := loop_from (b := b) (cfg := cfg) fuel (k + 1) _ _ _ _ _ hlen (by exact hc) (by exact hr.tail.tail) h
              refine ⟨ih.1, fun x hx => ?_⟩
              obtain ⟨o, n, i1, i2, ev, i3, i4, i5⟩ := ih.2 x hx
              refine ⟨o, n + 1, i1, .reopen ht hd i2, [.sleep (delay cfg.backoff k), .open_] ++ ev, ?_, ?_, ?_⟩
              · rw [i3]; simp
              · rw [opens_append, i4]; show 1 + n = n + 1; omega
              · rw [sleeps_append, List.length_append, i5]; show 1 + n = n + 1; omega
            | opened =>
              simp only [act_bind, emit, useStream, setClosed, withTimeout] at h
              generalize hw1 : World.mk _ _ _ = w1 at h
              have e1 : greetingOf w1 = w.client.scratch ++ hello cfg.credentials := by
                rw [← hw1]; simp only [greetingOf, hc]
              have s1 : w1.script = rest' := by rw [← hw1]
              have l1 : w1.log = w.log ++ [.sleep (delay cfg.backoff k), .open_, .connected] := by
                rw [← hw1]; simp
              have r1 : AllParse b w1.script := by rw [s1]; exact hr.tail.tail
              have hf := handshake_from (b := b) (w := w1) (by rw [← hw1]) r1
              have he := handshake_effect b w1
              cases hh : handshake b w1 with
              | mk y w2 =>
                rw [hh] at h he
                obtain ⟨ev, v1, v2⟩ := he.events
                have att : Attempts 1 w w2 := by
                  refine ⟨[.sleep (delay cfg.backoff k), .open_, .connected] ++ ev, ?_, ?_, ?_⟩
                  · rw [v1, l1]; simp
                  · rw [opens_append, v2.opens]; rfl
                  · rw [sleeps_append, v2.sleeps]; rfl
                have np : ∀ f, y ≠ .error (.panic f) := by
                  intro f hy
                  rw [hy] at hh
                  exact handshake_no_panic (by rw [← hw1]) r1 f _ hh
                cases y with
                | ok y =>
                  obtain ⟨o, o1, o2⟩ := hf.1 _ _ hh
                  rw [e1, s1] at o2
                  cases o with
                  | none =>
                    simp only [toResult] at o1
                    subst o1
                    simp [act_pure] at h
                    rw [← h.1]
                    refine ⟨by simp, fun x hx => ⟨none, 1, ?_, ?_, by rw [← h.2]; exact att⟩⟩
                    · simp at hx; exact hx.symm
                    · rw [← h.2]; exact .final ht hd (.handshake o2) (by simp [Transient])
                  | some e =>
                    simp only [toResult] at o1
                    subst o1
                    simp only [] at h
                    by_cases hsr : e.shouldRetry = true
                    · rw [if_pos hsr] at h
                      have hio : ∃ i, e = .io i := by
                        obtain ⟨ws, ss, _, _, _, q | q⟩ := he.log
                        · have hre := he.retried e rfl hsr
                          rw [q.1] at hre
                          exact absurd (List.append_eq_nil_iff.1 hre.symm).2 (hello_ne_nil _)
                        · exact q.2.2.2 e rfl
                      obtain ⟨i, rfl⟩ := hio
                      obtain ⟨k1, k2⟩ := handshake_io hh
                      have hsuf := he.script
                      rw [s1] at hsuf
                      have := hsuf.length_le
                      have ih := loop_from (b := b) (cfg := cfg) fuel (k + 1) _ _ _ _ _
                        (by omega) (by rw [k2, ← hw1]; exact hc) (hr.tail.tail.suffix hsuf) h
                      refine ⟨ih.1, fun x hx => ?_⟩
                      obtain ⟨o, n, i1, i2, ev', i3, i4, i5⟩ := ih.2 x hx
                      rw [k1, e1] at i2
                      obtain ⟨ev1, a1, a2, a3⟩ := att
                      refine ⟨o, n + 1, i1, .resend ht hd o2 i2, ev1 ++ ev', ?_, ?_, ?_⟩
                      · rw [i3, a1]; simp
                      · rw [opens_append, i4, a2]; omega
                      · rw [sleeps_append, List.length_append, i5, a3]; omega
                    · rw [if_neg hsr] at h
                      simp [act_pure] at h
                      rw [← h.1]
                      refine ⟨by simp, fun x hx => ⟨some e, 1, ?_, ?_, by rw [← h.2]; exact att⟩⟩
                      · simp at hx; exact hx.symm
                      · rw [← h.2]
                        exact .final ht hd (.handshake o2) (fun t => hsr ((shouldRetry_iff e).2 t))
                | error st =>
                  cases st with
                  | elapsed n =>
                    cases n with
                    | zero =>
                      simp [act_pure] at h
                      rw [← h.1]
                      have := hf.2 _ hh
                      rw [e1, s1] at this
                      refine ⟨by simp, fun x hx => ⟨some .timeout, 1, ?_, ?_, by rw [← h.2]; exact att⟩⟩
                      · simp at hx; exact hx.symm
                      · rw [← h.2]; exact .final ht hd (.handshakeLate this) (by simp [Transient])
                    | succ n => simp at h; rw [← h.1]; simp
                  | dropped => simp at h; rw [← h.1]; simp
                  | panic f =>
                    simp at h
                    rw [← h.1]
                    refine ⟨?_, by simp⟩
                    intro f' hc
                    exact absurd rfl (np f)
            | _ => simp at h; rw [← h.1]; simp
      | _ => simp at h; rw [← h.1]; simp

end Tmi.Proofs
