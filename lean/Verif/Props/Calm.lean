/-
C104: only a crashing line, or a wait that cannot be computed, panics in a program that uses a client.
-/
import Verif.Proofs.Calm

namespace Tmi.Props
open Tmi.Model Tmi.Spec Tmi.Proofs

theorem call_fine {b : Build} (k : Call) (w : World) (hw : Harmless b w.script) (hc : Computable w.client.config.backoff) :
    (k.make b w).1.Fine ∧ (k.make b w).2.script <:+ w.script ∧ (k.make b w).2.client.config = w.client.config := by
  cases k with
  | send c =>
    obtain ⟨h1, h2, h3, -⟩ := Calm.send (b := b) c w hw
    refine ⟨⟨fun ⟨f, h⟩ => h1 f h, fun t name esc alternate io tls x hx => ?_⟩, h2, h3⟩
    simp [Call.make, Gave.asks] at hx
  | recv =>
    obtain ⟨h1, h2, h3, h4⟩ := Calm.recv (b := b) w hw
    refine ⟨⟨fun ⟨f, h⟩ => h1 f h, fun t name esc alternate io tls x hx => ?_⟩, h2, h3⟩
    simp only [Call.make] at hx
    cases hr : (recv b w).1 with
    | error e => rw [hr] at hx; simp [Gave.asks] at hx
    | ok r =>
      cases r with
      | error e => rw [hr] at hx; simp [Gave.asks] at hx
      | ok m =>
        rw [hr] at hx
        exact good_asks (h4 _ hr m rfl) t name esc alternate x hx
  | reconnect =>
    obtain ⟨h1, h2, h3, h4⟩ := reconnect_calm (b := b) w hw hc
    refine ⟨⟨fun ⟨f, h⟩ => h1 f h, fun t name esc alternate io tls x hx => ?_⟩, h2, h3⟩
    simp only [Call.make] at hx
    cases hr : (reconnect b w).1 with
    | error e => rw [hr] at hx; simp [Gave.asks] at hx
    | ok r =>
      cases r with
      | ok u => rw [hr] at hx; simp [Gave.asks] at hx
      | error e =>
        rw [hr] at hx
        simp only [Gave.asks, List.mem_cons, List.not_mem_nil, or_false] at hx
        obtain ⟨t, ht⟩ := good_display (h4 e hr) esc io tls
        subst hx
        unfold reconnectErrorText
        rw [ht]
        rfl

/-- C104: whatever calls a program makes, and whatever it asks of what they give: if no line that the server sends is one
that can crash a program, and the waits of `reconnect` can be computed, nothing panics. -/
theorem C104_program (b : Build) (p : Program) : ∀ (n : Nat) (before : List Gave) (w : World), Harmless b w.script →
    Computable w.client.config.backoff →
    ∃ new, (p.run b n before w).1 = before ++ new ∧ ∀ g ∈ new, g.Fine
  | 0, before, w, _, _ => ⟨[], by simp [Program.run], by simp⟩
  | n + 1, before, w, hw, hc => by
    rw [Program.run]
    cases p before with
    | none => exact ⟨[], by simp, by simp⟩
    | some k =>
      obtain ⟨h1, h2, h3⟩ := call_fine k w hw hc
      obtain ⟨new, h4, h5⟩ := C104_program b p n (before ++ [(k.make b w).1]) (k.make b w).2 (harmless_suffix hw h2)
        (by rw [h3]; exact hc)
      refine ⟨(k.make b w).1 :: new, by simp only; rw [h4]; simp, fun g hg => ?_⟩
      rcases List.mem_cons.1 hg with rfl | hg
      · exact h1
      · exact h5 g hg

/-- C104: the same from the start, with `connect`: it does not panic, its error can be displayed, and the program that then
uses the client does not panic. -/
theorem C104_session (b : Build) (cfg : Config) (w : World) (hw : Harmless b w.script) (hc : Computable cfg.backoff) :
    (∀ f, (connect b cfg w).1 ≠ .error (.panic f)) ∧
    (∀ e, (connect b cfg w).1 = .ok (.error e) → ∀ esc io tls, ∃ t, e.display esc io tls = .ok t) ∧
    ((connect b cfg w).1 = .ok (.ok ()) → ∀ (p : Program) (n : Nat), ∀ g ∈ (p.run b n [] (connect b cfg w).2).1, g.Fine) := by
  obtain ⟨h1, h2, h3, h4⟩ := connect_calm (b := b) cfg w hw
  refine ⟨h1, fun e he => good_display (h4 e he), fun hok p n g hg => ?_⟩
  obtain ⟨new, e1, e2⟩ := C104_program b p n [] (connect b cfg w).2 (harmless_suffix hw h2) (by rw [h3 hok]; exact hc)
  rw [e1] at hg
  exact e2 g (by simpa using hg)

/-- C104, the other direction for lines: of a line that can crash a program `recv` panics, or gives a message of which
something can be asked that panics. -/
theorem C104_crash (b : Build) (w : World) (s : Bytes) (rest : List Answer) (ho : w.client.closed = false)
    (hs : w.script = .line s :: rest) (hu : Utf8 s) (hl : s.length < 4294967296) (h : Crashing b s) :
    ¬ (Gave.received (recv b w).1).Fine := by
  have hcan := (C103_exact b s hu hl).2 h
  intro hf
  have hrecv : (recv b w).1 = match MsgOwned.parse b s with
      | .error f => .error (.panic f)
      | .ok none => .ok (.error (.parse s))
      | .ok (some m) => .ok (.ok m) := by
    rw [recv_run, hs]
    simp only [ho]
    cases MsgOwned.parse b s with
    | error f => rfl
    | ok r => cases r <;> rfl
  cases hr : MsgRef.parse b s with
  | error e =>
    rw [hrecv, owned_of_ref, hr] at hf
    exact hf.1 ⟨e, rfl⟩
  | ok r =>
    cases r with
    | none =>
      cases hcan with
      | parse e h => rw [hr] at h; cases h
      | parseOwned e h => rw [owned_of_ref, hr] at h; cases h
      | parseTyped e h => unfold Message.parse at h; rw [hr] at h; cases h
      | ref m hm => rw [hr] at hm; cases hm
      | owned m hm => rw [owned_of_ref, hr] at hm; cases hm
      | typed M hM => unfold Message.parse at hM; rw [hr] at hM; cases hM
    | some m =>
      have hgot : (recv b w).1 = .ok (.ok m.intoOwned) := by rw [hrecv, owned_of_ref, hr]; rfl
      rw [hgot] at hf
      have all : ∀ t name esc alternate, ∀ x ∈ asksReceived t name esc alternate m.intoOwned, x = .ok () :=
        fun t name esc alternate => hf.2 t name esc alternate (fun _ => []) []
      unfold asksReceived at all
      cases hcan with
      | parse e h => rw [hr] at h; cases h
      | parseOwned e h => rw [owned_of_ref, hr] at h; cases h
      | parseTyped e h =>
        unfold Message.parse at h
        rw [hr] at h
        replace h : m.intoOwned.asTyped = .error e := h
        have := all .id [] (fun _ => false) false (tried m.intoOwned.asTyped) (by simp [asksOwned])
        rw [h] at this
        cases this
      | ref m' hm t name esc alternate e h =>
        rw [hr] at hm
        injection hm with hm
        injection hm with hm
        subst hm
        have := all t name esc alternate (.error e) (List.mem_append_left _ (List.mem_append_right _ h))
        cases this
      | owned m' hm t name esc alternate e h =>
        rw [owned_of_ref, hr] at hm
        injection hm with hm
        injection hm with hm
        subst hm
        have := all t name esc alternate (.error e) (List.mem_append_left _ (List.mem_append_left _ h))
        cases this
      | typed M hM esc alternate e h =>
        unfold Message.parse at hM
        rw [hr] at hM
        replace hM : m.intoOwned.asTyped = .ok (some M) := hM
        have := all .id [] esc alternate (.error e) (by rw [hM]; exact List.mem_append_right _ h)
        cases this

/-- C104, for ordinary servers: lines within the limits of the tags, followed by something, are harmless if they are not
ROOMSTATEs or the build has no overflow checks. -/
theorem C104_readable (b : Build) (script : List Answer) (h : AllReadable b script)
    (hr : b.checks = true → ∀ s l, .line s ∈ script → line s = some l → l.command ≠ b!"ROOMSTATE") : Harmless b script := by
  intro s hs
  have hread := h s hs
  refine ⟨hread.1, hread.2.1.len, fun hc => ?_⟩
  exact C103_ordinary b s hread (fun hb l hl => hr hb s l hs hl) ((C103_exact b s hread.1 hread.2.1.len).2 hc)

/-- Non-vacuity of C104: the replies of a server that accepts the client are harmless, and the default backoff can be
computed. -/
theorem sampleHarmless (b : Build) : Harmless b (.tlsLoaded :: .opened :: goodReplies) := by
  refine C104_readable b _ (goodReplies_after b [.tlsLoaded, .opened] (by simp)) fun _ s l hs hl => ?_
  have key : ∀ a ∈ (.tlsLoaded :: .opened :: goodReplies : List Answer), ∀ s, a = .line s →
      (line s).map (·.command) ≠ some (b!"ROOMSTATE") := by
    intro a ha s h
    subst h
    simp only [goodReplies, List.mem_cons, List.not_mem_nil, or_false, reduceCtorEq, false_or, Answer.line.injEq] at ha
    rcases ha with rfl | rfl <;> decide +kernel
  have := key _ hs s rfl
  rw [hl] at this
  simpa using this
theorem sampleComputable : Computable Backoff.default := by unfold Computable; decide +kernel

/-- Connect, then run any program. -/
example (b : Build) := C104_session b ⟨Credentials.anon 11824, 1000, Backoff.default⟩ (sampleWorld (.tlsLoaded :: .opened :: goodReplies))
  (sampleHarmless b) sampleComputable
/-- A program that answers what it receives. -/
example (b : Build) := C104_program b (fun gs => if gs.length % 2 = 0 then some .recv else some (.send (.ping (b!"x")))) 10 []
  (sampleWorld (.tlsLoaded :: .opened :: goodReplies)) (sampleHarmless b) (by unfold Computable; decide +kernel)
/-- A ROOMSTATE that crashes a debug build as soon as the program turns it into a typed message. -/
example : ¬ (Gave.received (recv ⟨.scalar, true⟩ (sampleWorld [.line sampleOverflow])).1).Fine :=
  C104_crash _ _ sampleOverflow [] rfl rfl (.of_ascii (by decide +kernel)) (by decide +kernel)
    ((C103_exact _ _ (.of_ascii (by decide +kernel)) (by decide +kernel)).1 (.parseTyped _ C22_negation))
/-- Tags that nothing follows crash `recv` itself in a build without SIMD. -/
example : (Gave.received (recv ⟨.scalar, false⟩ (sampleWorld [.line (b!"@id=1")])).1).panicked := ⟨.slice, by decide +kernel⟩

end Tmi.Props
