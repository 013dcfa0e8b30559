/-
Property C109: the causes of an error.

`esc` says which characters outside ASCII `Debug` of `str` escapes (a Unicode table); `io` and `rustls` are the texts of
the errors of the operating system and of the TLS library.
-/
import Verif.Spec.Source
import Verif.Props.Send

namespace Tmi.Props
open Tmi.Model Tmi.Spec

/-- C109: following `source` always ends, after one or two errors, and gives the same every time. -/
theorem C109_ends (e : AnyError) : ∃ l, Chain e l ∧ (l = [e] ∨ ∃ c, l = [e, c]) ∧ ∀ l', Chain e l' → l' = l := by
  have one : ∀ e : AnyError, e.source = none → Chain e [e] ∧ ∀ l', Chain e l' → l' = [e] := fun e h =>
    ⟨.last h, fun l' h' => by cases h' with
      | last => rfl
      | next h2 => rw [h] at h2; cases h2⟩
  have other (e : AnyError) (h : e.source = none) :
      ∃ l, Chain e l ∧ (l = [e] ∨ ∃ c, l = [e, c]) ∧ ∀ l', Chain e l' → l' = l :=
    ⟨[e], (one e h).1, .inl rfl, (one e h).2⟩
  cases e with
  | reconnect c =>
    obtain ⟨h1, h2⟩ := one (.connect c) rfl
    refine ⟨[.reconnect c, .connect c], .next rfl h1, .inr ⟨_, rfl⟩, fun l' h => ?_⟩
    cases h with
    | last h => cases h
    | next h h' => cases h; rw [h2 _ h']
  | _ => exact other _ rfl

/-- C109: of an error of `reconnect`, the program finds the error of the last attempt, and that it was asked for as the
source or as the cause makes no difference. -/
theorem C109_reconnect (cause : ConnectError) :
    Chain (.reconnect cause) [.reconnect cause, .connect cause] ∧
    ∀ e : AnyError, e.cause = e.source :=
  ⟨.next rfl (.last rfl), fun _ => rfl⟩

/-- C109, the part that holds of "every error behind an error can be found by following `source`": what is found is
behind it; and what is found is all of it, exactly when nothing is behind it or it is an error of `reconnect` for an
attempt behind which there is nothing. -/
theorem C109_partial (tls : TlsConfigError) (e : AnyError) (l : List AnyError) (h : Chain e l) :
    (∀ c ∈ l, c = e ∨ Behind tls e c) ∧
    ((∀ c, Behind tls e c → c ∈ l) ↔
      (∀ c, ¬ MadeFrom tls e c) ∨ ∃ cause, e = .reconnect cause ∧ ∀ c, ¬ MadeFrom tls (.connect cause) c) := by
  cases h with
  | last h =>
    refine ⟨fun c hc => .inl (by simpa using hc), fun ha => ?_, ?_⟩
    · refine .inl fun c hc => ?_
      have := ha c (.here hc)
      rw [List.mem_singleton] at this
      subst this
      cases hc
    · rintro (hn | ⟨cause, rfl, -⟩) c hc
      · cases hc with
        | here h => exact absurd h (hn _)
        | there h => exact absurd h (hn _)
      · cases h
  | @next _ c l h h' =>
    cases e with
    | reconnect cause =>
      cases h
      cases h' with
      | next h => cases h
      | last _ =>
        refine ⟨fun c hc => ?_, fun ha => ?_, ?_⟩
        · rcases List.mem_cons.1 hc with rfl | hc
          · exact .inl rfl
          · rw [List.mem_singleton] at hc
            exact .inr (hc ▸ .here (.reconnect cause))
        · refine .inr ⟨cause, rfl, fun c hc => ?_⟩
          have := ha c (.there (.reconnect cause) (.here hc))
          rcases List.mem_cons.1 this with rfl | hc'
          · cases hc
          · rw [List.mem_singleton] at hc'
            subst hc'
            cases hc
        · rintro (hn | ⟨cause', e, hn⟩) c hc
          · exact absurd (.reconnect cause) (hn _)
          · cases e
            cases hc with
            | here h => cases h; simp
            | there h h2 =>
              cases h
              cases h2 with
              | here h => exact absurd h (hn _)
              | there h => exact absurd h (hn _)
    | _ => cases h

/-- Non-vacuity: an error of `reconnect` of which all is found, and one of which it is not. -/
example : Chain (.reconnect .timeout) [.reconnect .timeout, .connect .timeout] ∧
    ∀ tls c, Behind tls (.reconnect .timeout) c → c ∈ [AnyError.reconnect .timeout, .connect .timeout] := by
  refine ⟨(C109_reconnect _).1, fun tls => ((C109_partial tls _ _ (C109_reconnect _).1).2).2 (.inr ⟨.timeout, rfl, ?_⟩)⟩
  intro c h
  cases h

/-- C109 is false as stated: an error of the operating system that made `connect` fail is behind the error of `connect`,
and not found; neither through an error of `reconnect`. -/
theorem C109_negation (tls : TlsConfigError) (io : IoError) :
    (Behind tls (.connect (.open_ io)) (.io io) ∧ ∀ l, Chain (.connect (.open_ io)) l → .io io ∉ l) ∧
    (Behind tls (.reconnect (.open_ io)) (.io io) ∧ ∀ l, Chain (.reconnect (.open_ io)) l → .io io ∉ l) := by
  have hb : Behind tls (.connect (.open_ io)) (.io io) := .there (.connectOpen io) (.here (.openIo io))
  have hn : ∀ l, Chain (.connect (.open_ io)) l → AnyError.io io ∉ l := by
    intro l h
    cases h with
    | last => simp
    | next h => cases h
  refine ⟨⟨hb, hn⟩, .there (.reconnect _) hb, fun l h => ?_⟩
  cases h with
  | last h => cases h
  | next h h' =>
    cases h
    simpa using hn _ h'

/-- C109, what a program can rely on instead: the text of an error ends with the text of every error behind it, and says
something before it. -/
theorem C109_text (esc : Nat → Bool) (io : IoError → Bytes) (rustls : Nat → Bytes) (tls : TlsConfigError) (e c : AnyError)
    (h : Behind tls e c) (s t : Bytes) (hs : e.display esc io rustls tls = .ok s) (ht : c.display esc io rustls tls = .ok t) :
    ∃ p, p ≠ [] ∧ s = p ++ t := by
  have one : ∀ e c, MadeFrom tls e c → ∀ s, e.display esc io rustls tls = .ok s →
      ∃ p t, p ≠ [] ∧ c.display esc io rustls tls = .ok t ∧ s = p ++ t := by
    intro e c h s hs
    cases h with
    | reconnect c =>
      cases hc : (AnyError.connect c).display esc io rustls tls with
      | error e =>
        simp only [AnyError.display] at hc hs
        simp only [reconnectErrorText, hc] at hs
        cases hs
      | ok t =>
        simp only [AnyError.display] at hc hs
        simp only [reconnectErrorText, hc] at hs
        cases hs
        exact ⟨_, t, by simp, rfl, rfl⟩
    | sendInvalid => cases hs; exact ⟨b!"failed to write message: message was incorrectly formatted, ", _, by simp, rfl, rfl⟩
    | connectTls => cases hs; cases tls <;> exact ⟨b!"failed to connect: ", _, by simp, rfl, rfl⟩
    | read => cases hs; exact ⟨b!"failed to connect: ", _, by simp, rfl, rfl⟩
    | connectIo => cases hs; exact ⟨b!"failed to connect: ", _, by simp, rfl, rfl⟩
    | connectOpen => cases hs; exact ⟨b!"failed to connect: ", _, by simp, rfl, rfl⟩
    | recvIo => cases hs; exact ⟨b!"failed to read message: ", _, by simp, rfl, rfl⟩
    | sendIo => cases hs; exact ⟨b!"failed to write message: ", _, by simp, rfl, rfl⟩
    | openIo => cases hs; exact ⟨b!"failed to open tls stream: ", _, by simp, rfl, rfl⟩
    | tlsIo => cases hs; exact ⟨b!"tls config error: ", _, by simp, rfl, rfl⟩
    | tlsTls => cases hs; exact ⟨b!"tls config error: ", _, by simp, rfl, rfl⟩
  induction h generalizing s with
  | here h =>
    obtain ⟨p, t', hp, h1, h2⟩ := one _ _ h s hs
    rw [ht] at h1
    cases h1
    exact ⟨p, hp, h2⟩
  | there h _ ih =>
    obtain ⟨p, u, hp, h1, h2⟩ := one _ _ h s hs
    obtain ⟨q, -, h3⟩ := ih u h1 ht
    exact ⟨p ++ q, by simp [hp], by rw [h2, h3, List.append_assoc]⟩

/-- Non-vacuity: what is printed for an error with two others behind it. -/
example : (AnyError.reconnect (.open_ ⟨.other 1, 0⟩)).display (fun _ => false) (fun _ => b!"no route to host") (fun _ => [])
      (.tls 0) =
    .ok (b!"all reconnect attempts failed. last error was: failed to connect: failed to open tls stream: no route to host") := by
  decide +kernel

/-- C109: so a report that prints an error of `reconnect` and then what following `source` gives, prints the error of the
last attempt twice, whatever it is. -/
theorem C109_twice_negation (esc : Nat → Bool) (io : IoError → Bytes) (rustls : Nat → Bytes) (tls : TlsConfigError)
    (cause : ConnectError) (t : Bytes) (h : (AnyError.connect cause).display esc io rustls tls = .ok t) :
    (AnyError.reconnect cause).source = some (.connect cause) ∧
    (AnyError.reconnect cause).display esc io rustls tls = .ok (b!"all reconnect attempts failed. last error was: " ++ t) := by
  refine ⟨rfl, ?_⟩
  simp only [AnyError.display] at h ⊢
  simp only [reconnectErrorText, h]
  rfl

example := C109_twice_negation (fun _ => false) (fun _ => []) (fun _ => []) (.tls 0) .timeout _ rfl

/-- C109: the text of every error of the library begins as the errors of its type do. -/
theorem C109_opening (esc : Nat → Bool) (io : IoError → Bytes) (rustls : Nat → Bytes) (tls : TlsConfigError) (e : AnyError)
    (n s : Bytes) (hn : errorType e = some n) (hs : e.display esc io rustls tls = .ok s) :
    ∃ p, (n, p) ∈ openings ∧ p ≠ [] ∧ p <+: s := by
  have con : ∀ (c : ConnectError) (tx t : Bytes), c.display esc io tx = .ok t → b!"failed to connect: " <+: t := by
    intro c tx t h
    cases c <;> simp only [ConnectError.display] at h
    case welcome m =>
      cases hm : m.print esc false <;> rw [hm] at h <;> cases h
      exact ⟨_, rfl⟩
    case notice m =>
      cases hm : m.print esc false <;> rw [hm] at h <;> cases h
      exact ⟨_, rfl⟩
    all_goals cases h; exact ⟨_, rfl⟩
  cases e <;> cases hn <;> simp only [AnyError.display] at hs
  case reconnect c =>
    refine ⟨_, .head _, by simp, ?_⟩
    simp only [reconnectErrorText] at hs
    generalize ConnectError.display esc io _ c = r at hs
    cases r <;> cases hs
    exact ⟨_, rfl⟩
  case connect c => exact ⟨_, .tail _ (.head _), by simp, con _ _ _ hs⟩
  case recv e =>
    cases hs
    exact ⟨_, .tail _ (.tail _ (.head _)), by simp, by cases e <;> exact ⟨_, rfl⟩⟩
  case send e =>
    cases hs
    exact ⟨_, .tail _ (.tail _ (.tail _ (.head _))), by simp, by cases e <;> exact ⟨_, rfl⟩⟩
  case openStream e =>
    cases hs
    exact ⟨_, .tail _ (.tail _ (.tail _ (.tail _ (.head _)))), by simp, _, rfl⟩
  case tlsConfig e =>
    cases hs
    exact ⟨_, .tail _ (.tail _ (.tail _ (.tail _ (.tail _ (.head _))))), by simp, by cases e <;> exact ⟨_, rfl⟩⟩
  case invalidMessage =>
    cases hs
    exact ⟨_, .tail _ (.tail _ (.tail _ (.tail _ (.tail _ (.tail _ (.head _)))))), by simp, _, rfl⟩
  case messageParse =>
    cases hs
    exact ⟨_, .tail _ (.tail _ (.tail _ (.tail _ (.tail _ (.tail _ (.tail _ (.head _))))))), by simp, _, rfl⟩
  case invalidChannelName =>
    cases hs
    exact ⟨_, .tail _ (.tail _ (.tail _ (.tail _ (.tail _ (.tail _ (.tail _ (.tail _ (.head _)))))))), by simp, _, rfl⟩

/-- C109: so the text of an error of the library tells its type, whatever else the two errors contain. -/
theorem C109_which (esc : Nat → Bool) (io : IoError → Bytes) (rustls : Nat → Bytes) (tls tls' : TlsConfigError)
    (e e' : AnyError) (n n' s : Bytes) (hn : errorType e = some n) (hn' : errorType e' = some n')
    (hs : e.display esc io rustls tls = .ok s) (hs' : e'.display esc io rustls tls' = .ok s) : n = n' := by
  obtain ⟨p, hp, -, h⟩ := C109_opening esc io rustls tls e n s hn hs
  obtain ⟨p', hp', -, h'⟩ := C109_opening esc io rustls tls' e' n' s hn' hs'
  have table : ∀ x ∈ openings, ∀ y ∈ openings, (x.2 <+: y.2 ∨ y.2 <+: x.2) → x.1 = y.1 := by decide +kernel
  exact table _ hp _ hp' (List.prefix_or_prefix_of_prefix h h')

/-- The hypotheses are met: two errors of which one would be found inside the other. -/
example : errorType .invalidMessage = some (b!"InvalidMessage") ∧ errorType (.send .invalidMessage) = some (b!"SendError") ∧
    AnyError.invalidMessage.display (fun _ => false) (fun _ => b!"refused") (fun _ => []) (.tls 0) =
      .ok (b!"not terminated by \"\\r\\n\"") := ⟨rfl, rfl, rfl⟩

end Tmi.Props
