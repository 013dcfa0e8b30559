/-
Properties C39-C44: connecting, reconnecting, receiving.
-/
import Verif.Proofs.Leftover
import Verif.Proofs.Delay
import Verif.Model.Config
import Verif.Props.Send

namespace Tmi.Props
open Tmi.Model Tmi.Spec Tmi.Proofs

/-! ## C39: the handshake -/

/-- C39: `connect` and the outcomes of the specification (`Attempt`) correspond exactly, for every
script of network events whose lines are readable: every outcome the specification allows is what
`connect` returns, and nothing else is ever returned. -/
theorem C39_connect (b : Build) (cfg : Config) (w : World) (hr : AllParse b w.script)
    (r : Except ConnectError Unit) (rest : List Answer) :
    (∃ w', connect b cfg w = (.ok r, w') ∧ w'.script = rest) ↔
    (w.script = .tlsFailed :: rest ∧ r = .error .tls) ∨
    ∃ o s, r = (match o with | none => .ok () | some e => .error e) ∧ w.script = .tlsLoaded :: s ∧
      Attempt (parsed b) (hello cfg.credentials) s o rest := by
  have e : ∀ o : Option ConnectError,
      (match o with | none => Except.ok () | some e => .error e) = toResult o := by
    intro o; cases o <;> rfl
  constructor
  · rintro ⟨w', h, rfl⟩
    rcases connect_from hr h with h | ⟨o, s, h1, h2, h3⟩
    · exact .inl h
    · exact .inr ⟨o, s, by rw [e]; exact h1, h2, h3⟩
  · rintro (⟨hs, rfl⟩ | ⟨o, s, rfl, hs, h⟩)
    · have hn : next w = (.ok .tlsFailed, { w with script := rest }) := by unfold next; rw [hs]
      unfold connect
      rw [act_bind_ok hn]
      exact ⟨_, rfl, rfl⟩
    · rw [e]
      rw [hs] at hr
      exact connect_to hs hr.tail h

/-- The message that the error carries is the parse of the line that was received: its source is the
line and it exposes the pieces of the line. -/
theorem C39_message (b : Build) (s : Bytes) (h : Readable b s) (l : Line) (hl : line s = some l) :
    MsgOwned.parse b s = .ok (some (parsed b s)) ∧ (parsed b s).src = s ∧
    Represents (parsed b s).asRef l := owned_parse_some h hl

/-- C39: `connect` succeeds exactly when the connection is opened, the whole greeting is accepted and
flushed, the first line is `CAP * ACK ...` and the second is `001`. -/
theorem C39_success_iff (b : Build) (cfg : Config) (w : World) (hr : AllParse b w.script) :
    (∃ w', connect b cfg w = (.ok (.ok ()), w')) ↔
    ∃ s s₁ s₂ rest l₁ l₂, w.script = .tlsLoaded :: .opened :: s ∧
      Accepts (hello cfg.credentials) s (.flushed :: .line s₁ :: .line s₂ :: rest) ∧
      line s₁ = some l₁ ∧ l₁.command = b!"CAP" ∧ (∃ v, l₁.params = some v ∧ b!"* ACK" <+: v) ∧
      line s₂ = some l₂ ∧ l₂.command = b!"001" := by
  constructor
  · rintro ⟨w', h⟩
    rcases (C39_connect b cfg w hr _ _).1 ⟨w', h, rfl⟩ with ⟨_, h⟩ | ⟨o, s, h1, h2, h3⟩
    · simp at h
    · cases o with
      | some e => simp at h1
      | none =>
        cases h3 with
        | @handshake s _ _ h =>
          cases h with
          | replies ha hw =>
            cases hw with
            | second k1 k2 k3 k4 =>
              cases k2 with
              | ack hc =>
                cases k4 with
                | welcome hw =>
                  cases k1 with
                  | line _ hl =>
                    cases k3 with
                    | line _ hl' => exact ⟨s, _, _, _, _, _, h2, ha, hl, hc.1, hc.2, hl', hw⟩
  · rintro ⟨s, s₁, s₂, rest, l₁, l₂, hs, ha, h1, h2, h3, h4, h5⟩
    obtain ⟨w', hw, _⟩ := (C39_connect b cfg w hr (.ok ()) rest).2 (.inr ⟨none, _, rfl, hs,
      .handshake (.replies ha (.second (.line _ h1) (.ack ⟨h2, h3⟩) (.line _ h4) (.welcome h5)))⟩)
    exact ⟨w', hw⟩

/-- C39: the replies and their errors, one by one.  The greeting was accepted and flushed; `rest`
follows. -/
theorem C39_errors (b : Build) (cfg : Config) (w : World) (hr : AllParse b w.script)
    (s rest : List Answer) (hs : w.script = .tlsLoaded :: .opened :: s)
    (ha : Accepts (hello cfg.credentials) s (.flushed :: rest)) :
    -- the first reply
    (∀ e r, rest = .readFailed e :: r → (connect b cfg w).1 = .ok (.error (.read (.io e)))) ∧
    (∀ r, rest = .eof :: r → (connect b cfg w).1 = .ok (.error (.read .streamClosed))) ∧
    (∀ r, rest = .elapsed 0 :: r → (connect b cfg w).1 = .ok (.error .timeout)) ∧
    (∀ x r, rest = .line x :: r → line x = none →
      (connect b cfg w).1 = .ok (.error (.read (.parse x)))) ∧
    (∀ x l r, rest = .line x :: r → line x = some l → l.command ≠ b!"CAP" →
      (connect b cfg w).1 = .ok (.error (.welcome (parsed b x)))) ∧
    (∀ x l r, rest = .line x :: r → line x = some l → l.command = b!"CAP" →
      (¬ ∃ v, l.params = some v ∧ b!"* ACK" <+: v) → (connect b cfg w).1 = .ok (.error .auth)) ∧
    -- the second reply
    (∀ x l rest', rest = .line x :: rest' → line x = some l → IsCapAck l →
      (∀ e r, rest' = .readFailed e :: r → (connect b cfg w).1 = .ok (.error (.read (.io e)))) ∧
      (∀ r, rest' = .eof :: r → (connect b cfg w).1 = .ok (.error (.read .streamClosed))) ∧
      (∀ r, rest' = .elapsed 0 :: r → (connect b cfg w).1 = .ok (.error .timeout)) ∧
      (∀ y r, rest' = .line y :: r → line y = none →
        (connect b cfg w).1 = .ok (.error (.read (.parse y)))) ∧
      (∀ y l' r, rest' = .line y :: r → line y = some l' → l'.command = b!"001" →
        (connect b cfg w).1 = .ok (.ok ())) ∧
      (∀ y l' r, rest' = .line y :: r → line y = some l' → l'.command = b!"NOTICE" →
        (∃ v, l'.params = some v ∧ b!"authentication failed" <:+: v) →
        (connect b cfg w).1 = .ok (.error .auth)) ∧
      (∀ y l' r, rest' = .line y :: r → line y = some l' → l'.command = b!"NOTICE" →
        (¬ ∃ v, l'.params = some v ∧ b!"authentication failed" <:+: v) →
        (connect b cfg w).1 = .ok (.error (.notice (parsed b y)))) ∧
      (∀ y l' r, rest' = .line y :: r → line y = some l' → l'.command ≠ b!"001" →
        l'.command ≠ b!"NOTICE" →
        (connect b cfg w).1 = .ok (.error (.welcome (parsed b y))))) := by
  have go : ∀ (o : Option ConnectError) (r : List Answer), Welcomed (parsed b) rest o r →
      (connect b cfg w).1 = .ok (toResult o) := by
    intro o r h
    obtain ⟨w', hw, _⟩ := connect_to (b := b) (cfg := cfg) hs (by rw [hs] at hr; exact hr.tail)
      (.handshake (.replies ha h))
    rw [hw]
  refine ⟨?_, ?_, ?_, ?_, ?_, ?_, ?_⟩
  · rintro e r rfl; exact go (some _) _ (.noFirst (.failed e r))
  · rintro r rfl; exact go (some _) _ (.noFirst (.closed r))
  · rintro r rfl; exact go (some _) _ (.noFirst (.late r))
  · rintro x r rfl hl; exact go (some _) _ (.noFirst (.bad r hl))
  · rintro x l r rfl hl hc; exact go (some _) _ (.first (.line r hl) (.other hc))
  · rintro x l r rfl hl hc hn
    exact go (some _) _ (.first (.line r hl) (.refused hc fun h => hn h.2))
  · rintro x l rest' rfl hl hc
    refine ⟨?_, ?_, ?_, ?_, ?_, ?_, ?_, ?_⟩
    · rintro e r rfl; exact go (some _) _ (.noSecond (.line _ hl) (.ack hc) (.failed e r))
    · rintro r rfl; exact go (some _) _ (.noSecond (.line _ hl) (.ack hc) (.closed r))
    · rintro r rfl; exact go (some _) _ (.noSecond (.line _ hl) (.ack hc) (.late r))
    · rintro y r rfl hy; exact go (some _) _ (.noSecond (.line _ hl) (.ack hc) (.bad r hy))
    · rintro y l' r rfl hy h
      exact go none _ (.second (.line _ hl) (.ack hc) (.line _ hy) (.welcome h))
    · rintro y l' r rfl hy h h'
      exact go (some _) _ (.second (.line _ hl) (.ack hc) (.line _ hy) (.denied ⟨h, h'⟩))
    · rintro y l' r rfl hy h h'
      exact go (some _) _ (.second (.line _ hl) (.ack hc) (.line _ hy) (.notice h fun k => h' k.2))
    · rintro y l' r rfl hy h h'
      exact go (some _) _ (.second (.line _ hl) (.ack hc) (.line _ hy) (.other h h'))

/-- C39: whatever happens (any events, any lines, cancellation), `connect` sends a prefix of the
greeting and nothing else, on at most one connection, without waiting between attempts; when it
returns `Ok` it has sent all of it and the new client has nothing pending. -/
theorem C39_greeting (b : Build) (cfg : Config) (w : World) :
    wire w (connect b cfg w).2 <+: hello cfg.credentials ∧
    (∃ ev, (connect b cfg w).2.log = w.log ++ ev ∧ opens ev ≤ 1 ∧ sleeps ev = []) ∧
    ((connect b cfg w).1 = .ok (.ok ()) →
      wire w (connect b cfg w).2 = hello cfg.credentials ∧
      (connect b cfg w).2.client.scratch = [] ∧ (connect b cfg w).2.client.config = cfg) := by
  have quiet : ∀ (ev : List Effect) (r : Except Stop (Except ConnectError Unit)) (w' : World),
      w'.log = w.log ++ ev → written ev = [] → opens ev ≤ 1 → sleeps ev = [] → r ≠ .ok (.ok ()) →
      wire w w' <+: hello cfg.credentials ∧
      (∃ ev, w'.log = w.log ++ ev ∧ opens ev ≤ 1 ∧ sleeps ev = []) ∧
      (r = .ok (.ok ()) → wire w w' = hello cfg.credentials ∧ w'.client.scratch = [] ∧
        w'.client.config = cfg) := by
    intro ev r w' h1 h2 h3 h4 h5
    refine ⟨by rw [wire_of h1, h2]; exact List.nil_prefix, ⟨ev, h1, h3, h4⟩, fun h => absurd h h5⟩
  unfold connect
  rcases next_cases w with ⟨hs, hn⟩ | ⟨n, rest, hs, hn⟩ | ⟨a, rest, hs, hne, hn⟩
  · rw [act_bind_error hn]; exact quiet [] _ _ (by simp) rfl (by simp [opens]) rfl (by simp)
  · rw [act_bind_error hn]; exact quiet [] _ _ (by simp) rfl (by simp [opens]) rfl (by simp)
  rw [act_bind_ok hn]
  cases a with
  | elapsed n => exact absurd rfl (hne n)
  | tlsLoaded =>
    simp only []
    rw [act_bind, open_run]
    cases hr : rest with
    | nil => exact quiet [.open_] _ _ rfl rfl (by simp [opens]) rfl (by simp)
    | cons a rest' =>
      cases a with
      | elapsed n =>
        cases n with
        | zero => exact quiet [.open_] _ _ rfl rfl (by simp [opens]) rfl (by simp [act_pure])
        | succ n => exact quiet [.open_] _ _ rfl rfl (by simp [opens]) rfl (by simp)
      | openFailed e => exact quiet [.open_] _ _ rfl rfl (by simp [opens]) rfl (by simp [act_pure])
      | opened =>
        simp only [act_bind, emit, setClient, withTimeout]
        generalize hw1 : World.mk _ (w.log ++ [.open_] ++ [.connected]) rest' = w1
        have l1 : w1.log = w.log ++ [.open_, .connected] := by rw [← hw1]; simp
        have c1 : w1.client = ⟨false, [], cfg⟩ := by rw [← hw1]
        have hh := handshake_effect b w1
        cases hres : handshake b w1 with
        | mk r w2 =>
          rw [hres] at hh
          obtain ⟨ev, he, hev⟩ := hh.events
          obtain ⟨ws, ss, g1, g2, g3, g4⟩ := hh.log
          have hwr : written ev = written ws := by
            rw [g1, List.append_assoc] at he
            rw [← List.append_cancel_left he, written_append, written_took, List.append_nil]
          simp only [c1, List.nil_append] at g3 g4
          have hlog : w2.log = w.log ++ ([.open_, .connected] ++ ev) := by rw [he, l1]; simp
          have hwire : wire w w2 = written ws := by
            rw [wire_of hlog, written_append, hwr]; rfl
          have hcfg : w2.client.config = cfg := by rw [hh.config, c1]
          have fin : ∀ r' : Except Stop (Except ConnectError Unit),
              (r' = .ok (.ok ()) → r = .ok (.ok ())) →
              wire w w2 <+: hello cfg.credentials ∧
              (∃ ev, w2.log = w.log ++ ev ∧ opens ev ≤ 1 ∧ sleeps ev = []) ∧
              (r' = .ok (.ok ()) → wire w w2 = hello cfg.credentials ∧ w2.client.scratch = [] ∧
                w2.client.config = cfg) := by
            intro r' hr'
            refine ⟨by rw [hwire]; exact g3, ⟨_, hlog, ?_, ?_⟩, ?_⟩
            · rw [opens_append, hev.opens]; simp [opens]
            · rw [sleeps_append, hev.sleeps]; rfl
            · intro h
              rcases g4 with g4 | g4
              · exact ⟨by rw [hwire]; exact g4.2, g4.1, hcfg⟩
              · exact absurd (hr' h) g4.2.2.1
          cases r with
          | error s =>
            cases s with
            | elapsed n => cases n <;> exact fin _ (by simp [act_pure])
            | dropped => exact fin _ (by simp)
            | panic f => exact fin _ (by simp)
          | ok r => exact fin _ (by simp [act_pure])
      | _ => exact quiet [.open_] _ _ rfl rfl (by simp [opens]) rfl (by simp)
  | _ => exact quiet [] _ _ (by simp [act_pure, stop]) rfl (by simp [opens]) rfl (by simp [act_pure, stop])

/-- C39: the greeting is three lines, and the password is the token with `oauth:` in front: the
prefix is added exactly when the token lacks it. -/
theorem C39_token (login token : Bytes) :
    (∀ t, token = b!"oauth:" ++ t → hello (Credentials.new login token) =
      b!"CAP REQ :twitch.tv/commands twitch.tv/tags twitch.tv/membership\r\n" ++
      b!"PASS " ++ token ++ b!"\r\n" ++ b!"NICK " ++ login ++ b!"\r\n") ∧
    ((∀ t, token ≠ b!"oauth:" ++ t) → hello (Credentials.new login token) =
      b!"CAP REQ :twitch.tv/commands twitch.tv/tags twitch.tv/membership\r\n" ++
      b!"PASS oauth:" ++ token ++ b!"\r\n" ++ b!"NICK " ++ login ++ b!"\r\n") ∧
    hello ⟨login, none⟩ =
      b!"CAP REQ :twitch.tv/commands twitch.tv/tags twitch.tv/membership\r\n" ++
      b!"PASS oauth:just_a_lil_guy\r\n" ++ b!"NICK " ++ login ++ b!"\r\n" := by
  refine ⟨?_, ?_, rfl⟩
  · intro t ht
    unfold hello Credentials.new passToken
    simp only [Option.getD_some]
    rw [if_pos ⟨t, ht.symm⟩]
  · intro ht
    unfold hello Credentials.new passToken
    simp only [Option.getD_some]
    rw [if_neg (by rintro ⟨t, h⟩; exact ht t h.symm)]
    simp only [List.append_assoc, List.cons_append, List.nil_append]

/-- The replies of the server to a good greeting. -/
def goodReplies : List Answer :=
  [.accept 20, .accept 1000, .flushed, .line (b!":tmi.twitch.tv CAP * ACK :twitch.tv/commands"),
   .line (b!":tmi.twitch.tv 001 forsen :Welcome, GLHF!")]

theorem readable_plain {b : Build} {s : Bytes} (hu : Utf8 s) (h : s.head? ≠ some AT)
    (hl : s.length < 4294967296) : Readable b s := ⟨hu, within_plain h hl, terminated_plain h⟩

theorem goodReplies_readable (b : Build) : AllReadable b goodReplies := by
  intro s hs
  have : s = b!":tmi.twitch.tv CAP * ACK :twitch.tv/commands" ∨
      s = b!":tmi.twitch.tv 001 forsen :Welcome, GLHF!" := by
    simpa [goodReplies] using hs
  rcases this with rfl | rfl <;>
  exact readable_plain (.of_ascii (by decide)) (by decide) (by decide)

/-- Non-vacuity: a connection that succeeds, and some that fail. -/
example : (connect ⟨.simd .avx2 5, true⟩ sampleConfig
    (sampleWorld (.tlsLoaded :: .opened :: goodReplies))).1 = .ok (.ok ()) := by decide +kernel
example : (connect ⟨.scalar, true⟩ sampleConfig
    (sampleWorld [.tlsLoaded, .opened, .accept 1000, .flushed, .line (b!"CAP * NAK :x")])).1
      = .ok (.error .auth) := by decide +kernel
example : (connect ⟨.scalar, true⟩ sampleConfig
    (sampleWorld [.tlsLoaded, .opened, .accept 1000, .flushed, .line (b!"CAP * ACK :x"),
      .line (b!":tmi NOTICE * :Login authentication failed")])).1 = .ok (.error .auth) := by decide +kernel
/-- Twitch capitalises some of these notices; those are not recognised. -/
example : (connect ⟨.scalar, true⟩ sampleConfig
    (sampleWorld [.tlsLoaded, .opened, .accept 1000, .flushed, .line (b!"CAP * ACK :x"),
      .line (b!":tmi NOTICE * :Improperly formatted auth")])).1 ≠ .ok (.error .auth) := by decide +kernel

/-- The hypotheses of `C39_connect`, `C39_success_iff` and `C39_errors` are met. -/
theorem goodReplies_after (b : Build) (xs : List Answer) (h : ∀ x ∈ xs, ∀ s, x ≠ .line s) : AllReadable b (xs ++ goodReplies) := by
  intro s hs
  rcases List.mem_append.1 hs with hs | hs
  · exact absurd rfl (h _ hs s)
  · exact goodReplies_readable b s hs
theorem goodReplies_parse (b : Build) (xs : List Answer) (h : ∀ x ∈ xs, ∀ s, x ≠ .line s) : AllParse b (xs ++ goodReplies) :=
  (goodReplies_after b xs h).parse
example := fun b => C39_connect b sampleConfig (sampleWorld (.tlsLoaded :: .opened :: goodReplies))
  (goodReplies_parse b [.tlsLoaded, .opened] (by simp))
example := fun b => (C39_success_iff b sampleConfig (sampleWorld (.tlsLoaded :: .opened :: goodReplies))
  (goodReplies_parse b [.tlsLoaded, .opened] (by simp)))
example := fun b => C39_errors b sampleConfig (sampleWorld (.tlsLoaded :: .opened :: goodReplies))
  (goodReplies_parse b [.tlsLoaded, .opened] (by simp)) goodReplies _ rfl
  (.more (by decide) (by decide) (.more (by decide) (by decide) (.done _)))

/-! ## C40: a failed handshake leaves nothing behind -/

theorem reconnect_eq (b : Build) (w : World) : reconnect b w =
    reconnectLoop b w.client.config (w.script.length + 1) w.client.config.backoff.maxTries
      w.client.config.backoff.initialDelay .timeout w := rfl

/-- C40, what happens in every case: if `reconnect` talked on `n` connections, then the last of them
received (a prefix of) `n` copies of the greeting after what was pending before; all of them if it
returned `Ok`.  Afterwards either nothing is pending or all of that. -/
theorem C40_copies (b : Build) (w : World) :
    ∃ ev, (reconnect b w).2.log = w.log ++ ev ∧
      (connections ev ≠ 0 → written (lastConnection ev) <+:
        w.client.scratch ++ copies (connections ev) (hello w.client.config.credentials)) ∧
      ((reconnect b w).1 = .ok (.ok ()) → connections ev ≠ 0 ∧ written (lastConnection ev) =
        w.client.scratch ++ copies (connections ev) (hello w.client.config.credentials) ∧
        (reconnect b w).2.client.scratch = []) ∧
      ((reconnect b w).2.client.scratch = [] ∨ (reconnect b w).2.client.scratch =
        w.client.scratch ++ copies (connections ev) (hello w.client.config.credentials)) := by
  rw [reconnect_eq]
  have e := reconnectLoop_effect b w.client.config (w.script.length + 1)
    w.client.config.backoff.maxTries w.client.config.backoff.initialDelay .timeout w
  obtain ⟨ev, l1, l2, l0, l3, l4, l5⟩ := (reconnectLoop_leftover b w.client.config
    (w.script.length + 1) w.client.config.backoff.maxTries w.client.config.backoff.initialDelay
    .timeout w).log
  exact ⟨ev, l1, l3, fun h => ⟨l2 h, l4 h, e.scratch h⟩, l5⟩

/-- C40, the part that holds: after any history without an unrepaired failure, a `reconnect` that
succeeds on the first connection it could open (after any number of failures to open one) sends the
greeting and nothing else, and the next command is sent alone. -/
theorem C40_clean_partial (w₀ w : World) (h : List (Op × Bool)) (h₀ : w₀.client.scratch = [])
    (hist : History w₀ h w) (hs : settled h = true) (b : Build) (answers : List Answer) (ev : List Effect)
    (hev : (reconnect b { w with script := answers }).2.log = w.log ++ ev) (h1 : connections ev = 1)
    (hok : (reconnect b { w with script := answers }).1 = .ok (.ok ())) :
    written (lastConnection ev) = hello w₀.client.config.credentials ∧
    ∀ (c : Cmd) (answers' : List Answer),
      wire (reconnect b { w with script := answers }).2
        (c.send { (reconnect b { w with script := answers }).2 with script := answers' }).2
        <+: commandBytes c := by
  obtain ⟨p1, _, p3⟩ := history_pending hist h₀
  obtain ⟨ev', q1, q2, q3, q4⟩ := C40_copies b { w with script := answers }
  rw [q1] at hev
  have : ev' = ev := List.append_cancel_left hev
  subst this
  obtain ⟨_, r2, r3⟩ := q3 hok
  constructor
  · rw [r2, h1, ← p1]
    show w.client.scratch ++ _ = _
    rw [p3 hs]; simp [copies]
  · intro c answers'
    exact (C34_one_call c { (reconnect b { w with script := answers }).2 with script := answers' } r3).1

/-- Non-vacuity: two failures to open, then success. -/
example : ((reconnect ⟨.scalar, true⟩ { sampleWorld ([.slept, .openFailed ⟨.other 0, 1⟩, .slept, .opened]
    ++ goodReplies) with client := ⟨true, [], sampleConfig⟩ }).1,
    connections (reconnect ⟨.scalar, true⟩ (sampleWorld ([.slept, .openFailed ⟨.other 0, 1⟩, .slept, .opened]
    ++ goodReplies))).2.log) = (.ok (.ok ()), 1) := by decide +kernel

/-- C40 is false: a first attempt on which nothing could be written makes the second send the greeting
(with the token) twice. -/
theorem C40_negation :
    (reconnect ⟨.scalar, true⟩
      (sampleWorld ([.slept, .opened, .writeFailed ⟨.other 0, 1⟩, .slept, .opened] ++ goodReplies))).1
      = .ok (.ok ()) ∧
    written (lastConnection (reconnect ⟨.scalar, true⟩
      (sampleWorld ([.slept, .opened, .writeFailed ⟨.other 0, 1⟩, .slept, .opened] ++ goodReplies))).2.log)
      = hello sampleConfig.credentials ++ hello sampleConfig.credentials := by decide +kernel

/-! ## C41: attempts of reconnect -/

/-- C41: whatever happens, `reconnect` tries to open at most `max_tries` connections; before each it
waits once. -/
theorem C41_bound (b : Build) (w : World) :
    ∃ ev, (reconnect b w).2.log = w.log ++ ev ∧
      (∀ n, w.client.config.backoff.maxTries = some n → opens ev ≤ n) ∧
      opens ev ≤ (sleeps ev).length ∧ (sleeps ev).length ≤ opens ev + 1 := by
  rw [reconnect_eq]
  obtain ⟨ev, l1, l2, l3, l4, _⟩ := (reconnectLoop_effect b w.client.config (w.script.length + 1)
    w.client.config.backoff.maxTries w.client.config.backoff.initialDelay .timeout w).log
  exact ⟨ev, l1, fun n hn => Nat.le_trans l2 (l4 n hn), l2, l3⟩

/-- C41: `reconnect` and the specification `Reconnects` correspond exactly, for every script whose
lines are readable: it stops at the first success, at the first error that is not `Transient`, or when
the attempts are used up, with the error of the last attempt as the cause.  The number of attempts in
the log is that of the specification. -/
theorem C41_reconnect (b : Build) (w : World) (hr : AllParse b w.script)
    (o : Option ConnectError) (rest : List Answer) :
    (∃ w', reconnect b w = (.ok (match o with | none => .ok () | some e => .error e), w') ∧
      w'.script = rest) ↔
    ∃ n, Reconnects (parsed b) w.client.config.backoff (hello w.client.config.credentials) 0
      w.client.config.backoff.maxTries .timeout w.client.scratch w.script o rest n := by
  have e : (match o with | none => Except.ok () | some e => .error e) = toResult o := by
    cases o <;> rfl
  rw [e, reconnect_eq]
  have d0 : w.client.config.backoff.initialDelay = delay w.client.config.backoff 0 := rfl
  rw [d0]
  constructor
  · rintro ⟨w', h, rfl⟩
    obtain ⟨o', n, h1, h2, _⟩ := (loop_from (b := b) (cfg := w.client.config) _ 0 _ _ w w' _
      (Nat.lt_succ_self _) rfl hr h).2 _ rfl
    rw [toResult_inj h1]
    exact ⟨n, h2⟩
  · rintro ⟨n, h⟩
    exact loop_to h _ w (Nat.lt_succ_self _) rfl rfl rfl hr

/-- The number of attempts that the specification counts is the number that is made. -/
theorem C41_attempts (b : Build) (w w' : World) (hr : AllParse b w.script)
    (r : Except ConnectError Unit) (h : reconnect b w = (.ok r, w')) :
    ∃ o n ev, r = (match o with | none => .ok () | some e => .error e) ∧
      Reconnects (parsed b) w.client.config.backoff (hello w.client.config.credentials) 0
        w.client.config.backoff.maxTries .timeout w.client.scratch w.script o w'.script n ∧
      w'.log = w.log ++ ev ∧ opens ev = n ∧ (sleeps ev).length = n := by
  rw [reconnect_eq] at h
  obtain ⟨o, n, h1, h2, ev, h3, h4, h5⟩ := (loop_from (b := b) (cfg := w.client.config) _ 0 _ _ w w' _
    (Nat.lt_succ_self _) rfl hr h).2 _ rfl
  exact ⟨o, n, ev, by rw [h1]; cases o <;> rfl, h2, h3, h4, h5⟩

/-- C41: the only panic is the overflow of the delay. -/
theorem C41_panic (b : Build) (w : World) (hr : AllParse b w.script) (f : Fault)
    (h : (reconnect b w).1 = .error (.panic f)) : f = .overflow := by
  rw [reconnect_eq] at h
  exact (loop_from (b := b) (cfg := w.client.config) _ 0 _ _ w _ _ (Nat.lt_succ_self _) rfl hr rfl).1 f h

/-- In the specification: with no attempts allowed the result is `Timeout` and nothing happens. -/
theorem C41_none (b : Build) (w : World) (h : w.client.config.backoff.maxTries = some 0) :
    reconnect b w = (.ok (.error .timeout), w) := by
  rw [reconnect_eq, reconnectLoop, if_pos h]; rfl

/-- Only these errors are retried. -/
theorem C41_should_retry (e : ConnectError) :
    e.shouldRetry = true ↔ (∃ i, e = .open_ i) ∨ ∃ i, e = .io i := by
  cases e <;> simp [ConnectError.shouldRetry]

/-- Non-vacuity: the attempts are used up; the last error is returned. -/
example : (reconnect ⟨.scalar, true⟩ (sampleWorld [.slept, .openFailed ⟨.other 0, 1⟩, .slept, .opened,
    .writeFailed ⟨.timedOut, 2⟩, .slept, .opened])).1 = .ok (.error (.io ⟨.timedOut, 2⟩)) := by decide +kernel
/-- An error that is not retried. -/
example : (reconnect ⟨.scalar, true⟩ (sampleWorld [.slept, .opened, .accept 500, .flushed, .eof])).1
    = .ok (.error (.read .streamClosed)) := by decide +kernel

/-- The hypotheses of `C41_reconnect`, `C41_attempts`, `C41_panic` and `C41_none` are met. -/
example := fun b => C41_reconnect b (sampleWorld (.slept :: .opened :: goodReplies))
  (goodReplies_parse b [.slept, .opened] (by simp))
theorem reconnected_eq : (reconnect ⟨.scalar, true⟩ (sampleWorld (.slept :: .opened :: goodReplies))).1 = .ok (.ok ()) := by
  decide +kernel
example := C41_attempts ⟨.scalar, true⟩ (sampleWorld (.slept :: .opened :: goodReplies)) _
  (goodReplies_parse _ [.slept, .opened] (by simp)) (.ok ())
  (Prod.ext reconnected_eq rfl)
example : (reconnect ⟨.scalar, true⟩ ⟨⟨false, [], { sampleConfig with backoff := ⟨none, 10 ^ 9 * 2 ^ 63, 2, 12000000000⟩ }⟩, [],
    [.slept]⟩).1 = .error (.panic .overflow) := by decide +kernel
example := fun b => C41_none b ⟨⟨false, [], { sampleConfig with backoff := ⟨some 0, 1, 2, 3⟩ }⟩, [], []⟩ rfl

/-! ## C42: delays -/

/-- C42: whatever happens, the `k`-th wait (from 0) is `delay k`: `initial_delay`, then
`min max_delay (initial_delay * multiplier ^ k)`. -/
theorem C42_delays (b : Build) (w : World) :
    ∃ ev, (reconnect b w).2.log = w.log ++ ev ∧
      ∀ k d, (sleeps ev)[k]? = some d →
        d = (if k = 0 then w.client.config.backoff.initialDelay
          else min w.client.config.backoff.maxDelay
            (w.client.config.backoff.initialDelay * w.client.config.backoff.delayMultiplier ^ k)) := by
  rw [reconnect_eq]
  obtain ⟨ev, l1, l2, l3, l4, l5⟩ := (reconnectLoop_effect b w.client.config (w.script.length + 1)
    w.client.config.backoff.maxTries w.client.config.backoff.initialDelay .timeout w).log
  refine ⟨ev, l1, fun k d hk => ?_⟩
  rw [l5 k d hk, delayFrom_eq]
  cases k with
  | zero => rfl
  | succ k => rfl

/-- C42: no wait is longer than the larger of `initial_delay` and `max_delay`; every wait but the
first is at most `max_delay`. -/
theorem C42_bounded (b : Build) (w : World) :
    ∃ ev, (reconnect b w).2.log = w.log ++ ev ∧
      (∀ d ∈ sleeps ev, d ≤ max w.client.config.backoff.initialDelay w.client.config.backoff.maxDelay) ∧
      ∀ d ∈ (sleeps ev).tail, d ≤ w.client.config.backoff.maxDelay := by
  obtain ⟨ev, h1, h2⟩ := C42_delays b w
  refine ⟨ev, h1, ?_, ?_⟩
  · intro d hd
    obtain ⟨k, hk⟩ := List.getElem?_of_mem hd
    rw [h2 k d hk]
    split <;> omega
  · intro d hd
    obtain ⟨k, hk⟩ := List.getElem?_of_mem hd
    rw [List.getElem?_tail] at hk
    rw [h2 (k + 1) d hk, if_neg (by omega)]
    omega

/-- C42: with `initial_delay ≤ max_delay` and a multiplier of at least one the waits never decrease. -/
theorem C42_monotone (b : Build) (w : World)
    (hi : w.client.config.backoff.initialDelay ≤ w.client.config.backoff.maxDelay)
    (hm : 1 ≤ w.client.config.backoff.delayMultiplier) :
    ∃ ev, (reconnect b w).2.log = w.log ++ ev ∧
      ∀ (j k d d' : Nat), j ≤ k → (sleeps ev)[j]? = some d → (sleeps ev)[k]? = some d' → d ≤ d' := by
  obtain ⟨ev, h1, h2⟩ := C42_delays b w
  refine ⟨ev, h1, fun j k d d' hjk hj hk => ?_⟩
  rw [h2 j d hj, h2 k d' hk]
  have hp : ∀ n, 1 ≤ w.client.config.backoff.delayMultiplier ^ n := fun n => Nat.pow_pos (by omega)
  have hmul : ∀ n, w.client.config.backoff.initialDelay ≤
      w.client.config.backoff.initialDelay * w.client.config.backoff.delayMultiplier ^ n :=
    fun n => Nat.le_mul_of_pos_right _ (hp n)
  have hmono : w.client.config.backoff.initialDelay * w.client.config.backoff.delayMultiplier ^ j ≤
      w.client.config.backoff.initialDelay * w.client.config.backoff.delayMultiplier ^ k :=
    Nat.mul_le_mul_left _ (Nat.pow_le_pow_right (by omega) hjk)
  have := hmul k
  split <;> split <;> omega

/-- Non-vacuity: three waits, the last one capped. -/
example : sleeps (reconnect ⟨.scalar, true⟩ { sampleWorld [.slept, .openFailed ⟨.other 0, 1⟩, .slept,
    .openFailed ⟨.other 0, 1⟩, .slept, .elapsed 0] with
    client := ⟨true, [], { sampleConfig with backoff := ⟨none, 10, 3, 50⟩ }⟩ }).2.log = [10, 30, 50] := by
  decide +kernel

/-- A delay that cannot be multiplied panics, in every build, before the first attempt. -/
theorem C42_overflow (b : Build) (w : World) (rest : List Answer) (hs : w.script = .slept :: rest)
    (ht : w.client.config.backoff.maxTries ≠ some 0)
    (h : w.client.config.backoff.initialDelay * w.client.config.backoff.delayMultiplier > durationMax) :
    (reconnect b w).1 = .error (.panic .overflow) := by
  rw [reconnect_eq, reconnectLoop, if_neg ht, act_bind, sleep_run, hs]
  simp only []
  rw [act_bind]
  unfold mulDuration
  rw [maxDuration_eq, if_neg (by omega)]
  rfl

example : (⟨none, 10 ^ 9 * 2 ^ 63, 2, 12000000000⟩ : Backoff).initialDelay *
    (⟨none, 10 ^ 9 * 2 ^ 63, 2, 12000000000⟩ : Backoff).delayMultiplier > durationMax := by decide +kernel

/-- C42: exactly when the delays overflow.  While lines are readable, `reconnect` panics only right
after a wait whose product with the multiplier exceeds `Duration::MAX`; and after such a wait it never
makes another attempt and never returns: it panics, unless it is dropped while it waits. -/
theorem C42_panics (b : Build) (w : World) (hr : AllParse b w.script) :
    ∃ ev, (reconnect b w).2.log = w.log ++ ev ∧
      (∀ f, (reconnect b w).1 = .error (.panic f) → ∃ d, (sleeps ev).getLast? = some d ∧
        d * w.client.config.backoff.delayMultiplier > durationMax) ∧
      ∀ d ∈ sleeps ev, d * w.client.config.backoff.delayMultiplier > durationMax →
        (sleeps ev).getLast? = some d ∧ ((reconnect b w).1 = .error (.panic .overflow) ∨
          (reconnect b w).1 = .error .dropped ∨ ∃ n, (reconnect b w).1 = .error (.elapsed n)) := by
  rw [reconnect_eq, ← maxDuration_eq]
  exact loop_waits b w.client.config (w.script.length + 1) _ _ _ w (Nat.lt_succ_self _) hr

/-- C42: if `initial_delay` and `max_delay` times the multiplier are durations, `reconnect` never panics,
however many attempts it makes. -/
theorem C42_never_panics (b : Build) (w : World) (hr : AllParse b w.script)
    (hi : w.client.config.backoff.initialDelay * w.client.config.backoff.delayMultiplier ≤ durationMax)
    (hm : w.client.config.backoff.maxDelay * w.client.config.backoff.delayMultiplier ≤ durationMax)
    (f : Fault) : (reconnect b w).1 ≠ .error (.panic f) := by
  intro h
  obtain ⟨ev, h1, h2, _⟩ := C42_panics b w hr
  obtain ⟨ev', h1', h3, _⟩ := C42_bounded b w
  have : ev' = ev := List.append_cancel_left (h1'.symm.trans h1)
  subst this
  obtain ⟨d, d1, d2⟩ := h2 f h
  have hd := h3 d (List.mem_of_getLast? d1)
  have : d * w.client.config.backoff.delayMultiplier ≤ durationMax := by
    rcases Nat.le_total w.client.config.backoff.initialDelay w.client.config.backoff.maxDelay with hle | hle
    · rw [Nat.max_eq_right hle] at hd
      exact Nat.le_trans (Nat.mul_le_mul_right _ hd) hm
    · rw [Nat.max_eq_left hle] at hd
      exact Nat.le_trans (Nat.mul_le_mul_right _ hd) hi
  omega

/-- Non-vacuity: the default backoff meets both bounds. -/
example : Backoff.default.initialDelay * Backoff.default.delayMultiplier ≤ durationMax ∧
    Backoff.default.maxDelay * Backoff.default.delayMultiplier ≤ durationMax := by decide +kernel

/-- Non-vacuity: a backoff whose second wait is the one that overflows. -/
example : (reconnect ⟨.scalar, true⟩ { sampleWorld [.slept, .openFailed ⟨.other 0, 1⟩, .slept, .opened] with
      client := { (sampleWorld []).client with config := { (sampleWorld []).client.config with
        backoff := ⟨none, 2 ^ 63 * 10 ^ 9 - 1, 2, 2 ^ 64 * 10 ^ 9 - 1⟩ } } }).1 = .error (.panic .overflow) := by
  decide +kernel

/-! ## C43: receiving -/

theorem recv_closed (b : Build) (w : World) (h : w.client.closed = true) :
    recv b w = (.ok (.error .streamClosed), w) := by rw [recv_run, if_pos h]

theorem recvMany_closed (b : Build) (w : World) (h : w.client.closed = true) : ∀ n,
    recvMany b n w = (List.replicate n (.ok (.error .streamClosed)), w)
  | 0 => rfl
  | n + 1 => by
    rw [recvMany, recv_closed b w h, recvMany_closed b w h n]; rfl

/-- C43: for every sequence of lines and I/O errors followed by the end of the stream: the calls of
`recv` return, in order, for each line its parse (or the parse error with the line), for each I/O
error that error; every call after the end of the stream returns `StreamClosed`, however often it is
made, and takes nothing from the connection. -/
theorem C43_in_order (b : Build) (items : List (Except IoError Bytes)) (rest : List Answer) (w : World)
    (hc : w.client.closed = false) (hs : w.script = items.map toAnswer ++ .eof :: rest) (k : Nat) :
    (recvMany b (items.length + (k + 1)) w).1 =
      items.map (expected b) ++ List.replicate (k + 1) (.ok (.error .streamClosed)) ∧
    (recvMany b (items.length + (k + 1)) w).2.script = rest := by
  induction items generalizing w with
  | nil =>
    simp only [List.length_nil, Nat.zero_add, List.map_nil, List.nil_append] at hs ⊢
    rw [recvMany]
    have : recv b w = (.ok (.error .streamClosed),
        { w with client := { w.client with closed := true }, script := rest }) := by
      rw [recv_run, if_neg (by simp [hc]), hs]
    rw [this, recvMany_closed b _ rfl]
    exact ⟨rfl, rfl⟩
  | cons x items ih =>
    have hlen : (x :: items).length + (k + 1) = items.length + (k + 1) + 1 := by simp; omega
    rw [hlen, recvMany]
    cases x with
    | error e =>
      have : recv b w = (.ok (.error (.io e)), { w with script := items.map toAnswer ++ .eof :: rest }) := by
        rw [recv_run, if_neg (by simp [hc]), hs]; rfl
      rw [this]
      obtain ⟨h1, h2⟩ := ih { w with script := items.map toAnswer ++ .eof :: rest } hc rfl
      exact ⟨by simp only [h1]; rfl, h2⟩
    | ok s =>
      have : recv b w = (expected b (.ok s), { w with
          log := w.log ++ [.took s], script := items.map toAnswer ++ .eof :: rest }) := by
        rw [recv_run, if_neg (by simp [hc]), hs]
        simp only [List.map_cons, toAnswer, List.cons_append, expected]
        cases MsgOwned.parse b s with
        | error f => rfl
        | ok o => cases o <;> rfl
      rw [this]
      obtain ⟨h1, h2⟩ := ih
        ⟨w.client, w.log ++ [.took s], items.map toAnswer ++ .eof :: rest⟩ hc rfl
      exact ⟨by simp only [h1]; rfl, h2⟩

/-- C43: for a readable line, what `recv` returns in terms of the grammar of lines. -/
theorem C43_line (b : Build) (s : Bytes) (h : Readable b s) :
    (line s = none → expected b (.ok s) = .ok (.error (.parse s))) ∧
    (∀ l, line s = some l → ∃ m, expected b (.ok s) = .ok (.ok m) ∧ m.src = s ∧ Represents m.asRef l) := by
  constructor
  · intro hl
    simp only [expected, owned_parse_none h hl]
  · intro l hl
    obtain ⟨h1, h2, h3⟩ := owned_parse_some h hl
    refine ⟨_, ?_, h2, h3⟩
    simp only [expected, h1]

/-- C43: for every line on which `parse` returns, `recv` returns what it returns. -/
theorem C43_parses (b : Build) (s : Bytes) (h : Parses b s) :
    (line s = none → expected b (.ok s) = .ok (.error (.parse s))) ∧
    (∀ l, line s = some l → ∃ m, expected b (.ok s) = .ok (.ok m) ∧ m.src = s ∧ MsgRef.parse b s = .ok (some m.asRef)) := by
  constructor
  · intro hl
    simp only [expected, parses_none h hl]
  · intro l hl
    obtain ⟨h1, h2, _⟩ := parses_some h hl
    refine ⟨_, by simp only [expected, h1], h2, ?_⟩
    obtain ⟨hu, hlen, r, hr⟩ := h
    unfold MsgOwned.parse at h1
    rw [hr] at h1 ⊢
    cases r with
    | none => cases h1
    | some m' =>
      rw [bind_ok] at h1
      have e : (⟨m'.checks, s, m'.parts⟩ : MsgOwned) = parsed b s := by
        injection h1 with h1; injection h1
      rw [← e]
      unfold MsgOwned.asRef
      rw [← parse_src hr]

/-- Non-vacuity: a line that is not `Readable`, its tag being too long. -/
example (b : Build) : Parses b ([AT] ++ b!"id" ++ [EQS] ++ List.replicate 65536 0x61 ++ [SP] ++ b!"PING") ∧
    ¬ Readable b ([AT] ++ b!"id" ++ [EQS] ++ List.replicate 65536 0x61 ++ [SP] ++ b!"PING") := by
  have hv : ∀ x ∈ List.replicate 65536 (0x61 : UInt8), x = 0x61 := fun x hx => (List.mem_replicate.1 hx).2
  obtain ⟨m, hm⟩ := C17_negation_reachable b
  constructor
  · refine ⟨.of_ascii fun x hx => ?_, by simp only [List.length_append, List.length_replicate]; decide, _, hm⟩
    simp only [List.mem_append, List.mem_replicate] at hx
    rcases hx with ((((hx | hx) | hx) | ⟨-, rfl⟩) | hx) | hx
    all_goals first | decide | (revert hx; revert x; decide)
  · intro h
    have hp : (b!"id", List.replicate 65536 (0x61 : UInt8)) ∈
        tagPairs ([AT] ++ b!"id" ++ [EQS] ++ List.replicate 65536 0x61 ++ [SP] ++ b!"PING") := by
      have e : ∀ v : Bytes, (∀ x ∈ v, x = 0x61) → (b!"id", v) ∈ tagPairs ([AT] ++ b!"id" ++ [EQS] ++ v ++ [SP] ++ b!"PING") := by
        intro v hv
        have hs : [AT] ++ b!"id" ++ [EQS] ++ v ++ [SP] ++ b!"PING" = AT :: ((b!"id" ++ EQS :: v) ++ SP :: b!"PING") := by simp
        have hsp : SP ∉ v := fun h => absurd (hv _ h) (by decide)
        have hsc : SEMI ∉ v := fun h => absurd (hv _ h) (by decide)
        rw [hs]
        unfold tagPairs
        rw [takeTags_space _ (by simp [hsp]; decide)]
        show (b!"id", v) ∈ splitTags (b!"id" ++ EQS :: v)
        rw [splitTags_last (by decide) hsc]
        exact List.mem_singleton.2 rfl
      exact e _ hv
    have := (h.2.1.sizes _ hp).2
    rw [List.length_replicate] at this
    exact absurd this (by decide)

/-- C43: a `recv` that is dropped while it waits loses nothing: the client, the connection and what
was seen are as before. -/
theorem C43_cancelled (b : Build) (w : World) (hc : w.client.closed = false) :
    recv b { w with script := [] } = (.error .dropped, { w with script := [] }) := by
  rw [recv_run, if_neg (by simp [hc])]

/-- C43: `recv` sends nothing and opens nothing; it takes at most one line. -/
theorem C43_quiet (b : Build) (w : World) :
    ∃ ss : List Bytes, (recv b w).2.log = w.log ++ ss.map Effect.took ∧ ss.length ≤ 1 := by
  rw [recv_run]
  split
  · exact ⟨[], by simp, by simp⟩
  · split
    case h_3 s rest _ => exact ⟨[s], by simp only []; split <;> rfl, by simp⟩
    all_goals exact ⟨[], by simp, by simp⟩

/-- Non-vacuity: a good line, a bad one, an error, another good one, the end. -/
example : ((recvMany ⟨.simd .sse2 3, true⟩ 6 (sampleWorld [.line (b!"PING :a"), .line (b!"@x=y "),
    .readFailed ⟨.other 0, 7⟩, .line (b!"PONG"), .eof, .line (b!"PING")])).1.map fun r =>
      match r with
      | .ok (.ok m) => some (m.src, (none : Option RecvError))
      | .ok (.error e) => some ([], some e)
      | .error _ => none) =
    [some (b!"PING :a", none), some ([], some (.parse (b!"@x=y "))), some ([], some (.io ⟨.other 0, 7⟩)),
     some (b!"PONG", none), some ([], some .streamClosed), some ([], some .streamClosed)] := by
  decide +kernel

/-! ## C44: disconnects -/

/-- C44. -/
theorem C44_is_disconnect (e : RecvError) :
    e.isDisconnect = true ↔ e = .streamClosed ∨ ∃ i, e = .io i ∧
      (i.kind = .unexpectedEof ∨ i.kind = .connectionAborted ∨ i.kind = .timedOut) := by
  cases e with
  | streamClosed => simp [RecvError.isDisconnect]
  | parse s => simp [RecvError.isDisconnect]
  | io i =>
    obtain ⟨kind, id⟩ := i
    cases kind <;> simp [RecvError.isDisconnect]

/-- C44: a parse error is never a disconnect. -/
theorem C44_parse (s : Bytes) : (RecvError.parse s).isDisconnect = false := rfl

example : (RecvError.io ⟨.other 3, 0⟩).isDisconnect = false := rfl

/-! ## C81: a lost connection is recognised

`is_disconnect` is documented to return true "if this `recv` failed due to a disconnect of some kind". -/

/-- C81, in part: the end of the stream, an unexpected end, an aborted connection and a timeout are recognised, and
nothing is recognised that is not a lost connection.  Missing: the kinds of C81_negation. -/
theorem C81_disconnect_partial (e : RecvError) :
    (e.isDisconnect = true → LostConnection e) ∧
    (LostConnection e → (∀ i, e = .io i → i.kind ≠ .connectionReset ∧ i.kind ≠ .brokenPipe ∧ i.kind ≠ .notConnected) →
      e.isDisconnect = true) := by
  cases e with
  | streamClosed => exact ⟨fun _ => trivial, fun _ _ => rfl⟩
  | parse s => exact ⟨fun h => (by cases h), fun h _ => (show False from h).elim⟩
  | io i =>
    obtain ⟨kind, id⟩ := i
    cases kind <;> simp [RecvError.isDisconnect, LostConnection]

/-- C81 is false: a connection reset by the other side (and a broken pipe, and a socket that is not connected) is no
disconnect for `is_disconnect`.  `recv` does return such errors: when a read fails with one. -/
theorem C81_negation (b : Build) (k : IoKind) (hk : k = .connectionReset ∨ k = .brokenPipe ∨ k = .notConnected) (id : Nat) :
    LostConnection (.io ⟨k, id⟩) ∧ (RecvError.io ⟨k, id⟩).isDisconnect = false ∧
      (recv b (sampleWorld [.readFailed ⟨k, id⟩])).1 = .ok (.error (.io ⟨k, id⟩)) := by
  rcases hk with rfl | rfl | rfl <;> exact ⟨trivial, rfl, rfl⟩

end Tmi.Props
