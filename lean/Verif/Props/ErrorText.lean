/-
Property C73, and the part of C47 about the whole configuration: the texts of errors and of the configuration.

`esc` says which characters outside ASCII `Debug` of `str` escapes (a Unicode table); `io` and `tls` are the texts of
the errors of the operating system and of the TLS library.
-/
import Verif.Proofs.DebugConfig
import Verif.Proofs.ErrorFrom
import Verif.Props.Logged

namespace Tmi.Props
open Tmi.Model Tmi.Spec Tmi.Proofs

/-! ## C47: the configuration -/

/-- C47: two configurations print the same, on one line or on many, exactly when they have the same login, timeout and
backoff: whatever the tokens are, and whether there are any. -/
theorem C47_config (c c' : Config) (hu : Utf8 c.credentials.login) (hu' : Utf8 c'.credentials.login) (esc : Nat → Bool)
    (alternate : Bool) :
    c.dbg.text esc alternate = c'.dbg.text esc alternate ↔
      c.credentials.login = c'.credentials.login ∧ c.timeout = c'.timeout ∧ c.backoff = c'.backoff := by
  constructor
  · intro h
    cases alternate with
    | false => exact config_compact_inj esc hu hu' h
    | true => exact config_pretty_inj esc hu hu' h
  · rintro ⟨h1, h2, h3⟩
    unfold Config.dbg Credentials.dbg
    rw [h1, h2, h3]

/-- Non-vacuity: what is printed; and two configurations that differ in the token. -/
example : sampleConfig.dbg.text (fun _ => false) false =
      b!"Config { credentials: Credentials { nick: \"forsen\", .. }, timeout: 1µs, " ++
      b!"backoff: Backoff { max_tries: Some(2), initial_delay: 10ns, delay_multiplier: 3, max_delay: 50ns } }" := by decide +kernel
example : ({ sampleConfig with credentials := ⟨b!"forsen", some (b!"hunter2")⟩ } : Config) ≠
      { sampleConfig with credentials := ⟨b!"forsen", some (b!"3retnuh")⟩ } := by decide +kernel

/-! ## C73: the texts of errors -/

/-- The error when the first reply is a PING. -/
def refused : ConnectError := .welcome (given (MsgOwned.parse ⟨.scalar, true⟩ (b!"PING :x")) (by decide +kernel))

theorem refused_eq : (connect ⟨.scalar, true⟩ sampleConfig (sampleWorld [.tlsLoaded, .opened, .accept 1000, .flushed,
    .line (b!"PING :x")])).1 = .ok (.error refused) := by decide +kernel

/-- C73: what an error of `connect` quotes is from the lines that the server sent. -/
theorem C73_connect (b : Build) (cfg : Config) (w : World) (e : ConnectError) (h : (connect b cfg w).1 = .ok (.error e)) :
    Told b (sentLines w.script) e :=
  (From.connect (L := sentLines w.script) (b := b) cfg w fun _ hs => mem_sentLines.2 hs).2 _ h e rfl

example := C73_connect ⟨.scalar, true⟩ sampleConfig (sampleWorld [.tlsLoaded, .opened, .accept 1000, .flushed, .line (b!"PING :x")])
  _ refused_eq

/-- C73: the same for `reconnect`. -/
theorem C73_reconnect (b : Build) (w : World) (e : ConnectError) (h : (reconnect b w).1 = .ok (.error e)) :
    Told b (sentLines w.script) e :=
  (From.reconnectLoop (L := sentLines w.script) (b := b) w.client.config _ _ _ .timeout trivial w
    fun _ hs => mem_sentLines.2 hs).2 _ h e rfl

example := C73_reconnect ⟨.scalar, true⟩ (sampleWorld [.slept, .opened, .accept 1000, .flushed, .line (b!"CAP * NAK")]) .auth
  (by decide +kernel)

theorem display_quoted {e : ConnectError} {m : MsgOwned} (h : quoted e = some m) (esc : Nat → Bool) (io : IoError → Bytes)
    (tls : Bytes) : ∃ p, NoControl p ∧ e.display esc io tls = (m.print esc false).map (p ++ ·) := by
  cases e <;> cases h
  · refine ⟨b!"failed to connect: expected `NOTICE` or `001` as first message, instead received: ", by unfold NoControl; decide, ?_⟩
    exact bind_map _ _
  · exact ⟨b!"failed to connect: received unrecognized notice: ", by unfold NoControl; decide, bind_map _ _⟩

theorem told_quoted {b : Build} {L : List Bytes} {e : ConnectError} {m : MsgOwned} (h : Told b L e) (hq : quoted e = some m) :
    ∃ s ∈ L, MsgOwned.parse b s = .ok (some m) := by
  cases e <;> cases hq <;> exact h

theorem owned_src {b : Build} {s : Bytes} {m : MsgOwned} (h : MsgOwned.parse b s = .ok (some m)) : m.src = s :=
  parse_src (owned_parse h)

/-- C73: displaying an error panics exactly when it quotes a message whose tags cannot be listed. -/
theorem C73_panics (b : Build) (L : List Bytes) (hl : ∀ s ∈ L, Utf8 s ∧ s.length < 4294967296) (e : ConnectError)
    (h : Told b L e) (esc : Nat → Bool) (io : IoError → Bytes) (tls : Bytes) :
    (∃ f, e.display esc io tls = .error f) ↔ ∃ m, quoted e = some m ∧ ¬ Printable m.src := by
  constructor
  · rintro ⟨f, hf⟩
    cases hq : quoted e with
    | none => cases e <;> cases hq <;> cases hf
    | some m =>
      refine ⟨m, rfl, fun hP => ?_⟩
      obtain ⟨p, -, hp⟩ := display_quoted hq esc io tls
      obtain ⟨s, hs, hm⟩ := told_quoted h hq
      rw [owned_src hm] at hP
      rw [hp] at hf
      have hpr : m.print esc false = .error f := by
        cases hx : m.print esc false with
        | error f' => rw [hx] at hf; cases hf; rfl
        | ok t => rw [hx] at hf; cases hf
      obtain ⟨kv, hkv, h'⟩ := (C69_panics b s (hl s hs).1 (hl s hs).2 m.asRef (owned_parse hm) esc false).1
        ⟨f, owned_print_error.1 hpr⟩
      rcases h' with h' | h'
      · exact (hP kv hkv).1 h'
      · exact (hP kv hkv).2 h'
  · rintro ⟨m, hq, hP⟩
    obtain ⟨p, -, hp⟩ := display_quoted hq esc io tls
    obtain ⟨s, hs, hm⟩ := told_quoted h hq
    rw [owned_src hm] at hP
    obtain ⟨f, hf⟩ := (C69_panics b s (hl s hs).1 (hl s hs).2 m.asRef (owned_parse hm) esc false).2 (by
      apply Classical.byContradiction
      intro hn
      refine hP fun kv hkv => ⟨fun h' => hn ⟨kv, hkv, .inl h'⟩, fun h' => hn ⟨kv, hkv, .inr h'⟩⟩)
    rw [hp, owned_print_error.2 hf]
    exact ⟨f, rfl⟩

example := C73_panics ⟨.scalar, true⟩ [b!"PING :x"] (by intro s hs; rw [List.mem_singleton.1 hs]; exact ⟨.of_ascii (by decide), by decide⟩)
  _ (C73_connect ⟨.scalar, true⟩ sampleConfig (sampleWorld [.tlsLoaded, .opened, .accept 1000, .flushed, .line (b!"PING :x")])
    _ refused_eq)

/-- C73, the part that holds of "displaying an error never panics": when the tags of all lines can be listed, the errors
of `connect` and `reconnect` are displayed. -/
theorem C73_total_partial (b : Build) (w : World) (hl : ∀ s ∈ sentLines w.script, Utf8 s ∧ s.length < 4294967296 ∧ Printable s)
    (esc : Nat → Bool) (io : IoError → Bytes) (tls : Bytes) (e : ConnectError)
    (h : (∃ cfg, (connect b cfg w).1 = .ok (.error e)) ∨ (reconnect b w).1 = .ok (.error e)) :
    (∃ t, e.display esc io tls = .ok t) ∧ ∃ t, reconnectErrorText esc io tls e = .ok t := by
  have ht : Told b (sentLines w.script) e := by
    rcases h with ⟨cfg, h⟩ | h
    · exact C73_connect b cfg w e h
    · exact C73_reconnect b w e h
  have key : ∃ t, e.display esc io tls = .ok t := by
    cases hd : e.display esc io tls with
    | ok t => exact ⟨t, rfl⟩
    | error f =>
      obtain ⟨m, hq, hP⟩ := (C73_panics b _ (fun s hs => ⟨(hl s hs).1, (hl s hs).2.1⟩) e ht esc io tls).1 ⟨f, hd⟩
      obtain ⟨s, hs, hm⟩ := told_quoted ht hq
      rw [owned_src hm] at hP
      exact absurd (hl s hs).2.2 hP
  refine ⟨key, ?_⟩
  obtain ⟨t, h⟩ := key
  unfold reconnectErrorText
  rw [h]
  exact ⟨_, rfl⟩

example := C73_total_partial ⟨.scalar, true⟩ (sampleWorld [.tlsLoaded, .opened, .accept 1000, .flushed, .line (b!"PING :x")])
  (by intro s hs; rw [List.mem_singleton.1 hs]; exact ⟨.of_ascii (by decide), by decide, by unfold Printable; decide +kernel⟩)
  (fun _ => false) (fun _ => []) [] _ (.inl ⟨sampleConfig, refused_eq⟩)

theorem first_reply_run (b : Build) (cfg : Config) (s : Bytes) (m : MsgOwned) (hm : MsgOwned.parse b s = .ok (some m))
    (e : ConnectError) (hc : checkCap m = .ok (some e)) (n : Nat) (hn : n ≠ 0) (hh : (hello cfg.credentials).drop n = [])
    (h0 : hello cfg.credentials ≠ []) :
    (connect b cfg (sampleWorld [.tlsLoaded, .opened, .accept n, .flushed, .line s])).1 = .ok (.error e) := by
  have hacc : Accepts (hello cfg.credentials) [.accept n, .flushed, .line s] [.flushed, .line s] :=
    .more h0 hn (by rw [hh]; exact .done _)
  obtain ⟨ev, -, -, hh⟩ := handshake_accepts b ⟨⟨false, [], cfg⟩, [] ++ [.open_] ++ [.connected],
    [.accept n, .flushed, .line s]⟩ _ hacc
  have hr : ∀ log, recvReply b ⟨⟨false, [], cfg⟩, log, [.line s]⟩ =
      (.ok (.ok m), ⟨⟨false, [], cfg⟩, log ++ [.took s], []⟩) := by
    intro log
    rw [recvReply_run]
    simp [hm]
  have ha : ∀ log, ∃ w', awaitWelcome b ⟨⟨false, [], cfg⟩, log, [.line s]⟩ = (.ok (.error e), w') := by
    intro log
    unfold awaitWelcome
    rw [act_bind_ok (hr log)]
    dsimp only
    rw [hc, act_bind_ok (x := lift (.ok (some e))) (a := some e) rfl]
    exact ⟨_, rfl⟩
  obtain ⟨w', ha⟩ := ha ([] ++ [.open_] ++ [.connected] ++ ev)
  have hn : next (sampleWorld [.tlsLoaded, .opened, .accept n, .flushed, .line s]) =
    (.ok .tlsLoaded, sampleWorld [.opened, .accept n, .flushed, .line s]) := rfl
  unfold connect
  rw [act_bind_ok hn]
  dsimp only
  rw [act_bind_ok (x := withTimeout _ openStream) (a := .ok (.ok ()))
    (w' := ⟨(sampleWorld []).client, [] ++ [.open_], _⟩) rfl]
  dsimp only
  rw [act_bind_ok (x := emit .connected) (w' := ⟨(sampleWorld []).client, [] ++ [.open_] ++ [.connected], _⟩) (a := ()) rfl,
    act_bind_ok (x := setClient _) (w' := ⟨⟨false, [], cfg⟩, [] ++ [.open_] ++ [.connected], _⟩) (a := ()) rfl,
    act_bind_ok (a := .ok (.error e)) (w' := w')]
  · rfl
  · unfold withTimeout
    rw [hh, ha]

/-- C73 is false: `connect` returns an error that cannot be displayed when the first reply has a long tag. -/
theorem C73_negation (esc : Nat → Bool) (io : IoError → Bytes) (tls : Bytes) (b : Build) : ∃ w e,
    (connect b sampleConfig w).1 = .ok (.error e) ∧ e.display esc io tls = .error .slice := by
  have key : ∀ v, Unreadable v → ∃ w e, (connect b sampleConfig w).1 = .ok (.error e) ∧ e.display esc io tls = .error .slice := by
    intro v hv
    obtain ⟨m, hm, hcmd, -, hpr⟩ := tagged_parse b hv (b!"PING") (.of_ascii (by decide)) (by decide)
      ⟨splitTags (b!"id" ++ EQS :: v), none, b!"PING", none, none⟩ (by
        unfold line
        rw [tagged_tags hv]
        rfl) esc
    refine ⟨_, .welcome m, first_reply_run b sampleConfig _ m hm _ ?_ 1000 (by decide) (by decide +kernel) (by decide +kernel), ?_⟩
    · unfold checkCap
      rw [hcmd]
      rfl
    · obtain ⟨p, -, hd⟩ := display_quoted (e := .welcome m) rfl esc io tls
      rw [hd, hpr]
      rfl
  exact key _ unreadable_long

theorem owned_print_ok {m : MsgOwned} {esc : Nat → Bool} {t : Bytes} (h : m.print esc false = .ok t) :
    ∃ u, m.asRef.print esc false = .ok u ∧ t = b!"Irc" ++ u := by
  have e : m = m.asRef.intoOwned := rfl
  rw [e, C69_owned] at h
  cases hp : m.asRef.print esc false with
  | error f => rw [hp] at h; cases h
  | ok u => rw [hp] at h; cases h; exact ⟨u, rfl, rfl⟩

theorem owned_same {b b' : Build} {s s' : Bytes} (hu : Utf8 s) (hu' : Utf8 s') {m m' : MsgOwned}
    (h : MsgOwned.parse b s = .ok (some m)) (h' : MsgOwned.parse b' s' = .ok (some m')) {esc : Nat → Bool} {t : Bytes}
    (ht : m.print esc false = .ok t) : m'.print esc false = .ok t ↔ SameView m.asRef m'.asRef := by
  obtain ⟨u, hp, rfl⟩ := owned_print_ok ht
  rw [← C69_same b b' s s' hu hu' m.asRef m'.asRef (owned_parse h) (owned_parse h') esc false u hp]
  constructor
  · intro h
    obtain ⟨u', hp', e⟩ := owned_print_ok h
    rw [hp', List.append_cancel_left e]
  · intro h
    have e : m' = m'.asRef.intoOwned := rfl
    rw [e, C69_owned]
    show Except.map _ (m'.asRef.print esc false) = _
    rw [h]
    rfl

/-- The text of an error of the library itself. -/
inductive OwnText (esc : Nat → Bool) : ConnectError → Bytes → Prop
  | parse (s : Bytes) : OwnText esc (.read (.parse s)) (b!"failed to connect: failed to read message: invalid message `" ++ (s ++ b!"`"))
  | closed : OwnText esc (.read .streamClosed) (b!"failed to connect: failed to read message: stream closed")
  | timeout : OwnText esc .timeout (b!"failed to connect: connection timed out")
  | auth : OwnText esc .auth (b!"failed to connect: invalid credentials")
  | welcome (m : MsgOwned) (u : Bytes) (h : m.print esc false = .ok u) : OwnText esc (.welcome m)
      (b!"failed to connect: expected `NOTICE` or `001` as first message, instead received: " ++ u)
  | notice (m : MsgOwned) (u : Bytes) (h : m.print esc false = .ok u) : OwnText esc (.notice m)
      (b!"failed to connect: received unrecognized notice: " ++ u)

theorem own_text {e : ConnectError} (ho : Own e) {esc : Nat → Bool} {io : IoError → Bytes} {tls t : Bytes} :
    e.display esc io tls = .ok t ↔ OwnText esc e t := by
  constructor
  · intro h
    cases e with
    | read r =>
      cases r with
      | io e => exact ho.elim
      | parse s =>
        cases h
        have := OwnText.parse (esc := esc) s
        simpa [RecvError.display] using this
      | streamClosed => cases h; exact .closed
    | io e => exact ho.elim
    | tls => exact ho.elim
    | open_ e => exact ho.elim
    | timeout => cases h; exact .timeout
    | auth => cases h; exact .auth
    | welcome m =>
      cases hp : m.print esc false with
      | error f =>
        simp only [ConnectError.display, hp] at h
        cases h
      | ok u =>
        simp only [ConnectError.display, hp] at h
        cases h
        exact .welcome m u hp
    | notice m =>
      cases hp : m.print esc false with
      | error f =>
        simp only [ConnectError.display, hp] at h
        cases h
      | ok u =>
        simp only [ConnectError.display, hp] at h
        cases h
        exact .notice m u hp
  · intro h
    cases h with
    | parse s => simp [ConnectError.display, RecvError.display, pure, Except.pure]
    | closed => rfl
    | timeout => rfl
    | auth => rfl
    | welcome m u h => simp only [ConnectError.display, h]; rfl
    | notice m u h => simp only [ConnectError.display, h]; rfl

/-- C73: errors of the library itself are displayed as the same text exactly when they tell the same: the same kind of
error, about the same line or about messages with the same tags, prefix, command, channel and parameters. -/
theorem C73_tells (b b' : Build) (L L' : List Bytes) (hu : ∀ s ∈ L, Utf8 s) (hu' : ∀ s ∈ L', Utf8 s) (e e' : ConnectError)
    (h : Told b L e) (h' : Told b' L' e') (ho : Own e) (ho' : Own e') (esc : Nat → Bool) (io : IoError → Bytes) (tls t : Bytes)
    (ht : e.display esc io tls = .ok t) : e'.display esc io tls = .ok t ↔ SameError e e' := by
  rw [own_text ho] at ht
  rw [own_text ho']
  constructor
  · intro ht'
    cases ht with
    | parse s =>
      generalize hx : b!"failed to connect: failed to read message: invalid message `" ++ (s ++ b!"`") = x at ht'
      cases ht' with
      | parse s' =>
        obtain rfl := List.append_cancel_right (List.append_cancel_left hx)
        rfl
      | _ => simp at hx
    | closed =>
      generalize hx : b!"failed to connect: failed to read message: stream closed" = x at ht'
      cases ht' <;> first | rfl | (simp at hx)
    | timeout =>
      generalize hx : b!"failed to connect: connection timed out" = x at ht'
      cases ht' <;> first | rfl | (simp at hx)
    | auth =>
      generalize hx : b!"failed to connect: invalid credentials" = x at ht'
      cases ht' <;> first | rfl | (simp at hx)
    | welcome m u hm =>
      generalize hx : b!"failed to connect: expected `NOTICE` or `001` as first message, instead received: " ++ u = x at ht'
      cases ht' with
      | welcome m' u' hm' =>
        obtain rfl := List.append_cancel_left hx
        obtain ⟨s, hs, hp⟩ := h
        obtain ⟨s', hs', hp'⟩ := h'
        exact (owned_same (hu s hs) (hu' s' hs') hp hp' hm).1 hm'
      | _ => simp at hx
    | notice m u hm =>
      generalize hx : b!"failed to connect: received unrecognized notice: " ++ u = x at ht'
      cases ht' with
      | notice m' u' hm' =>
        obtain rfl := List.append_cancel_left hx
        obtain ⟨s, hs, hp⟩ := h
        obtain ⟨s', hs', hp'⟩ := h'
        exact (owned_same (hu s hs) (hu' s' hs') hp hp' hm).1 hm'
      | _ => simp at hx
  · intro he
    cases ht with
    | parse s => cases he; exact .parse s
    | closed => cases he; exact .closed
    | timeout => cases he; exact .timeout
    | auth => cases he; exact .auth
    | welcome m u hm =>
      cases e' with
      | welcome m' =>
        obtain ⟨s, hs, hp⟩ := h
        obtain ⟨s', hs', hp'⟩ := h'
        exact .welcome m' u ((owned_same (hu s hs) (hu' s' hs') hp hp' hm).2 he)
      | _ => cases he
    | notice m u hm =>
      cases e' with
      | notice m' =>
        obtain ⟨s, hs, hp⟩ := h
        obtain ⟨s', hs', hp'⟩ := h'
        exact .notice m' u ((owned_same (hu s hs) (hu' s' hs') hp hp' hm).2 he)
      | _ => cases he

/-- The text of the error when the first reply is a line. -/
def firstReplyText (s : Bytes) : Option (Option Bytes) :=
  (connect ⟨.scalar, true⟩ sampleConfig (sampleWorld [.tlsLoaded, .opened, .accept 1000, .flushed, .line s])).1.toOption.map
    fun r => match r with
      | .error e => (e.display (fun _ => false) (fun _ => []) []).toOption
      | .ok _ => none

/-- Non-vacuity of the part of C73 that holds: an error about the first reply, and its text. -/
example : firstReplyText (b!"PING :x") = some (some (
    b!"failed to connect: expected `NOTICE` or `001` as first message, instead received: " ++
    b!"IrcMessage { tags: [], prefix: None, command: Ping, channel: None, params: Some(\":x\") }")) := by decide +kernel

/-- Non-vacuity of `C73_tells`: different lines with the same message, a different message, a refusal, and a line that
is not a message. -/
example : firstReplyText (b!"@ PING") = firstReplyText (b!"PING") ∧ firstReplyText (b!"PING") ≠ firstReplyText (b!"PONG") ∧
    firstReplyText (b!"CAP * NAK") = some (some (b!"failed to connect: invalid credentials")) ∧
    firstReplyText (b!":x ") = some (some (b!"failed to connect: failed to read message: invalid message `:x `")) := by
  decide +kernel

/-- C73: an error that quotes a message is displayed without control characters: on one line. -/
theorem C73_one_line (e : ConnectError) (m : MsgOwned) (hq : quoted e = some m) (esc : Nat → Bool) (io : IoError → Bytes)
    (tls t : Bytes) (h : e.display esc io tls = .ok t) : NoControl t := by
  obtain ⟨p, hp, hd⟩ := display_quoted hq esc io tls
  rw [hd] at h
  cases hx : m.print esc false with
  | error f => rw [hx] at h; cases h
  | ok u =>
    rw [hx] at h
    cases h
    obtain ⟨v, hv, rfl⟩ := owned_print_ok hx
    intro x hx
    rcases List.mem_append.1 hx with hx | hx
    · exact hp x hx
    · rcases List.mem_append.1 hx with hx | hx
      · exact (by decide : ∀ x ∈ (b!"Irc" : Bytes), 0x20 ≤ x ∧ x ≠ 0x7F) x hx
      · exact (C72_raw m.asRef esc v).1 hv x hx

example := C73_one_line refused _ rfl (fun _ => false) (fun _ => []) [] _ (got_eq _ (by decide +kernel))

theorem suffix_append {a b : Bytes} : b <:+ a ++ b := List.suffix_append a b

/-- C73: the text of an error of `recv` says that reading failed, and why. -/
theorem C73_recv (io : IoError → Bytes) (e : RecvError) :
    b!"failed to read message: " <+: e.display io ∧ RecvCause io e (e.display io) := by
  cases e with
  | io e => exact ⟨List.prefix_append .., suffix_append⟩
  | parse s =>
    have h : RecvError.display io (.parse s) = b!"failed to read message: " ++ (b!"invalid message " ++ (b!"`" ++ s ++ b!"`")) := by
      simp [RecvError.display]
    rw [h]
    exact ⟨List.prefix_append .., suffix_append.trans suffix_append⟩
  | streamClosed => exact ⟨⟨b!"stream closed", rfl⟩, ⟨b!"failed to read message: stream ", rfl⟩⟩

/-- C73: the text of an error of `send` says that writing failed, and why. -/
theorem C73_send (io : IoError → Bytes) (e : SendError) :
    b!"failed to write message: " <+: e.display io ∧ SendCause io e (e.display io) := by
  cases e with
  | io e => exact ⟨List.prefix_append .., suffix_append⟩
  | streamClosed => exact ⟨⟨b!"stream closed", rfl⟩, ⟨b!"failed to write message: stream ", rfl⟩⟩
  | invalidMessage => exact ⟨⟨b!"message was incorrectly formatted, not terminated by \"\\r\\n\"", rfl⟩, suffix_append⟩

/-- C73: the text of an error of `connect` says that connecting failed, and why. -/
theorem C73_cause (esc : Nat → Bool) (io : IoError → Bytes) (tls : Bytes) (e : ConnectError) (t : Bytes)
    (h : e.display esc io tls = .ok t) : b!"failed to connect: " <+: t ∧ ConnectCause esc io tls e t := by
  have quote : ∀ (p q : Bytes) (m : MsgOwned), p = b!"failed to connect: " ++ q →
      (do return p ++ (← m.print esc false) : R Bytes) = .ok t →
      b!"failed to connect: " <+: t ∧ ∃ u, m.print esc false = .ok u ∧ u <:+ t := by
    intro p q m hp h
    rw [bind_map] at h
    cases hm : m.print esc false with
    | error f => rw [hm] at h; cases h
    | ok u =>
      rw [hm] at h
      cases h
      subst hp
      exact ⟨⟨q ++ u, by simp⟩, u, rfl, suffix_append⟩
  cases e with
  | read e =>
    cases h
    obtain ⟨h1, h2⟩ := C73_recv io e
    refine ⟨List.prefix_append .., ?_, _, suffix_append, h1⟩
    cases e <;> exact h2.trans suffix_append
  | io e => cases h; exact ⟨List.prefix_append .., suffix_append⟩
  | tls => cases h; exact ⟨List.prefix_append .., List.IsSuffix.trans (suffix_append (a := b!"tls config error: ")) suffix_append⟩
  | open_ e =>
    cases h
    exact ⟨List.prefix_append .., List.IsSuffix.trans (suffix_append (a := b!"failed to open tls stream: ")) suffix_append⟩
  | timeout => cases h; exact ⟨⟨b!"connection timed out", rfl⟩, ⟨b!"failed to connect: connection ", rfl⟩⟩
  | auth => cases h; exact ⟨⟨b!"invalid credentials", rfl⟩, ⟨b!"failed to connect: invalid ", rfl⟩⟩
  | welcome m => exact quote _ (b!"expected `NOTICE` or `001` as first message, instead received: ") m rfl h
  | notice m => exact quote _ (b!"received unrecognized notice: ") m rfl h

example := C73_cause (fun _ => false) (fun _ => []) [] refused _ (got_eq _ (by decide +kernel))

/-- C73: the text of an error of `reconnect` says that all attempts failed, and ends with the text of the last error. -/
theorem C73_last (esc : Nat → Bool) (io : IoError → Bytes) (tls : Bytes) (e : ConnectError) (t : Bytes)
    (h : reconnectErrorText esc io tls e = .ok t) :
    b!"all reconnect attempts failed" <+: t ∧ ∃ u, e.display esc io tls = .ok u ∧ u <:+ t := by
  unfold reconnectErrorText at h
  rw [bind_map] at h
  cases hd : e.display esc io tls with
  | error f => rw [hd] at h; cases h
  | ok u =>
    rw [hd] at h
    cases h
    exact ⟨⟨b!". last error was: " ++ u, by simp⟩, u, rfl, suffix_append⟩

/-- Non-vacuity of `C73_cause` and `C73_last`: a TLS error. -/
example : ∃ t u, ConnectError.display (fun _ => false) (fun _ => []) (b!"no root certificates") .tls = .ok t ∧
    reconnectErrorText (fun _ => false) (fun _ => []) (b!"no root certificates") .tls = .ok u ∧
    u = b!"all reconnect attempts failed. last error was: " ++
      b!"failed to connect: tls config error: no root certificates" := ⟨_, _, rfl, rfl, by decide⟩

end Tmi.Props
