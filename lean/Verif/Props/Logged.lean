/-
Properties C74 and C75, and the part of C55 about what a subscriber gets: logging.

`esc` says which characters outside ASCII `Debug` of `str` escapes (a Unicode table).
-/
import Verif.Proofs.LoggedSend
import Verif.Proofs.LoggedSecret
import Verif.Props.Debug
import Verif.Props.Trace

namespace Tmi.Props
open Tmi.Model Tmi.Spec Tmi.Proofs

/-! ## C55: what the subscriber gets when something is sent -/

/-- C55: a subscriber changes nothing about a call that sends, and the records it gets are those of `Cmd.trace`. -/
theorem C55_logged (c : Cmd) (w : World) (rs : List Record) :
    Logged.send c (w, rs) =
      ((c.send w).1, ((c.send w).2, rs ++ (c.trace w.client).map fun data => ⟨b!"sending message", some data⟩)) :=
  logged_send c w rs

/-- Non-vacuity: one record. -/
example : (Logged.send (.ping (b!"x")) (sampleWorld [.accept 3, .accept 100], [])).2.2
    = [⟨b!"sending message", some (b!"PING :x\r\n")⟩] := by decide +kernel

/-! ## C74: logging changes nothing -/

/-- The message that is the parse of an owned line. -/
theorem owned_parse {b : Build} {s : Bytes} {m : MsgOwned} (h : MsgOwned.parse b s = .ok (some m)) :
    MsgRef.parse b s = .ok (some m.asRef) := by
  unfold MsgOwned.parse at h
  cases hr : MsgRef.parse b s with
  | error e => rw [hr] at h; cases h
  | ok r =>
    rw [hr] at h
    cases r with
    | none => cases h
    | some m' =>
      cases h
      have := parse_src hr
      cases m'
      subst this
      rfl

theorem owned_print_error {m : MsgOwned} {esc : Nat → Bool} {alt : Bool} {f : Fault} :
    m.print esc alt = .error f ↔ m.asRef.print esc alt = .error f := by
  have e : m = m.asRef.intoOwned := rfl
  rw [e, C69_owned]
  show _ ↔ m.asRef.print esc alt = _
  cases m.asRef.print esc alt <;> simp [Except.map]

theorem unprintable {esc : Nat → Bool} {b : Build} {L : List Bytes} {f : Fault} (h : Unprintable esc b L f)
    (hl : ∀ s ∈ L, Utf8 s ∧ s.length < 4294967296) : ∃ s ∈ L, ¬ Printable s := by
  obtain ⟨s, hs, m, hm, hp⟩ := h
  refine ⟨s, hs, fun hP => ?_⟩
  obtain ⟨kv, hkv, h'⟩ := (C69_panics b s (hl s hs).1 (hl s hs).2 m.asRef (owned_parse hm) esc false).1
    ⟨f, owned_print_error.1 hp⟩
  rcases h' with h' | h'
  · exact (hP kv hkv).1 h'
  · exact (hP kv hkv).2 h'

/-- C74, exactly: with a subscriber `connect` does what it does without, or panics because one of the lines that the
server sends has tags that cannot be listed. -/
theorem C74_connect_exact (esc : Nat → Bool) (b : Build) (cfg : Config) (w : World) (rs : List Record)
    (hl : ∀ s ∈ sentLines w.script, Utf8 s ∧ s.length < 4294967296) :
    ((Logged.connect esc b cfg (w, rs)).1 = (connect b cfg w).1 ∧
      (Logged.connect esc b cfg (w, rs)).2.1 = (connect b cfg w).2) ∨
    ((∃ f, (Logged.connect esc b cfg (w, rs)).1 = .error (.panic f)) ∧ ∃ s ∈ sentLines w.script, ¬ Printable s) := by
  obtain ⟨-, h⟩ := Tracks.connect (esc := esc) (b := b) (L := sentLines w.script) cfg rfl w rs
    ⟨fun s hs => mem_sentLines.2 hs, by simp⟩
  rcases h with ⟨h1, h2, -⟩ | ⟨f, h1, h2⟩
  · exact .inl ⟨h1, h2⟩
  · exact .inr ⟨⟨f, h1⟩, unprintable h2 hl⟩

/-- C74, exactly, for `reconnect`. -/
theorem C74_reconnect_exact (esc : Nat → Bool) (b : Build) (w : World) (rs : List Record)
    (hl : ∀ s ∈ sentLines w.script, Utf8 s ∧ s.length < 4294967296) :
    ((Logged.reconnect esc b (w, rs)).1 = (reconnect b w).1 ∧
      (Logged.reconnect esc b (w, rs)).2.1 = (reconnect b w).2) ∨
    ((∃ f, (Logged.reconnect esc b (w, rs)).1 = .error (.panic f)) ∧ ∃ s ∈ sentLines w.script, ¬ Printable s) := by
  obtain ⟨-, h⟩ := Tracks.reconnect (esc := esc) (b := b) (L := sentLines w.script) w rs
    ⟨fun s hs => mem_sentLines.2 hs, fun _ => rfl⟩
  rcases h with ⟨h1, h2, -⟩ | ⟨f, h1, h2⟩
  · exact .inl ⟨h1, h2⟩
  · exact .inr ⟨⟨f, h1⟩, unprintable h2 hl⟩

/-- C74, the part that holds, for `connect`: if the tags of all lines that the server sends can be listed, a subscriber
changes nothing. -/
theorem C74_connect_partial (esc : Nat → Bool) (b : Build) (cfg : Config) (w : World) (rs : List Record)
    (hl : ∀ s ∈ sentLines w.script, Utf8 s ∧ s.length < 4294967296 ∧ Printable s) :
    (Logged.connect esc b cfg (w, rs)).1 = (connect b cfg w).1 ∧
      (Logged.connect esc b cfg (w, rs)).2.1 = (connect b cfg w).2 := by
  rcases C74_connect_exact esc b cfg w rs fun s hs => ⟨(hl s hs).1, (hl s hs).2.1⟩ with h | ⟨-, s, hs, h⟩
  · exact h
  · exact absurd (hl s hs).2.2 h

/-- C74, the part that holds, for any sequence of calls of a client: the same results, the same effects, and the
client in the same state. -/
theorem C74_calls_partial (esc : Nat → Bool) (calls : List (Op × List Answer)) (w : World) (rs : List Record)
    (hl : ∀ call ∈ calls, ∀ s ∈ sentLines call.2, Utf8 s ∧ s.length < 4294967296 ∧ Printable s) :
    (loggedOutcomes esc calls (w, rs)).1 = (outcomes calls w).1 ∧
      (loggedOutcomes esc calls (w, rs)).2.1 = (outcomes calls w).2 := by
  induction calls generalizing w rs with
  | nil => exact ⟨rfl, rfl⟩
  | cons x rest ih =>
    obtain ⟨op, answers⟩ := x
    have key : (op.logged esc ({ w with script := answers }, rs)).1 = (op.outcome { w with script := answers }).1 ∧
        (op.logged esc ({ w with script := answers }, rs)).2.1 = (op.outcome { w with script := answers }).2 := by
      cases op with
      | send c =>
        have h := logged_send c { w with script := answers } rs
        constructor
        · show Outcome.sent (Logged.send c ({ w with script := answers }, rs)).1 = .sent (c.send { w with script := answers }).1
          rw [h]
        · show (Logged.send c ({ w with script := answers }, rs)).2.1 = (c.send { w with script := answers }).2
          rw [h]
      | recv b => exact ⟨rfl, rfl⟩
      | reconnect b =>
        have h' := hl (.reconnect b, answers) (by simp)
        rcases C74_reconnect_exact esc b { w with script := answers } rs
          (fun s hs => ⟨(h' s hs).1, (h' s hs).2.1⟩) with h | ⟨-, s, hs, h⟩
        · unfold Op.logged Op.outcome
          exact ⟨congrArg _ h.1, h.2⟩
        · exact absurd (h' s hs).2.2 h
    obtain ⟨k1, k2⟩ := key
    cases e : op.logged esc ({ w with script := answers }, rs) with
    | mk o v =>
      obtain ⟨w', rs'⟩ := v
      rw [e] at k1 k2
      obtain ⟨i1, i2⟩ := ih w' rs' fun call hc => hl call (List.mem_cons_of_mem _ hc)
      show ((loggedOutcomes esc ((op, answers) :: rest) (w, rs)).1 = _ ∧ _)
      simp only [loggedOutcomes, outcomes, e]
      dsimp only at k1 k2
      subst k1 k2
      exact ⟨by rw [i1], i2⟩

/-! ### Where logging makes `connect` panic -/

/-- A line with the tag `id`. -/
def tagged (v rest : Bytes) : Bytes := [AT] ++ b!"id" ++ [EQS] ++ v ++ [SP] ++ rest

/-- A value that cannot be read. -/
structure Unreadable (v : Bytes) : Prop where
  utf8 : Utf8 v
  len : v.length = 65537
  semi : SEMI ∉ v
  sp : SP ∉ v
  cut : ¬ isCharBoundary v (65537 % 65536) = true

theorem unreadable_long : Unreadable longValue := by
  have hv := longValue_mem 32768
  refine ⟨longValue_utf8 32768, ?_, fun h => absurd (hv _ h) (by decide), fun h => absurd (hv _ h) (by decide), long_boundary⟩
  unfold longValue
  rw [List.length_append, longValue_length]
  rfl

theorem tagged_eq (v rest : Bytes) : tagged v rest = AT :: ((b!"id" ++ EQS :: v) ++ SP :: rest) := by
  unfold tagged; simp

theorem tagged_tags {v : Bytes} (hv : Unreadable v) (rest : Bytes) :
    takeTags (tagged v rest) = (some (b!"id" ++ EQS :: v), rest) := by
  rw [tagged_eq]
  refine takeTags_space _ ?_
  intro h
  rcases List.mem_append.1 h with h | h
  · revert h; decide
  · rcases List.mem_cons.1 h with h | h
    · revert h; decide
    · exact hv.sp h

theorem parse_some (b : Build) {s : Bytes} (hu : Utf8 s) (hl : s.length < 4294967296)
    (hc : (tagPairs s).length ≤ 128) (ht : TagsTerminated b s) {l : Line} (h : line s = some l) :
    ∃ m, MsgRef.parse b s = .ok (some m) ∧ m.src = s ∧ RestOf m l := by
  have hp := parse_rest b hu hl hc ht
  rw [h] at hp
  obtain ⟨m, hm, hsrc, -, -, R⟩ := hp
  exact ⟨m, hm, hsrc, R⟩

theorem tagged_parse (b : Build) {v : Bytes} (hv : Unreadable v) (rest : Bytes) (hr : Utf8 rest) (hlen : rest.length < 65536)
    (l : Line) (hline : line (tagged v rest) = some l) (esc : Nat → Bool) :
    ∃ m, MsgOwned.parse b (tagged v rest) = .ok (some m) ∧ m.command = .ok (commandOf l.command) ∧
      m.params = .ok l.params ∧ ∀ alt, m.print esc alt = .error .slice := by
  have hl : (tagged v rest).length < 4294967296 := by
    unfold tagged
    simp only [List.length_append, hv.len, List.length_cons, List.length_nil]
    omega
  have hu : Utf8 (tagged v rest) := by
    unfold tagged
    exact ((((Utf8.of_ascii (by decide)).append (.of_ascii (by decide))).append
      (.of_ascii (by decide))).append hv.utf8).append (.of_ascii (by decide)) |>.append hr
  have htp : (tagPairs (tagged v rest)).length ≤ 128 := by
    unfold tagPairs
    rw [tagged_tags hv]
    show (splitTags (b!"id" ++ EQS :: v)).length ≤ 128
    have e : splitTags (b!"id" ++ EQS :: v) = [(b!"id", v)] := splitTags_last (by decide) hv.semi
    rw [e]
    exact Nat.succ_le_succ (Nat.zero_le _)
  have ht : TagsTerminated b (tagged v rest) := by
    intro _ r h
    rw [tagged_eq] at h
    rw [← (List.cons.inj h).2]
    exact List.mem_append_right _ List.mem_cons_self
  obtain ⟨m, hm, hsrc, R⟩ := parse_some b hu hl htp ht hline
  have htags : m.tags = .error .slice := by
    rw [C17_truncation b (b!"id") v rest (.of_ascii (by decide)) hv.utf8 hr (by decide) (by decide)
      (by decide) hv.semi hv.sp hl m hm, hv.len, if_neg hv.cut]
  refine ⟨m.intoOwned, ?_, ?_, ?_, fun alt => ?_⟩
  · unfold MsgOwned.parse
    rw [hm]
    show Except.ok (some _) = _
    rw [← hsrc]
    rfl
  · exact R.command
  · exact R.params
  · rw [owned_print_error]
    show m.print esc alt = _
    unfold MsgRef.print MsgRef.debug MsgRef.dbg
    rw [htags]
    rfl

theorem note_bind {β : Type} (t : Bytes) (f : Unit → Logged.LAct β) (w : World) (rs : List Record) :
    (Logged.note t >>= f) (w, rs) = f () (w, rs ++ [⟨t, none⟩]) := rfl

theorem act_bind_run {α β : Type} {x : Act α} {f : α → Logged.LAct β} {w w' : World} {a : α} {rs : List Record}
    (h : x w = (.ok a, w')) : (Logged.act x >>= f) (w, rs) = f a (w', rs) := lact_bind_ok (act_ran h rs)

theorem logged_handshake_accepts (esc : Nat → Bool) (b : Build) (w : World) (rs : List Record) (rest : List Answer)
    (h : Accepts (w.client.scratch ++ hello w.client.config.credentials) w.script (.flushed :: rest)) :
    ∃ log rs', Logged.handshake esc b (w, rs) =
      Logged.awaitWelcome esc b (⟨{ w.client with scratch := [] }, log, rest⟩, rs') := by
  unfold Logged.handshake
  generalize hd : w.client.scratch ++ helloText w.client.config.credentials = data
  have hh : w.client.scratch ++ hello w.client.config.credentials = data := by rw [← helloText_eq]; exact hd
  rw [hh] at h
  obtain ⟨w1, h1, h2⟩ := writeAll_accepts { w with client := { w.client with scratch := data } } h
  have hc := (writeAll_effect data { w with client := { w.client with scratch := data } }).client
  rw [h1] at hc
  have hn : flush w1 = (.ok (.ok ()), { w1 with log := w1.log ++ [.flush], script := rest }) := by
    have hn : next w1 = (.ok .flushed, { w1 with script := rest }) := by unfold next; rw [h2]
    unfold flush
    rw [act_bind_ok hn]
    rfl
  rw [note_bind, act_bind_run (x := getClient) (w := w) (w' := w) (a := w.client) rfl]
  dsimp only
  rw [hd, note_bind, act_bind_run (x := setScratch data) (w := w)
      (w' := { w with client := { w.client with scratch := data } }) (a := ()) rfl,
    act_bind_run h1]
  dsimp only
  rw [act_bind_run hn]
  dsimp only
  rw [act_bind_run (x := setScratch []) (w := { w1 with log := w1.log ++ [.flush], script := rest })
    (w' := { w1 with client := { w1.client with scratch := [] }, log := w1.log ++ [.flush], script := rest }) (a := ()) rfl]
  have e : ({ w1.client with scratch := [] } : Client) = { w.client with scratch := [] } := by rw [hc]
  rw [e]
  exact ⟨_, _, rfl⟩

/-- C74: whenever the message of the first line after the greeting cannot be printed, `connect` panics with a
subscriber. -/
theorem C74_panics (esc : Nat → Bool) (b : Build) (cfg : Config) (w : World) (rs : List Record) (mid rest : List Answer)
    (s : Bytes) (m : MsgOwned) (f : Fault) (hs : w.script = .tlsLoaded :: .opened :: mid)
    (hmid : Accepts (hello cfg.credentials) mid (.flushed :: .line s :: rest))
    (hm : MsgOwned.parse b s = .ok (some m)) (hp : m.print esc false = .error f) :
    (Logged.connect esc b cfg (w, rs)).1 = .error (.panic f) := by
  have hn : next w = (.ok .tlsLoaded, { w with script := .opened :: mid }) := by unfold next; rw [hs]
  obtain ⟨log, rs', hh⟩ := logged_handshake_accepts esc b
    ⟨⟨false, [], cfg⟩, w.log ++ [.open_] ++ [.connected], mid⟩
    (rs ++ [⟨b!"connecting", none⟩] ++ [⟨b!"loading native certificates", none⟩] ++ [⟨b!"opening connection to twitch", none⟩]
      ++ [⟨b!"opening tls stream to twitch", none⟩]) (.line s :: rest) hmid
  have hr : recvReply b ⟨⟨false, [], cfg⟩, log, .line s :: rest⟩ =
      (.ok (.ok m), ⟨⟨false, [], cfg⟩, log ++ [.took s], rest⟩) := by
    rw [recvReply_run]
    simp [hm]
  have ha : Logged.awaitWelcome esc b (⟨⟨false, [], cfg⟩, log, .line s :: rest⟩, rs') =
      (.error (.panic f), (⟨⟨false, [], cfg⟩, log ++ [.took s], rest⟩, rs' ++ [⟨b!"waiting for CAP * ACK", none⟩])) := by
    unfold Logged.awaitWelcome
    rw [note_bind, act_bind_run hr]
    dsimp only
    refine lact_bind_error ?_
    unfold Logged.traceReceived
    refine lact_bind_error (act_ran ?_ _)
    rw [hp]
    rfl
  unfold Logged.connect
  rw [note_bind, note_bind, act_bind_run hn]
  dsimp only
  rw [note_bind, lact_bind_ok (x := Logged.withTimeout cfg.timeout Logged.openStream) (a := .ok (.ok ()))
    (w' := (⟨w.client, w.log ++ [.open_], mid⟩, _ ++ [⟨b!"opening tls stream to twitch", none⟩])) rfl]
  dsimp only
  rw [act_bind_run (x := emit .connected) (w' := ⟨w.client, w.log ++ [.open_] ++ [.connected], mid⟩) (a := ()) rfl,
    act_bind_run (x := setClient _) (w' := ⟨⟨false, [], cfg⟩, w.log ++ [.open_] ++ [.connected], mid⟩) (a := ()) rfl,
    lact_bind_error (e := .panic f) (w' := (⟨⟨false, [], cfg⟩, log ++ [.took s], rest⟩, rs' ++ [⟨b!"waiting for CAP * ACK", none⟩]))]
  unfold Logged.withTimeout
  rw [hh, ha]

/-- A server that acknowledges the capabilities in a line with a tag that cannot be read. -/
def strangeReplies (v : Bytes) : List Answer :=
  [.tlsLoaded, .opened, .accept 1000, .flushed, .line (tagged v (b!"CAP * ACK")), .line (b!"001 x")]

theorem strange_greeting (v : Bytes) : Accepts (hello sampleConfig.credentials)
    [.accept 1000, .flushed, .line (tagged v (b!"CAP * ACK")), .line (b!"001 x")]
    (.flushed :: .line (tagged v (b!"CAP * ACK")) :: [.line (b!"001 x")]) := by
  have e : (hello sampleConfig.credentials).drop 1000 = [] := by decide +kernel
  exact .more (by decide +kernel) (by decide) (by rw [e]; exact .done _)

theorem strange_run (esc : Nat → Bool) (b : Build) {v : Bytes} (hv : Unreadable v) :
    (connect b sampleConfig (sampleWorld (strangeReplies v))).1 = .ok (.ok ()) ∧
    (Logged.connect esc b sampleConfig (sampleWorld (strangeReplies v), [])).1 = .error (.panic .slice) := by
  obtain ⟨m, hm, hcmd, hps, hpr⟩ := tagged_parse b hv (b!"CAP * ACK") (.of_ascii (by decide)) (by decide)
    ⟨splitTags (b!"id" ++ EQS :: v), none, b!"CAP", none, some (b!"* ACK")⟩ (by
      unfold line
      rw [tagged_tags hv]
      rfl) esc
  constructor
  · obtain ⟨r, hr⟩ : ∃ r, MsgOwned.parse b (b!"001 x") = .ok (some r) ∧ r.command = .ok .rplWelcome := by
      obtain ⟨m, hm, -, R⟩ := parse_some b (s := b!"001 x") (.of_ascii (by decide)) (by decide) (by decide)
        (fun _ _ h => by cases h) (l := ⟨[], none, b!"001", none, some (b!"x")⟩) (by decide)
      refine ⟨⟨m.checks, b!"001 x", m.parts⟩, ?_, ?_⟩
      · unfold MsgOwned.parse; rw [hm]; rfl
      · have hc := R.command
        have hsrc := parse_src hm
        unfold MsgRef.command at hc
        rw [hsrc] at hc
        exact hc
    have hn : next (sampleWorld (strangeReplies v)) = (.ok .tlsLoaded, sampleWorld (strangeReplies v).tail) := rfl
    obtain ⟨ev, -, -, hh⟩ := handshake_accepts b ⟨⟨false, [], sampleConfig⟩, [] ++ [.open_] ++ [.connected],
      [.accept 1000, .flushed, .line (tagged v (b!"CAP * ACK")), .line (b!"001 x")]⟩ _ (strange_greeting v)
    have hr1 : ∀ log, recvReply b ⟨⟨false, [], sampleConfig⟩, log, [.line (tagged v (b!"CAP * ACK")), .line (b!"001 x")]⟩ =
        (.ok (.ok m), ⟨⟨false, [], sampleConfig⟩, log ++ [.took (tagged v (b!"CAP * ACK"))], [.line (b!"001 x")]⟩) := by
      intro log
      rw [recvReply_run]
      simp [hm]
    have hr2 : ∀ log, recvReply b ⟨⟨false, [], sampleConfig⟩, log, [.line (b!"001 x")]⟩ =
        (.ok (.ok r), ⟨⟨false, [], sampleConfig⟩, log ++ [.took (b!"001 x")], []⟩) := by
      intro log
      rw [recvReply_run]
      simp [hr.1]
    have hc1 : checkCap m = .ok none := by
      unfold checkCap
      rw [hcmd, hps]
      rfl
    have hc2 : checkWelcome r = .ok none := by
      unfold checkWelcome
      rw [hr.2]
      rfl
    have ha : ∀ log, ∃ w', awaitWelcome b ⟨⟨false, [], sampleConfig⟩, log, [.line (tagged v (b!"CAP * ACK")), .line (b!"001 x")]⟩ =
        (.ok (.ok ()), w') := by
      intro log
      unfold awaitWelcome
      rw [act_bind_ok (hr1 log)]
      dsimp only
      rw [hc1, act_bind_ok (x := lift (.ok none)) (a := none) rfl]
      dsimp only
      rw [act_bind_ok (hr2 _)]
      dsimp only
      rw [hc2, act_bind_ok (x := lift (.ok none)) (a := none) rfl]
      exact ⟨_, rfl⟩
    obtain ⟨w', ha⟩ := ha ([] ++ [.open_] ++ [.connected] ++ ev)
    unfold connect
    rw [act_bind_ok hn]
    dsimp only
    rw [act_bind_ok (x := withTimeout _ openStream) (a := .ok (.ok ()))
      (w' := ⟨(sampleWorld []).client, [] ++ [.open_], _⟩) rfl]
    dsimp only
    rw [act_bind_ok (x := emit .connected) (w' := ⟨(sampleWorld []).client, [] ++ [.open_] ++ [.connected], _⟩) (a := ()) rfl,
      act_bind_ok (x := setClient _) (w' := ⟨⟨false, [], sampleConfig⟩, [] ++ [.open_] ++ [.connected], _⟩) (a := ()) rfl,
      act_bind_ok (a := .ok (.ok ())) (w' := w')]
    · rfl
    · unfold withTimeout
      rw [hh, ha]
  · exact C74_panics esc b sampleConfig _ [] _ _ _ m .slice rfl (strange_greeting v) hm (hpr false)

/-- C74 is false: `connect` succeeds on a server whose acknowledgement has a long tag; with a subscriber it panics. -/
theorem C74_negation (esc : Nat → Bool) (b : Build) : ∃ w,
    (connect b sampleConfig w).1 = .ok (.ok ()) ∧
    (Logged.connect esc b sampleConfig (w, [])).1 = .error (.panic .slice) :=
  ⟨_, strange_run esc b unreadable_long⟩

/-- Non-vacuity of the part that holds: the lines of a usual server are printable. -/
example : ∀ s ∈ sentLines goodReplies, Utf8 s ∧ s.length < 4294967296 ∧ Printable s := by
  intro s hs
  have : s = b!":tmi.twitch.tv CAP * ACK :twitch.tv/commands" ∨
      s = b!":tmi.twitch.tv 001 forsen :Welcome, GLHF!" := by
    simpa [goodReplies, sentLines] using hs
  have h0 : ∀ t : Bytes, shortTagsOf t = [] → Printable t := by
    intro t h kv hkv
    rw [h] at hkv
    cases hkv
  rcases this with rfl | rfl
  · exact ⟨.of_ascii (by decide), by decide, h0 _ (by decide)⟩
  · exact ⟨.of_ascii (by decide), by decide, h0 _ (by decide)⟩

/-! ## C75: what is logged while connecting -/

/-- C75: the records of `connect` show fixed texts, the login, and messages that the server sent; nothing else. -/
theorem C75_connect (esc : Nat → Bool) (b : Build) (cfg : Config) (w : World) (rs : List Record) :
    ∃ new, (Logged.connect esc b cfg (w, rs)).2.2 = rs ++ new ∧
      ∀ r ∈ new, Shows esc b cfg.credentials.login (sentLines w.script) r :=
  (Tracks.connect (esc := esc) (b := b) (L := sentLines w.script) cfg rfl w rs
    ⟨fun s hs => mem_sentLines.2 hs, by simp⟩).1

/-- C75: the same for `reconnect`. -/
theorem C75_reconnect (esc : Nat → Bool) (b : Build) (w : World) (rs : List Record) :
    ∃ new, (Logged.reconnect esc b (w, rs)).2.2 = rs ++ new ∧
      ∀ r ∈ new, Shows esc b w.client.config.credentials.login (sentLines w.script) r :=
  (Tracks.reconnect (esc := esc) (b := b) (L := sentLines w.script) w rs
    ⟨fun s hs => mem_sentLines.2 hs, fun _ => rfl⟩).1

/-- C75: the records, and the result, of `connect` do not depend on the token: they are the same for two configurations
that differ only in tokens of the same length. -/
theorem C75_token (esc : Nat → Bool) (b : Build) (cfg cfg' : Config) (h : SameButToken cfg cfg') (w : World)
    (rs : List Record) : (Logged.connect esc b cfg (w, rs)).2.2 = (Logged.connect esc b cfg' (w, rs)).2.2 ∧
      (Logged.connect esc b cfg (w, rs)).1 = (Logged.connect esc b cfg' (w, rs)).1 := by
  have h' := LTwin.connect esc b h w w rs ⟨⟨rfl, rfl, rfl, rfl⟩, rfl, rfl, rfl, rfl⟩
  exact ⟨h'.2.1, h'.1⟩

/-- C75: the same for `reconnect`. -/
theorem C75_token_reconnect (esc : Nat → Bool) (b : Build) (w w' : World) (h : Alike w w') (rs : List Record) :
    (Logged.reconnect esc b (w, rs)).2.2 = (Logged.reconnect esc b (w', rs)).2.2 ∧
      (Logged.reconnect esc b (w, rs)).1 = (Logged.reconnect esc b (w', rs)).1 :=
  ⟨(LTwin.reconnect esc b w w' rs h).2.1, (LTwin.reconnect esc b w w' rs h).1⟩

/-- Non-vacuity: two configurations that differ in the token. -/
example : SameButToken sampleConfig { sampleConfig with credentials := ⟨b!"forsen", some (b!"hidden")⟩ } :=
  ⟨rfl, rfl, rfl, by decide +kernel⟩

/-- The records of a connection that succeeds. -/
example : (Logged.connect (fun _ => false) ⟨.scalar, true⟩ sampleConfig
    (sampleWorld (.tlsLoaded :: .opened :: goodReplies), [])).2.2 =
    [⟨b!"connecting", none⟩, ⟨b!"loading native certificates", none⟩, ⟨b!"opening connection to twitch", none⟩,
     ⟨b!"opening tls stream to twitch", none⟩, ⟨b!"performing handshake", none⟩,
     ⟨b!"CAP REQ \"twitch.tv/commands twitch.tv/tags twitch.tv/membership\"; NICK \"forsen\"; PASS ***", none⟩,
     ⟨b!"waiting for CAP * ACK", none⟩,
     ⟨b!"received message", some (b!"IrcMessage { tags: [], prefix: Some(Prefix { nick: None, user: None, " ++
       b!"host: \"tmi.twitch.tv\" }), command: Capability, channel: None, params: Some(\"* ACK :twitch.tv/commands\") }")⟩,
     ⟨b!"received CAP * ACK", none⟩, ⟨b!"waiting for NOTICE 001", none⟩,
     ⟨b!"received message", some (b!"IrcMessage { tags: [], prefix: Some(Prefix { nick: None, user: None, " ++
       b!"host: \"tmi.twitch.tv\" }), command: RplWelcome, channel: None, params: Some(\"forsen :Welcome, GLHF!\") }")⟩,
     ⟨b!"connected", none⟩] := by decide +kernel

end Tmi.Props
