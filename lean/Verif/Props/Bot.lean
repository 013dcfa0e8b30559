/-
Properties C62 and C63: the programs of README.md and examples/basic.rs.
-/
import Verif.Proofs.Bot

namespace Tmi.Props
open Tmi.Model Tmi.Spec Tmi.Proofs

/-! ## C62: the documented loop answers every line before it takes the next -/

/-- C62, the loop of README.md: whatever happens, it takes one line after the other, answers every PING and follows
every RECONNECT before it takes the next line, and sends nothing else. -/
theorem C62_quick_start (b : Build) (channels : List Bytes) (w : World) (h0 : w.client.scratch = [])
    (hr : AllReadable b w.script) (ho : ∀ s, .line s ∈ w.script → Orderly s) :
    ∃ ev, (runBot quickStartOnMsg b channels w).2.log = w.log ++ ev ∧
      BotLog b w.client.config channels false ev (runBot quickStartOnMsg b channels w).1 :=
  loop_ok (quickStart_handles w.client.config) _ w (Nat.lt_succ_self _) h0 rfl hr ho

/-- C62, the loop of examples/basic.rs: the same, and it answers `!yo` unless it is anonymous. -/
theorem C62_basic (b : Build) (channels : List Bytes) (w : World) (h0 : w.client.scratch = [])
    (hr : AllReadable b w.script) (ho : ∀ s, .line s ∈ w.script → Orderly s) :
    ∃ ev, (runBot onMsg b channels w).2.log = w.log ++ ev ∧
      BotLog b w.client.config channels w.client.config.credentials.token.isSome ev
        (runBot onMsg b channels w).1 := by
  have e : (!w.client.config.credentials.isAnon) = w.client.config.credentials.token.isSome := by
    unfold Credentials.isAnon
    cases w.client.config.credentials.token <;> rfl
  rw [← e]
  exact loop_ok (onMsg_handles w.client.config) _ w (Nat.lt_succ_self _) h0 rfl hr ho

/-- C62: until a RECONNECT arrives, what has been sent when a line is taken is exactly the answers to the lines before
it; at the end it is at most the answers to all of them, and all of them if the loop ended while it waited for a line
or because of the last line. -/
theorem C62_before_next (b : Build) (cfg : Config) (channels : List Bytes) (greets : Bool) (ev : List Effect)
    (r : Except Stop BotError) (h : BotLog b cfg channels greets ev r)
    (hn : ∀ s ∈ taken ev, react greets s ≠ .rejoin) :
    (∀ pre s post, ev = pre ++ .took s :: post → written pre = answers greets (taken pre)) ∧
    written ev <+: answers greets (taken ev) ∧
    (¬ Interrupted r → written ev = answers greets (taken ev)) := by
  have cons : ∀ s ss, answers greets (s :: ss) = (match react greets s with
      | .send c => commandBytes c
      | _ => []) ++ answers greets ss := fun s ss => rfl
  have nil : answers greets [] = [] := rfl
  -- a line that was taken, with what was written after it
  have step : ∀ (s : Bytes) (ws ev : List Effect), (∀ e ∈ ws, ∃ bs, e = Effect.wrote bs) →
      (written ws = match react greets s with
        | .send c => commandBytes c
        | _ => []) →
      (∀ pre s post, ev = pre ++ .took s :: post → written pre = answers greets (taken pre)) →
      ∀ pre s' post, .took s :: (ws ++ ev) = pre ++ .took s' :: post → written pre = answers greets (taken pre) := by
    intro s ws ev hws hw ih pre s' post he
    cases pre with
    | nil => rfl
    | cons e pre =>
      rw [List.cons_append, List.cons.injEq] at he
      obtain ⟨rfl, he⟩ := he
      rw [written_took_cons, taken, cons, ← hw]
      rcases List.append_eq_append_iff.1 he with ⟨as, h1, h2⟩ | ⟨cs, h1, h2⟩
      · subst h1
        rw [written_append, taken_append, taken_writes hws, List.nil_append, ih as s' post h2]
      · cases cs with
        | nil =>
          rw [List.append_nil] at h1
          subst h1
          rw [taken_writes hws, nil, List.append_nil]
        | cons c cs =>
          rw [List.cons_append, List.cons.injEq] at h2
          obtain ⟨bs, hbs⟩ := hws c (by rw [h1]; simp)
          rw [← h2.1] at hbs
          simp at hbs
  induction h with
  | silence hs => exact ⟨fun pre s post he => by simp at he, List.nil_prefix, fun _ => rfl⟩
  | @ignored s ev r hre hb ih =>
    obtain ⟨i1, i2, i3⟩ := ih fun s' hs' => hn s' (by rw [taken]; exact List.mem_cons_of_mem _ hs')
    refine ⟨?_, ?_, fun hi => ?_⟩
    · exact step s [] ev (by simp) (by rw [hre]; rfl) i1
    · rw [written_took_cons, taken, cons, hre]
      exact i2
    · rw [written_took_cons, taken, cons, hre, i3 hi]
      rfl
  | @giveUp s e hre =>
    refine ⟨?_, ?_, fun _ => ?_⟩
    · exact step s [] [] (by simp) (by rw [hre]; rfl) (by simp)
    · exact List.nil_prefix
    · rw [written_took_cons, taken, cons, hre]
      rfl
  | @answered s c ws ev r hre hw hb ih =>
    have ht : taken (.took s :: (ws ++ ev)) = s :: taken ev := by
      rw [taken, taken_append, taken_writes hw.1]
      rfl
    obtain ⟨i1, i2, i3⟩ := ih fun s' hs' => hn s' (by rw [ht]; exact List.mem_cons_of_mem _ hs')
    refine ⟨step s ws ev hw.1 (by rw [hre]; exact hw.2) i1, ?_, fun hi => ?_⟩
    · rw [ht, written_took_cons, written_append, cons, hre, hw.2]
      exact (List.prefix_append_right_inj _).2 i2
    · rw [ht, written_took_cons, written_append, cons, hre, hw.2, i3 hi]
  | @interrupted s c ws r hre hw hi =>
    have ht : taken (.took s :: ws) = [s] := by
      rw [taken, taken_writes hw.1]
    refine ⟨fun pre s' post he => ?_, ?_, fun h => absurd hi h⟩
    · cases pre with
      | nil => rfl
      | cons e pre =>
        rw [List.cons_append, List.cons.injEq] at he
        obtain ⟨bs, hbs⟩ := hw.1 (.took s') (by rw [he.2]; simp)
        simp at hbs
    · rw [ht, written_took_cons, cons, hre, nil, List.append_nil]
      exact hw.2.1
  | rejoined hre => exact absurd hre (hn _ (by rw [taken]; exact List.mem_cons_self))
  | notJoined hre => exact absurd hre (hn _ (by rw [taken]; exact List.mem_cons_self))
  | lost hre => exact absurd hre (hn _ (by rw [taken]; exact List.mem_cons_self))

/-- C62: it keeps going.  If the network delivers some lines and accepts the answers to them, the programs take exactly
these lines, send exactly these answers, and go on with what happens then, as if they had just been started. -/
theorem C62_served (b : Build) (channels : List Bytes) (w : World) (h0 : w.client.scratch = [])
    (hc : w.client.closed = false) (hr : AllReadable b w.script) (ho : ∀ s, .line s ∈ w.script → Orderly s)
    (ss : List Bytes) (rest : List Answer) :
    (Served false ss w.script rest → ∃ ev w', w'.log = w.log ++ ev ∧ w'.client = w.client ∧ w'.script = rest ∧
      taken ev = ss ∧ written ev = answers false ss ∧
      runBot quickStartOnMsg b channels w = runBot quickStartOnMsg b channels w') ∧
    (Served w.client.config.credentials.token.isSome ss w.script rest → ∃ ev w', w'.log = w.log ++ ev ∧
      w'.client = w.client ∧ w'.script = rest ∧
      taken ev = ss ∧ written ev = answers w.client.config.credentials.token.isSome ss ∧
      runBot onMsg b channels w = runBot onMsg b channels w') := by
  have e : (!w.client.config.credentials.isAnon) = w.client.config.credentials.token.isSome := by
    unfold Credentials.isAnon
    cases w.client.config.credentials.token <;> rfl
  constructor
  · intro h
    obtain ⟨ev, w', a1, a2, a3, _, a5, a6, a7⟩ := runBot_served (channels := channels)
      (quickStart_handles w.client.config) h w rfl h0 rfl hc hr ho
    exact ⟨ev, w', a1, a2, a3, a5, a6, a7⟩
  · intro h
    have hh := onMsg_handles w.client.config
    rw [e] at hh
    obtain ⟨ev, w', a1, a2, a3, _, a5, a6, a7⟩ := runBot_served (channels := channels) hh h w rfl h0 rfl hc hr ho
    exact ⟨ev, w', a1, a2, a3, a5, a6, a7⟩

theorem react_sample (greets : Bool) : react greets (b!"PING :x") = .send (.pong (some (b!"x"))) := by
  have hl : line (b!"PING :x") = some ⟨[], none, b!"PING", none, some (b!":x")⟩ := by decide +kernel
  exact react_ping hl (p := ⟨some (b!"x")⟩) ⟨rfl, ⟨by decide +kernel⟩⟩

theorem react_cap (greets : Bool) : react greets (b!":t CAP * ACK") = .ignore := by
  have hl : line (b!":t CAP * ACK") = some ⟨[], some (b!"t"), b!"CAP", none, some (b!"* ACK")⟩ := by decide +kernel
  refine react_ignore hl (M := .other ⟨false, [], ⟨[], none, .ping, none, none⟩⟩) ?_ (by decide +kernel) (by decide +kernel) (by decide +kernel)
  show (b!"CAP") ∉ typedCommands
  decide +kernel

/-- Non-vacuity: a network that delivers lines and takes the answer in pieces. -/
theorem served_sample (greets : Bool) : Served greets [b!":t CAP * ACK", b!"PING :x"]
    [.line (b!":t CAP * ACK"), .line (b!"PING :x"), .accept 4, .accept 100, .eof] [.eof] :=
  .ignored (react_cap greets) (.answered (react_sample greets)
    (.more (by decide) (by decide) (.more (by decide) (by decide) (.done _))) (.done _))

/-- C62: the loop panics only inside `reconnect`, when the delay overflows. -/
theorem C62_panic (b : Build) (cfg : Config) (channels : List Bytes) (greets : Bool) (ev : List Effect)
    (f : Fault) (h : BotLog b cfg channels greets ev (.error (.panic f))) : f = .overflow := by
  generalize hr : (Except.error (.panic f) : Except Stop BotError) = r at h
  induction h with
  | silence hs => subst hr; exact absurd hs (by simp [Silence])
  | ignored _ _ ih => exact ih hr
  | giveUp _ => simp at hr
  | answered _ _ _ ih => exact ih hr
  | interrupted _ _ hi => subst hr; exact absurd hi (by simp [Interrupted])
  | rejoined _ _ _ _ ih => exact ih hr
  | notJoined _ _ _ hi => subst hr; exact absurd hi (by simp [Interrupted])
  | @lost s es x r hre hd hx =>
    subst hr
    obtain ⟨w, _, _, hrd, h1, _⟩ := hd
    have : x = .error (.panic f) := by
      rcases x with e | e | u
      · simp only [gaveUp, Option.some.injEq, Except.error.injEq] at hx
        rw [hx]
      · simp [gaveUp] at hx
      · simp [gaveUp] at hx
    rw [this] at h1
    exact C41_panic b w hrd.parse f h1

/-! Non-vacuity of C62: lines of every kind, an `!yo`, a RECONNECT, and a network that takes the answers in pieces. -/

/-- A session of examples/basic.rs. -/
def sampleChat : List Answer :=
  [.line (b!":tmi.twitch.tv CAP * ACK :twitch.tv/tags"), .line (b!"PING :a b"), .accept 3, .accept 100,
   .line (b!"@badges=;color=;display-name=Q;emotes=;id=ab-1;mod=0;room-id=1;subscriber=0;tmi-sent-ts=1594545155039;turbo=0;user-id=7;user-type= :q!q@q.tmi.twitch.tv PRIVMSG #c :!yo bot"),
   .accept 100, .line (b!":tmi.twitch.tv RECONNECT"), .slept, .opened] ++ goodReplies ++
  [.accept 100, .line (b!"PING"), .accept 2, .accept 100, .eof]

/-- Lines that are easily seen to be readable and orderly. -/
theorem plain_lines {b : Build} {script : List Answer}
    (h : ∀ s ∈ script.filterMap (fun | .line s => some s | _ => none),
      (∀ x ∈ s, x < 128) ∧ s.length < 4294967296 ∧ (tagPairs s).length ≤ 128 ∧
      (∀ kv ∈ tagPairs s, kv.1.length < 65536 ∧ kv.2.length < 65536) ∧ (s.head? = some AT → SP ∈ s.tail) ∧
      (line s).map (·.command) ≠ some (b!"ROOMSTATE")) :
    AllReadable b script ∧ ∀ s, .line s ∈ script → Orderly s := by
  have h : ∀ s, .line s ∈ script → _ := fun s hs => h s (List.mem_filterMap.2 ⟨.line s, hs, rfl⟩)
  constructor
  · intro s hs
    obtain ⟨h1, h2, h3, h4, h5, _⟩ := h _ hs
    refine ⟨.of_ascii h1, ⟨h2, h3, h4⟩, fun _ r hr => ?_⟩
    rw [hr] at h5
    exact h5 rfl
  · intro s hs l hl hc
    obtain ⟨_, _, _, _, _, h6⟩ := h _ hs
    rw [hl] at h6
    exact absurd (congrArg some hc) h6

example (b : Build) : AllReadable b sampleChat ∧ ∀ s, .line s ∈ sampleChat → Orderly s :=
  plain_lines (by decide +kernel)
example : (runBot onMsg ⟨.scalar, true⟩ [b!"#c", b!"d"] (sampleWorld sampleChat)).1 = .ok (.recv .streamClosed) := by
  decide +kernel
example : written (runBot onMsg ⟨.scalar, true⟩ [b!"#c", b!"d"] (sampleWorld sampleChat)).2.log =
    b!"PONG :a b\r\n@reply-parent-msg-id=ab-1 PRIVMSG #c :yo\r\n" ++ hello sampleConfig.credentials ++
    b!"JOIN #c,#d\r\nPONG\r\n" := by decide +kernel
example : written (runBot quickStartOnMsg ⟨.scalar, true⟩ [b!"#c", b!"d"] (sampleWorld (sampleChat.filter (· ≠ .accept 100)))).2.log =
    b!"PON" := by decide +kernel

theorem session {handler : Privmsg → Act (Except SendError Unit)} {b : Build} {cfg : Config}
    {channels : List Bytes} {greets : Bool} (hh : Handles handler cfg greets) (w : World)
    (hr : AllReadable b w.script) (ho : ∀ s, .line s ∈ w.script → Orderly s) :
    ∃ ev, (botMain handler b cfg channels w).2.log = w.log ++ ev ∧
      SessionLog b cfg channels greets ev (botMain handler b cfg channels w).1 := by
  obtain ⟨c1, ⟨es, c2, c3, _⟩, c4⟩ := C39_greeting b cfg w
  have csc := connect_script b cfg w
  rw [wire_of c2] at c1 c4
  unfold botMain
  rw [act_bind]
  generalize connect b cfg w = res at *
  obtain ⟨r, w1⟩ := res
  simp only [] at *
  rcases r with e | e | u
  · exact ⟨es, c2, .stopped c1 c3⟩
  · exact ⟨es, c2, .refused c1 c3⟩
  obtain ⟨c5, c6, c7⟩ := c4 rfl
  simp only []
  rw [act_bind]
  obtain ⟨⟨⟨ws, l1, l2, l3, l4⟩, hcfg, _, hscr, hnp, herr, hfull⟩, hs⟩ := send_effect (.joinAll channels) (by simp) w1
  rw [c6, List.nil_append] at l3 l4 hfull
  have hcut : ((Cmd.joinAll channels).send w1).1 ≠ .ok (.ok ()) → CutOff (commandBytes (.joinAll channels)) ws := by
    intro h
    refine ⟨l2, l3, fun e => h (hfull ?_)⟩
    rw [wire_of l1, e]
  have hsend : joinAll channels = (Cmd.joinAll channels).send := rfl
  rw [hsend]
  clear hfull hsend
  generalize (Cmd.joinAll channels).send w1 = res at *
  obtain ⟨r, w2⟩ := res
  simp only [] at *
  have hlog : w2.log = w.log ++ (es ++ ws) := by rw [l1, c2, List.append_assoc]
  rcases r with e | e | u
  · refine ⟨es ++ ws, hlog, SessionLog.notJoined (r := .error e) c5 c3 (hcut (by simp)) ?_⟩
    cases e with
    | panic f => exact absurd rfl (hnp f)
    | dropped => trivial
    | elapsed n => trivial
  · obtain ⟨e', rfl⟩ := herr e rfl
    exact ⟨es ++ ws, hlog, SessionLog.notJoined (r := .ok (.send (.io e'))) c5 c3 (hcut (by simp)) trivial⟩
  · have hsub := hscr.trans csc
    obtain ⟨ev, g1, g2⟩ := loop_ok (channels := channels) hh _ w2 (Nat.lt_succ_self _) hs (hcfg.trans c7)
      (fun s hs => hr s (hsub.subset hs)) (fun s hs => ho s (hsub.subset hs))
    simp only []
    have hrun : runBot handler b channels w2 = botLoop handler b channels (w2.script.length + 1) w2 := rfl
    rw [act_bind, hrun]
    generalize botLoop handler b channels (w2.script.length + 1) w2 = res at *
    obtain ⟨r, w3⟩ := res
    refine ⟨es ++ (ws ++ ev), ?_, ?_⟩
    · have : w3.log = w.log ++ (es ++ (ws ++ ev)) := by rw [g1, hlog]; simp
      cases r with
      | error e => exact this
      | ok e => exact this
    · have := SessionLog.ran c5 c3 ⟨l2, l4 rfl⟩ g2
      cases r with
      | error e => exact this
      | ok e => exact this

/-- C62, the programs from the start: they greet the server once, join the channels once, and run the loop. -/
theorem C62_session (b : Build) (cfg : Config) (channels : List Bytes) (w : World)
    (hr : AllReadable b w.script) (ho : ∀ s, .line s ∈ w.script → Orderly s) :
    (∃ ev, (botMain quickStartOnMsg b cfg channels w).2.log = w.log ++ ev ∧
      SessionLog b cfg channels false ev (botMain quickStartOnMsg b cfg channels w).1) ∧
    (∃ ev, (botMain onMsg b cfg channels w).2.log = w.log ++ ev ∧
      SessionLog b cfg channels cfg.credentials.token.isSome ev (botMain onMsg b cfg channels w).1) := by
  have e : (!cfg.credentials.isAnon) = cfg.credentials.token.isSome := by
    unfold Credentials.isAnon
    cases cfg.credentials.token <;> rfl
  rw [← e]
  exact ⟨session (quickStart_handles cfg) w hr ho, session (onMsg_handles cfg) w hr ho⟩

/-- C62: without both a login and a token, the program of examples/basic.rs is anonymous, and does not answer `!yo`. -/
theorem C62_anonymous (login token : Option Bytes) (n : Nat) :
    (basicCredentials login token n).token.isSome = (login.isSome && token.isSome) ∧
    (∀ l t, login = some l → token = some t →
      basicCredentials login token n = Credentials.new l t) := by
  cases login <;> cases token <;> simp [basicCredentials, Credentials.anon, Credentials.new]

/-- Non-vacuity: a whole session of README.md. -/
example : (botMain quickStartOnMsg ⟨.simd .avx2 5, true⟩ ⟨Credentials.anon 11824, 1000, ⟨some 2, 10, 3, 50⟩⟩ [b!"#forsen"]
      (sampleWorld ([.tlsLoaded, .opened] ++ goodReplies ++ [.accept 100, .line (b!"PING :x"), .accept 100]))).1 =
      .error .dropped ∧
    written (botMain quickStartOnMsg ⟨.simd .avx2 5, true⟩ ⟨Credentials.anon 11824, 1000, ⟨some 2, 10, 3, 50⟩⟩ [b!"#forsen"]
      (sampleWorld ([.tlsLoaded, .opened] ++ goodReplies ++ [.accept 100, .line (b!"PING :x"), .accept 100]))).2.log =
      b!"CAP REQ :twitch.tv/commands twitch.tv/tags twitch.tv/membership\r\nPASS oauth:just_a_lil_guy\r\nNICK justinfan11824\r\nJOIN #forsen\r\nPONG :x\r\n" := by
  decide +kernel

/-- The hypotheses of `C62_before_next` and `C62_served` are met. -/
example := fun b => C62_quick_start b [b!"#c", b!"d"] (sampleWorld sampleChat) rfl (plain_lines (by decide +kernel)).1
  (plain_lines (b := b) (by decide +kernel)).2
example := fun b => C62_served b [b!"#c", b!"d"] (sampleWorld sampleChat) rfl rfl (plain_lines (by decide +kernel)).1
  (plain_lines (b := b) (by decide +kernel)).2

/-! ## C63: what ends the loop -/

/-- C63: a line that is not a message of its kind ends the loop, after the answers to the lines before it; what the
network has for the client after that stays unread. -/
theorem C63_gives_up (b : Build) (channels : List Bytes) (w : World) (h0 : w.client.scratch = [])
    (hc : w.client.closed = false) (hr : AllReadable b w.script) (ho : ∀ s, .line s ∈ w.script → Orderly s)
    (ss : List Bytes) (s : Bytes) (rest : List Answer) (e : BotError)
    (hs : Served false ss w.script (.line s :: rest)) (he : react false s = .giveUp e) :
    ∃ ev w', w'.log = w.log ++ ev ∧ w'.script = rest ∧ taken ev = ss ++ [s] ∧ written ev = answers false ss ∧
      runBot quickStartOnMsg b channels w = (.ok e, w') := by
  obtain ⟨ev, w', a1, a2, a3, a4, a5, a6, a7⟩ := runBot_served (channels := channels)
    (quickStart_handles w.client.config) hs w rfl h0 rfl hc hr ho
  have hm : Answer.line s ∈ w.script := a4.subset (by simp)
  refine ⟨ev ++ [.took s], { w' with log := w'.log ++ [.took s], script := rest }, by simp [a1], rfl,
    by rw [taken_append, a5]; rfl, by rw [written_append, a6]; simp [written], ?_⟩
  have hround := botRound_line (channels := channels) (quickStart_handles w.client.config) w' (by rw [a2])
    (by rw [a2]; exact hc) a3 (hr s hm) (ho s hm)
  rw [he] at hround
  rw [a7]
  unfold runBot
  rw [botLoop, act_bind, hround]
  rfl

theorem react_untagged : react false (b!":q!q@q PRIVMSG #c :hi") = .giveUp .parse := by
  have hl : line (b!":q!q@q PRIVMSG #c :hi") = some ⟨[], some (b!"q!q@q"), b!"PRIVMSG", some (b!"#c"), some (b!":hi")⟩ := by
    decide +kernel
  have hp := plain_lines (b := ⟨.scalar, true⟩) (script := [.line (b!":q!q@q PRIVMSG #c :hi")]) (by decide +kernel)
  unfold react
  rw [hl]
  simp only []
  rw [if_pos]
  rcases typed_cases (hp.1 _ List.mem_cons_self) (hp.2 _ List.mem_cons_self) hl with ⟨M, hM, _⟩ | ⟨_, h⟩
  · have : (parsed ⟨.scalar, true⟩ (b!":q!q@q PRIVMSG #c :hi")).asTyped = .ok none := by decide +kernel
    rw [this] at hM
    simp at hM
  · exact h

/-- C63 as stated is false: a chat line without tags is a line of the protocol, and it ends the loop although the
connection is fine; the PING after it is not answered. -/
theorem C63_negation (b : Build) (channels : List Bytes) :
    (runBot quickStartOnMsg b channels (sampleWorld [.line (b!":q!q@q PRIVMSG #c :hi"), .line (b!"PING :x"), .accept 100])).1 =
      .ok .parse ∧
    (runBot quickStartOnMsg b channels (sampleWorld [.line (b!":q!q@q PRIVMSG #c :hi"), .line (b!"PING :x"), .accept 100])).2.script =
      [.line (b!"PING :x"), .accept 100] := by
  have hp := plain_lines (b := b) (script := [.line (b!":q!q@q PRIVMSG #c :hi"), .line (b!"PING :x"), .accept 100])
    (by decide +kernel)
  have hre := react_untagged
  obtain ⟨ev, w', h1, h2, h3, h4, h5⟩ := C63_gives_up b channels
    (sampleWorld [.line (b!":q!q@q PRIVMSG #c :hi"), .line (b!"PING :x"), .accept 100]) rfl rfl hp.1 hp.2 [] _ _ _
    (.done _) hre
  rw [h5]
  exact ⟨rfl, h2⟩

/-- C63: the end of the stream ends the loop: it does not connect again. -/
theorem C63_closed (b : Build) (channels : List Bytes) (w : World) (h0 : w.client.scratch = [])
    (hc : w.client.closed = false) (hr : AllReadable b w.script) (ho : ∀ s, .line s ∈ w.script → Orderly s)
    (ss : List Bytes) (rest : List Answer) (hs : Served false ss w.script (.eof :: rest)) :
    ∃ ev w', w'.log = w.log ++ ev ∧ w'.script = rest ∧ taken ev = ss ∧ written ev = answers false ss ∧
      runBot quickStartOnMsg b channels w = (.ok (.recv .streamClosed), w') := by
  obtain ⟨ev, w', a1, a2, a3, a4, a5, a6, a7⟩ := runBot_served (channels := channels)
    (quickStart_handles w.client.config) hs w rfl h0 rfl hc hr ho
  refine ⟨ev, { w' with script := rest, client := { w'.client with closed := true } }, a1, rfl, a5, a6, ?_⟩
  rw [a7]
  unfold runBot
  rw [botLoop, act_bind]
  unfold botRound
  rw [act_bind, recv_run, if_neg (by rw [a2, hc]; simp), a3]
  rfl

/-- Non-vacuity: the loop after `served_sample` ends because the stream does. -/
example (b : Build) : (runBot quickStartOnMsg b [] (sampleWorld
    [.line (b!":t CAP * ACK"), .line (b!"PING :x"), .accept 4, .accept 100, .eof])).1 = .ok (.recv .streamClosed) := by
  have hp := plain_lines (b := b)
    (script := [.line (b!":t CAP * ACK"), .line (b!"PING :x"), .accept 4, .accept 100, .eof]) (by decide +kernel)
  obtain ⟨ev, w', h1, h2, h3, h4, h5⟩ := C63_closed b [] (sampleWorld
    [.line (b!":t CAP * ACK"), .line (b!"PING :x"), .accept 4, .accept 100, .eof]) rfl rfl hp.1 hp.2 _ _
    (served_sample false)
  rw [h5]

/-- C63, the part that holds: if every line taken is a message of its kind, then the loop ends only because the program
was stopped, the connection failed or ended, or `reconnect` gave up or panicked. -/
theorem C63_partial (b : Build) (cfg : Config) (channels : List Bytes) (greets : Bool) (ev : List Effect)
    (r : Except Stop BotError) (h : BotLog b cfg channels greets ev r)
    (hm : ∀ s ∈ taken ev, ∃ l M, line s = some l ∧ MessageOf l M) :
    Silence r ∨ Interrupted r ∨ (∃ e, r = .ok (.reconnect e)) ∨ (∃ f, r = .error (.panic f)) := by
  induction h with
  | silence hs => exact .inl hs
  | ignored _ _ ih => exact ih fun s hs => hm s (by rw [taken]; exact List.mem_cons_of_mem _ hs)
  | @giveUp s e hre =>
    obtain ⟨l, M, hl, hM⟩ := hm s (by rw [taken]; exact List.mem_cons_self)
    rw [react_typed hl hM] at hre
    split at hre
    · simp at hre
    · split at hre
      · simp at hre
      · split at hre <;> simp at hre
  | answered _ _ _ ih =>
    exact ih fun s hs => hm s (by rw [taken, taken_append]; simp [hs])
  | interrupted _ _ hi => exact .inr (.inl hi)
  | rejoined _ _ _ _ ih =>
    exact ih fun s hs => hm s (by rw [taken, taken_append, taken_append]; simp [hs])
  | notJoined _ _ _ hi => exact .inr (.inl hi)
  | @lost s es x r hre hd hx =>
    rcases x with e | e | u
    · simp only [gaveUp, Option.some.injEq] at hx
      subst hx
      cases e with
      | panic f => exact .inr (.inr (.inr ⟨f, rfl⟩))
      | dropped => exact .inl trivial
      | elapsed n => exact .inl trivial
    · simp only [gaveUp, Option.some.injEq] at hx
      subst hx
      exact .inr (.inr (.inl ⟨e, rfl⟩))
    · simp [gaveUp] at hx

/-- Non-vacuity: a log whose lines are messages of their kind. -/
example (b : Build) (cfg : Config) : BotLog b cfg [] false
      [.took (b!":t CAP * ACK"), .took (b!"PING :x"), .wrote (b!"PONG"), .wrote (b!" :x\r\n")] (.ok (.recv .streamClosed)) ∧
    ∀ s ∈ taken [.took (b!":t CAP * ACK"), .took (b!"PING :x"), .wrote (b!"PONG"), .wrote (b!" :x\r\n")],
      ∃ l M, line s = some l ∧ MessageOf l M := by
  refine ⟨.ignored (react_cap false) (BotLog.answered (ws := [.wrote (b!"PONG"), .wrote (b!" :x\r\n")]) (ev := [])
    (react_sample false) ⟨by simp, by decide +kernel⟩ (.silence trivial)), ?_⟩
  intro s hs
  have : s = b!":t CAP * ACK" ∨ s = b!"PING :x" := by simpa [taken] using hs
  rcases this with rfl | rfl
  · refine ⟨⟨[], some (b!"t"), b!"CAP", none, some (b!"* ACK")⟩, .other ⟨false, [], ⟨[], none, .ping, none, none⟩⟩, by decide +kernel, ?_⟩
    show (b!"CAP") ∉ typedCommands
    decide +kernel
  · exact ⟨⟨[], none, b!"PING", none, some (b!":x")⟩, .ping ⟨some (b!"x")⟩, by decide +kernel, rfl, ⟨by decide +kernel⟩⟩

end Tmi.Props
