/-
Property C99: with a server that keeps to the protocol, only the connection ends the documented programs.
-/
import Verif.Proofs.Server

namespace Tmi.Props
open Tmi.Model Tmi.Spec Tmi.Proofs

/-! ## C99: with a server that keeps to the protocol, only the connection ends the documented programs -/

theorem ends_of_log {b : Build} {cfg : Config} {channels : List Bytes} {greets : Bool} {ev : List Effect}
    {r : Except Stop BotError} (h : BotLog b cfg channels greets ev r)
    (hm : ∀ s ∈ taken ev, ∃ l M, line s = some l ∧ MessageOf l M) : ConnectionLost r := by
  rcases C63_partial b cfg channels greets ev r h hm with h1 | h1 | ⟨e, rfl⟩ | ⟨f, rfl⟩
  · rcases r with (_ | _ | _) | (_ | _ | _) | _ | _ | _ <;> first | trivial | exact h1.elim
  · rcases r with (_ | _ | _) | _ | _ | (_ | _ | _) | _ <;> first | trivial | exact h1.elim
  · trivial
  · exact C62_panic b cfg channels greets ev f h

theorem loop_ends {handler : Privmsg → Act (Except SendError Unit)} {b : Build} {cfg : Config} {channels : List Bytes}
    {greets : Bool} (hh : Handles handler cfg greets) (ht : ∀ p w, TakesLines (handler p) w) (w : World)
    (h0 : w.client.scratch = []) (h1 : w.client.config = cfg) (hs : FromServer b w.script) :
    ConnectionLost (runBot handler b channels w).1 := by
  obtain ⟨k1, k2, k3⟩ := fromServer_lines hs
  obtain ⟨ev, e1, e2⟩ := loop_ok (channels := channels) hh _ w (Nat.lt_succ_self _) h0 h1 k1 k2
  obtain ⟨ev', used, e3, e4, e5⟩ := TakesLines.botLoop ht b channels (w.script.length + 1) w
  rw [e1] at e3
  cases List.append_cancel_left e3
  refine ends_of_log e2 fun s hs' => k3 s ?_
  rw [e4]
  exact List.mem_append_left _ (e5.subset (List.mem_map_of_mem hs'))

/-- C99: whatever happens, if every line that arrives is one that a server sends, then the loop ends only if the program
is stopped, the connection fails or ends, or `reconnect` gives up (or panics because its delay overflows): no message of
the server makes it give up. -/
theorem C99_ends (b : Build) (channels : List Bytes) (w : World) (h0 : w.client.scratch = []) (hs : FromServer b w.script) :
    ConnectionLost (runBot quickStartOnMsg b channels w).1 ∧ ConnectionLost (runBot onMsg b channels w).1 :=
  ⟨loop_ends (quickStart_handles _) TakesLines.quickStart w h0 rfl hs, loop_ends (onMsg_handles _) TakesLines.onMsg w h0 rfl hs⟩

theorem session_ends {handler : Privmsg → Act (Except SendError Unit)} {b : Build} {cfg : Config} {channels : List Bytes}
    {greets : Bool} (hh : Handles handler cfg greets) (ht : ∀ p w, TakesLines (handler p) w) (w : World)
    (hs : FromServer b w.script) {e : BotError} (he : (botMain handler b cfg channels w).1 = .ok (.ok e)) :
    ConnectionLost (.ok e) := by
  obtain ⟨k1, k2, k3⟩ := fromServer_lines hs
  obtain ⟨ev, e1, e2⟩ := session (channels := channels) hh w k1 k2
  have htk : TakesLines (botMain handler b cfg channels) w := by
    unfold botMain
    refine .bind (.connect _ _ _) fun r _ => ?_
    split
    · exact .pure _ _
    · refine .bind (.send (.joinAll channels) _) fun r _ => ?_
      split
      · exact .pure _ _
      · exact .bind (.botLoop ht b channels _ _) fun r _ => .pure _ _
  obtain ⟨ev', used, e3, e4, e5⟩ := htk
  rw [e1] at e3
  cases List.append_cancel_left e3
  rw [he] at e2
  generalize hr : (Except.ok (.ok e) : Except Stop (Except ConnectError BotError)) = r at e2
  cases e2 with
  | stopped => cases hr
  | refused => cases hr
  | @notJoined es ws r h ho hw hi =>
    rcases r with _ | e'
    · cases hr
    · cases hr
      rcases e with _ | _ | (_ | _ | _) | _ <;> first | trivial | exact hi.elim
  | @ran es ws ev r h ho hw hb =>
    rcases r with _ | e'
    · cases hr
    · cases hr
      refine ends_of_log hb fun s hs' => k3 s ?_
      rw [e4]
      refine List.mem_append_left _ (e5.subset (List.mem_map_of_mem ?_))
      rw [taken_append, taken_append]
      exact List.mem_append_right _ (List.mem_append_right _ hs')

/-- C99, the programs from the start: once connected, they end only with the connection. -/
theorem C99_session (b : Build) (cfg : Config) (channels : List Bytes) (w : World) (hs : FromServer b w.script) (e : BotError) :
    ((botMain quickStartOnMsg b cfg channels w).1 = .ok (.ok e) → ConnectionLost (.ok e)) ∧
    ((botMain onMsg b cfg channels w).1 = .ok (.ok e) → ConnectionLost (.ok e)) :=
  ⟨session_ends (quickStart_handles cfg) TakesLines.quickStart w hs, session_ends (onMsg_handles cfg) TakesLines.onMsg w hs⟩

theorem attended {handler : Privmsg → Act (Except SendError Unit)} {b : Build} {cfg : Config} {channels : List Bytes}
    {greets : Bool} (hh : Handles handler cfg greets) {us : List Utterance} {script rest : List Answer}
    (h : Attends b cfg channels greets us script rest) : ∀ (w : World), w.script = script →
    w.client = ⟨false, [], cfg⟩ → (∀ u ∈ us, u.Ok) → AllReadable b w.script →
    (∀ s, .line s ∈ w.script → Orderly s) →
    ∃ ev w', w'.log = w.log ++ ev ∧ w'.client = w.client ∧ w'.script = rest ∧ Did b cfg channels greets us ev ∧
      runBot handler b channels w = runBot handler b channels w' := by
  induction h with
  | done rest => exact fun w hs _ _ _ _ => ⟨[], w, by simp, rfl, hs, .done, rfl⟩
  | @next u us script mid rest hu ha hrest ih =>
    intro w hs hcl huok hr ho
    have hm : Answer.line u.line ∈ w.script := by rw [hs]; simp
    have hsuf : script <:+ w.script := by rw [hs]; exact List.suffix_cons _ _
    have hround := botRound_line (channels := channels) hh w (by rw [hcl]) (by rw [hcl]) hs (hr _ hm) (ho _ hm)
    obtain ⟨l, M, -, -, -, hre⟩ := utterance_typed b u (huok u (by simp)) (hr _ hm)
    have hre := hre greets
    unfold answerBytes at ha
    cases hans : answerTo greets u with
    | none =>
      rw [hans] at ha hre
      have hre' : react greets u.line = .ignore := by
        cases u <;> first | exact hre | exact absurd rfl hu
      rw [hre'] at hround
      have hmid : script = mid := by
        cases ha with
        | done => rfl
        | more hd => exact absurd rfl hd
      have hstep := runBot_step hh w _ (by rw [hcl]) (by rw [hcl]) hr ho hround
      obtain ⟨ev, w', e1, e2, e3, e4, e5⟩ := ih { w with log := w.log ++ [.took u.line], script := script } hmid hcl
        (fun u' h' => huok u' (by simp [h'])) (fun s hs => hr s (hsuf.subset hs)) (fun s hs => ho s (hsuf.subset hs))
      refine ⟨.took u.line :: ([] ++ ev), w', by rw [e1]; simp, e2, e3, .next hu ⟨by simp, ?_⟩ e4, hstep.trans e5⟩
      unfold answerBytes
      rw [hans]
      rfl
    | some c =>
      rw [hans] at ha hre
      have hre' : react greets u.line = .send c := by
        cases u <;> first | exact hre | exact absurd rfl hu
      rw [hre'] at hround
      have hraw := react_not_raw hre'
      obtain ⟨⟨⟨ws, l1, l2, l3, l4⟩, hcfg, hcls, hscr, hnp, herr, hfull⟩, hs0⟩ := send_effect c hraw
        { w with log := w.log ++ [.took u.line], script := script }
      have hok := send_accepts c hraw { w with log := w.log ++ [.took u.line], script := script } (rest := mid)
        (by simp only [hcl, List.nil_append]; exact ha)
      simp only [hcl, List.nil_append] at l3 l4
      have hr1 : perform b channels (.send c) { w with log := w.log ++ [.took u.line], script := script }
          = (.ok none, (c.send { w with log := w.log ++ [.took u.line], script := script }).2) := by
        show sendQ c.send _ = _
        unfold sendQ
        rw [act_bind]
        generalize c.send { w with log := w.log ++ [.took u.line], script := script } = res at *
        obtain ⟨r, w'⟩ := res
        have : r = .ok (.ok ()) := hok.1
        subst this
        rfl
      rw [hr1] at hround
      have hstep := runBot_step hh w _ (by rw [hcl]) (by rw [hcl]) hr ho hround
      have l4 := l4 (by rw [← hcl]; exact hok.1)
      have hmid := hok.2
      clear hok hr1 hround l3
      generalize hw2 : (c.send { w with log := w.log ++ [.took u.line], script := script }).2 = w2 at *
      have hcl2 : w2.client = ⟨false, [], cfg⟩ := by
        have a1 : w2.client.config = cfg := by rw [hcfg]; simp only [hcl]
        have a2 : w2.client.closed = false := by rw [hcls]; simp only [hcl]
        revert a1 a2 hs0
        cases w2.client
        intro a1 a2 a3
        simp only [] at a1 a2 a3
        rw [a1, a2, a3]
      have hsuf2 : w2.script <:+ w.script := hscr.trans hsuf
      obtain ⟨ev, w', e1, e2, e3, e4, e5⟩ := ih w2 hmid hcl2 (fun u' h' => huok u' (by simp [h']))
        (fun s hs => hr s (hsuf2.subset hs)) (fun s hs => ho s (hsuf2.subset hs))
      refine ⟨.took u.line :: (ws ++ ev), w', by rw [e1, l1]; simp, e2.trans (hcl2.trans hcl.symm), e3, .next hu ⟨l2, ?_⟩ e4,
        hstep.trans e5⟩
      unfold answerBytes
      rw [hans]
      exact l4
  | @again us script mid mid' rest n hd ha hrest ih =>
    intro w hs hcl huok hr ho
    have hm : Answer.line Utterance.reconnect.line ∈ w.script := by rw [hs]; simp
    have hsuf : script <:+ w.script := by rw [hs]; exact List.suffix_cons _ _
    have hround := botRound_line (channels := channels) hh w (by rw [hcl]) (by rw [hcl]) hs (hr _ hm) (ho _ hm)
    obtain ⟨l, M, -, -, -, hre⟩ := utterance_typed b .reconnect trivial (hr _ hm)
    rw [hre greets] at hround
    simp only [] at hround
    generalize hw1 : ({ w with log := w.log ++ [.took Utterance.reconnect.line], script := script } : World) = w1 at hround
    have hcl1 : w1.client = ⟨false, [], cfg⟩ := by rw [← hw1]; exact hcl
    have hs1 : w1.script = script := by rw [← hw1]
    have hl1 : w1.log = w.log ++ [.took Utterance.reconnect.line] := by rw [← hw1]
    have hr1 : AllReadable b w1.script := by rw [hs1]; exact fun s hs => hr s (hsuf.subset hs)
    obtain ⟨w2, h1, h2⟩ := (C41_reconnect b w1 hr1.parse none mid).2 ⟨n, by rw [hcl1, hs1]; exact hd⟩
    have eff := reconnectLoop_effect b w1.client.config (w1.script.length + 1)
      w1.client.config.backoff.maxTries w1.client.config.backoff.initialDelay .timeout w1
    have hopen := reconnect_open b w1.client.config (w1.script.length + 1)
      w1.client.config.backoff.maxTries w1.client.config.backoff.initialDelay .timeout w1
    unfold Post at hopen
    rw [← reconnect_eq, h1] at eff hopen
    obtain ⟨⟨es, k1, -⟩, lc, lsc, l0⟩ := eff
    have hcl2 : w2.client = ⟨false, [], cfg⟩ := by
      have a1 : w2.client.config = cfg := by rw [lc, hcl1]
      have a2 : w2.client.scratch = [] := l0 rfl
      have a3 : w2.client.closed = false := hopen _ rfl rfl
      revert a1 a2 a3
      cases w2.client
      intro a1 a2 a3
      simp only [] at a1 a2 a3
      rw [a1, a2, a3]
    obtain ⟨⟨⟨ws, m1, m2, m3, m4⟩, hcfg, hcls, hscr, hnp, herr, hfull⟩, hs0⟩ := send_effect (.joinAll channels) (by simp) w2
    have hok := send_accepts (.joinAll channels) (by simp) w2 (rest := mid')
      (by simp only [hcl2, List.nil_append, h2]; exact ha)
    simp only [hcl2, List.nil_append] at m3 m4
    have hp : perform b channels .rejoin w1 = (.ok none, ((Cmd.joinAll channels).send w2).2) := by
      unfold perform
      simp only []
      rw [act_bind, h1]
      show sendQ (Cmd.joinAll channels).send w2 = _
      unfold sendQ
      rw [act_bind]
      generalize (Cmd.joinAll channels).send w2 = res at *
      obtain ⟨r, w'⟩ := res
      have : r = .ok (.ok ()) := hok.1
      subst this
      rfl
    rw [hp] at hround
    have hstep := runBot_step hh w _ (by rw [hcl]) (by rw [hcl]) hr ho hround
    have m4 := m4 hok.1
    have hmid := hok.2
    clear hok hp hround m3
    generalize ((Cmd.joinAll channels).send w2).2 = w3 at *
    have hcl3 : w3.client = ⟨false, [], cfg⟩ := by
      have a1 : w3.client.config = cfg := by rw [hcfg, hcl2]
      have a2 : w3.client.closed = false := by rw [hcls, hcl2]
      revert a1 a2 hs0
      cases w3.client
      intro a1 a2 a3
      simp only [] at a1 a2 a3
      rw [a1, a2, a3]
    have hsuf3 : w3.script <:+ w.script := (hscr.trans lsc).trans (hs1 ▸ hsuf)
    obtain ⟨ev, w', e1, e2, e3, e4, e5⟩ := ih w3 hmid hcl3 (fun u' h' => huok u' (by simp [h']))
      (fun s hs => hr s (hsuf3.subset hs)) (fun s hs => ho s (hsuf3.subset hs))
    refine ⟨.took Utterance.reconnect.line :: (es ++ (ws ++ ev)), w', by rw [e1, m1, k1, hl1]; simp,
      e2.trans (hcl3.trans hcl.symm), e3, .again ⟨w1, by rw [hcl1], by rw [hcl1], hr1, by rw [h1], by rw [h1]; exact k1⟩ ⟨m2, m4⟩ e4, hstep.trans e5⟩

/-- C99: as long as the server sends, the network accepts the answers, and `reconnect` succeeds when the server asks for
it, the programs take everything that is sent, in order, answer each before they take the next, follow every RECONNECT
by connecting and joining again, and go on with what happens then. -/
theorem C99_lifetime (b : Build) (channels : List Bytes) (w : World) (h0 : w.client.scratch = []) (hc : w.client.closed = false)
    (hs : FromServer b w.script) (us : List Utterance) (hu : ∀ u ∈ us, u.Ok) (rest : List Answer) :
    (Attends b w.client.config channels false us w.script rest → ∃ ev w', w'.log = w.log ++ ev ∧ w'.client = w.client ∧
      w'.script = rest ∧ Did b w.client.config channels false us ev ∧
      runBot quickStartOnMsg b channels w = runBot quickStartOnMsg b channels w') ∧
    (Attends b w.client.config channels w.client.config.credentials.token.isSome us w.script rest →
      ∃ ev w', w'.log = w.log ++ ev ∧ w'.client = w.client ∧ w'.script = rest ∧
      Did b w.client.config channels w.client.config.credentials.token.isSome us ev ∧
      runBot onMsg b channels w = runBot onMsg b channels w') := by
  obtain ⟨k1, k2, -⟩ := fromServer_lines hs
  have hcl : w.client = ⟨false, [], w.client.config⟩ := by
    revert h0 hc
    cases w.client
    intro a1 a2
    simp only [] at a1 a2
    rw [a1, a2]
  have e : (!w.client.config.credentials.isAnon) = w.client.config.credentials.token.isSome := by
    unfold Credentials.isAnon
    cases w.client.config.credentials.token <;> rfl
  refine ⟨fun h => attended (quickStart_handles _) h w rfl hcl hu k1 k2, fun h => ?_⟩
  have hh := onMsg_handles w.client.config
  rw [e] at hh
  exact attended hh h w rfl hcl hu k1 k2

/-- C99: on one connection, what was taken is what the server sent, and what was written is the answers to it. -/
theorem C99_answers (b : Build) (cfg : Config) (channels : List Bytes) (greets : Bool) (us : List Utterance) (ev : List Effect)
    (h : Did b cfg channels greets us ev) (hn : .reconnect ∉ us) :
    taken ev = us.map Utterance.line ∧ written ev = us.flatMap (answerBytes greets) := by
  induction h with
  | done => exact ⟨rfl, rfl⟩
  | @next u us ws ev hu hw h ih =>
    obtain ⟨i1, i2⟩ := ih fun h' => hn (by simp [h'])
    constructor
    · rw [taken, taken_append, taken_writes hw.1, i1]; rfl
    · rw [written_took_cons, written_append, hw.2, i2]; rfl
  | again => exact absurd List.mem_cons_self hn

/-! ### Samples -/

/-- Bob asks the bot. -/
def yoChat : Chat := { servedChat with text := b!"!yo bot", action := false, id := b!"m2" }

theorem yoChat_ok : yoChat.Ok :=
  { servedChat_ok with
    ids := by unfold Unescaped; decide
    text := by rintro - ⟨body, h⟩; exact absurd (List.cons.inj h).1 (by decide) }

/-- What the server sends in the sample. -/
def sampleUtterances : List Utterance :=
  [.ping (b!"tmi.twitch.tv"), .spoken (.said (.chat yoChat)), .spoken (.notified sampleWhisper),
   .reply (b!"353") (b!"bot = #c :ann bob"), .reconnect, .spoken (.said sampleMute), .ping (b!"x y")]

theorem sampleUtterances_ok : ∀ u ∈ sampleUtterances, u.Ok ∧ checkLine u.line = true := by
  simp only [sampleUtterances, List.mem_cons, List.not_mem_nil, or_false, forall_eq_or_imp, forall_eq]
  exact ⟨⟨trivial, by decide +kernel⟩, ⟨yoChat_ok, by decide +kernel⟩,
    ⟨(sampleNotified_ok sampleWhisper (by simp)).1, by decide +kernel⟩,
    ⟨by unfold Utterance.Ok; decide, by decide +kernel⟩, ⟨trivial, by decide +kernel⟩,
    ⟨(samples_ok sampleMute (by simp)).1, by decide +kernel⟩, ⟨trivial, by decide +kernel⟩⟩

/-- Connecting again: the first attempt to open a connection fails. -/
def sampleRedial : List Answer := [.slept, .openFailed ⟨.timedOut, 1⟩, .slept, .opened] ++ goodReplies

/-- What happens on the network: the answers are taken in pieces. -/
def sampleLife : List Answer :=
  [.line (b!"PING :tmi.twitch.tv"), .accept 4, .accept 100,
   .line yoChat.line, .accept 100,
   .line sampleWhisper.line,
   .line (b!":tmi.twitch.tv 353 bot = #c :ann bob"),
   .line (b!":tmi.twitch.tv RECONNECT")] ++ (sampleRedial ++
  [.accept 5, .accept 100, .line sampleMute.line, .line (b!"PING :x y"), .accept 100, .eof])

theorem sampleLife_from (b : Build) : FromServer b sampleLife := by
  intro s hs
  have hm : s ∈ sampleLife.filterMap fun | .line s => some s | _ => none := List.mem_filterMap.2 ⟨_, hs, rfl⟩
  have hin : ∀ s ∈ sampleLife.filterMap fun | .line s => some s | _ => none,
      s ∈ ((Utterance.reply (b!"CAP") (b!"* ACK :twitch.tv/commands")).line ::
        (Utterance.reply (b!"001") (b!"forsen :Welcome, GLHF!")).line :: sampleUtterances.map Utterance.line) := by
    decide +kernel
  rcases List.mem_cons.1 (hin s hm) with rfl | h
  · exact ⟨readable_of (by decide +kernel) b, _, by unfold Utterance.Ok; decide, rfl⟩
  rcases List.mem_cons.1 h with rfl | h
  · exact ⟨readable_of (by decide +kernel) b, _, by unfold Utterance.Ok; decide, rfl⟩
  · obtain ⟨u, hu, rfl⟩ := List.mem_map.1 h
    exact ⟨readable_of (sampleUtterances_ok u hu).2 b, u, (sampleUtterances_ok u hu).1, rfl⟩

/-- The build of the samples. -/
def sampleBuild : Build := ⟨.simd .sse2 5, true⟩

theorem redial_ok {b : Build} {cfg : Config} {script rest : List Answer} (hr : AllReadable b script)
    (h1 : (reconnect b ⟨⟨false, [], cfg⟩, [], script⟩).1 = .ok (.ok ()))
    (h2 : (reconnect b ⟨⟨false, [], cfg⟩, [], script⟩).2.script = rest) :
    ∃ n, Reconnects (parsed b) cfg.backoff (hello cfg.credentials) 0 cfg.backoff.maxTries .timeout [] script none rest n := by
  refine (C41_reconnect b ⟨⟨false, [], cfg⟩, [], script⟩ hr.parse none rest).1 ?_
  generalize reconnect b ⟨⟨false, [], cfg⟩, [], script⟩ = res at *
  obtain ⟨r, w'⟩ := res
  exact ⟨w', by rw [show r = _ from h1], h2⟩

theorem accepts_once {data : Bytes} {n : Nat} (rest : List Answer) (hd : data ≠ []) (hn : data.length ≤ n) :
    Accepts data (.accept n :: rest) rest := by
  have : data.drop n = [] := List.drop_eq_nil_of_le hn
  refine .more hd (by rintro rfl; exact hd (List.eq_nil_of_length_eq_zero (by omega))) ?_
  rw [this]
  exact .done _

/-- Non-vacuity: the server sends all of it, and the network accepts the answers. -/
theorem sampleLife_attends : Attends sampleBuild sampleConfig [b!"c", b!"d"] true sampleUtterances sampleLife [.eof] := by
  obtain ⟨n, hn⟩ := redial_ok (b := sampleBuild) (cfg := sampleConfig) (script := sampleRedial ++
      [.accept 5, .accept 100, .line sampleMute.line, .line (b!"PING :x y"), .accept 100, .eof])
    (rest := [.accept 5, .accept 100, .line sampleMute.line, .line (b!"PING :x y"), .accept 100, .eof])
    (fun s hs => (sampleLife_from sampleBuild s (List.mem_append_right _ hs)).1) (by decide +kernel) (by decide +kernel)
  refine .next (by simp) (.more (by decide) (by decide) (.more (by decide) (by decide) (.done _))) ?_
  refine .next (u := .spoken (.said (.chat yoChat))) (by simp) (accepts_once _ (by decide +kernel) (by decide +kernel)) ?_
  refine .next (u := .spoken (.notified sampleWhisper)) (by simp) (.done _) ?_
  refine .next (u := .reply (b!"353") (b!"bot = #c :ann bob")) (by simp) (.done _) ?_
  refine .again hn (.more (by decide +kernel) (by decide) (accepts_once _ (by decide +kernel) (by decide +kernel))) ?_
  refine .next (u := .spoken (.said sampleMute)) (by simp) (.done _) ?_
  exact .next (by simp) (.more (by decide) (by decide) (.done _)) (.done _)

example := (C99_lifetime sampleBuild [b!"c", b!"d"] (sampleWorld sampleLife) rfl rfl (sampleLife_from _) sampleUtterances
  (fun u hu => (sampleUtterances_ok u hu).1) [.eof]).2 sampleLife_attends

example := C99_ends sampleBuild [b!"c", b!"d"] (sampleWorld sampleLife) rfl (sampleLife_from _)

/-- What was sent, and how the program ended. -/
example : (runBot onMsg sampleBuild [b!"c", b!"d"] (sampleWorld sampleLife)).1 = .ok (.recv .streamClosed) ∧
    written (runBot onMsg sampleBuild [b!"c", b!"d"] (sampleWorld sampleLife)).2.log =
      b!"PONG :tmi.twitch.tv\r\n" ++ b!"@reply-parent-msg-id=m2 PRIVMSG #c :yo\r\n" ++ hello sampleConfig.credentials ++
      b!"JOIN #c,#d\r\n" ++ b!"PONG :x y\r\n" := by decide +kernel

/-- Non-vacuity of `C99_session`: the whole program. -/
example : FromServer sampleBuild ([.tlsLoaded, .opened] ++ goodReplies ++ (.accept 100 :: sampleLife)) ∧
    (botMain onMsg sampleBuild sampleConfig [b!"c", b!"d"]
      (sampleWorld ([.tlsLoaded, .opened] ++ goodReplies ++ (.accept 100 :: sampleLife)))).1 = .ok (.ok (.recv .streamClosed)) := by
  refine ⟨fun s hs => ?_, by decide +kernel⟩
  apply sampleLife_from
  have hgood : ∀ a ∈ goodReplies, a ∈ sampleLife := fun a ha =>
    List.mem_append_right _ (List.mem_append_left _ (List.mem_append_right _ ha))
  rcases List.mem_append.1 hs with h | h
  · rcases List.mem_append.1 h with h | h
    · simp at h
    · exact hgood _ h
  · rcases List.mem_cons.1 h with h | h
    · cases h
    · exact h

end Tmi.Props
