/-
Property C100: what one client sends is what another client is told.
-/
import Verif.Spec.Relay
import Verif.Props.Server
import Verif.Props.Send

namespace Tmi.Props
open Tmi.Model Tmi.Spec Tmi.Proofs

/-! ## C100: from one client to another -/

theorem channelName_plain {c : Bytes} (h : SP ∉ c ∧ COMMA ∉ c ∧ LF ∉ c) :
    (channelName c).head? = some HASH ∧ SP ∉ channelName c ∧ COMMA ∉ channelName c ∧ LF ∉ channelName c := by
  unfold channelName
  split
  · exact ⟨‹_›, h⟩
  · refine ⟨rfl, ?_, ?_, ?_⟩ <;> simp [h.1, h.2.1, h.2.2] <;> decide

theorem joinWith_avoids {x y : UInt8} (hxy : y ≠ x) : ∀ ps : List Bytes, (∀ p ∈ ps, y ∉ p) → y ∉ joinWith x ps
  | [], _ => by simp [joinWith]
  | [p], h => by simpa [joinWith] using h p (by simp)
  | p :: q :: t, h => by
    have := joinWith_avoids hxy (q :: t) fun p' hp => h p' (by simp [hp])
    rw [joinWith] <;> simp [h p (by simp), hxy, this]

theorem joinWith_head {x y : UInt8} {ps : List Bytes} (h0 : ps ≠ []) (h : ∀ p ∈ ps, p.head? = some y) :
    (joinWith x ps).head? = some y := by
  match ps, h0, h with
  | [p], _, h => simpa [joinWith] using h p (by simp)
  | p :: q :: t, _, h =>
    have hp := h p (by simp)
    cases p with
    | nil => simp at hp
    | cons a p => rw [joinWith] <;> simp_all

theorem join_line {chs : Bytes} (h : chs.head? = some HASH) (hsp : SP ∉ chs) :
    line (b!"JOIN " ++ chs) = some ⟨[], none, b!"JOIN", some chs, none⟩ := by
  rw [show b!"JOIN " ++ chs = b!"JOIN" ++ SP :: chs by simp, line_plain (by decide) (by decide) (by decide) (by decide),
    takeChannel_end h hsp]
  rfl

/-- The server understands from a line what the program asked for. -/
theorem command_requests {c : Cmd} (h : PlainCmd c) : LF ∉ commandLine c ∧ requests (commandLine c) = asked c := by
  cases c with
  | raw s => exact absurd h id
  | privmsg ch t r n =>
    obtain ⟨h1, h2, h3, h4, h5⟩ := h
    constructor
    · cases r <;> cases n <;> simp only [commandLine, List.mem_append, not_or]
      · exact ⟨⟨⟨by decide, h3⟩, by decide⟩, h4⟩
      · rename_i v
        exact ⟨⟨⟨⟨⟨by decide, (h5 v (.inr rfl)).2.2⟩, by decide⟩, h3⟩, by decide⟩, h4⟩
      · rename_i v
        exact ⟨⟨⟨⟨⟨by decide, (h5 v (.inl rfl)).2.2⟩, by decide⟩, h3⟩, by decide⟩, h4⟩
      · rename_i v v'
        exact ⟨⟨⟨⟨⟨⟨⟨by decide, (h5 v (.inl rfl)).2.2⟩, by decide⟩, (h5 v' (.inr rfl)).2.2⟩, by decide⟩, h3⟩, by decide⟩, h4⟩
    · unfold requests
      rw [privmsg_line h1 h2 fun v hv => ⟨(h5 v hv).1, (h5 v hv).2.1⟩]
      simp only [Line.text, Option.map_some, textOf_colon, if_true, asked, Line.tag]
      cases r <;> cases n <;> simp [sentTags, lookup]
  | ping n =>
    refine ⟨by simp only [commandLine, List.mem_append, not_or]; exact ⟨by decide, h⟩, ?_⟩
    unfold requests
    rw [show commandLine (.ping n) = b!"PING" ++ SP :: (COLON :: n) by rfl,
      line_plain (by decide) (by decide) (by decide) (by decide)]
    rfl
  | pong n =>
    cases n with
    | none => exact ⟨by decide, by decide⟩
    | some n =>
      refine ⟨by simp only [commandLine, List.mem_append, not_or]; exact ⟨by decide, h n rfl⟩, ?_⟩
      unfold requests
      rw [show commandLine (.pong (some n)) = b!"PONG" ++ SP :: (COLON :: n) by rfl,
        line_plain (by decide) (by decide) (by decide) (by decide)]
      rfl
  | join c =>
    obtain ⟨h1, h2, h3, h4⟩ := channelName_plain h
    refine ⟨by simp only [commandLine, List.mem_append, not_or]; exact ⟨by decide, h4⟩, ?_⟩
    unfold requests
    rw [show commandLine (.join c) = b!"JOIN " ++ channelName c by rfl, join_line h1 h2]
    simp [fields_none h3, asked]
  | joinAll cs =>
    have hc : ∀ p ∈ cs.map channelName, p.head? = some HASH ∧ SP ∉ p ∧ COMMA ∉ p ∧ LF ∉ p := by
      intro p hp
      obtain ⟨c, hc, rfl⟩ := List.mem_map.1 hp
      exact channelName_plain (h c hc)
    refine ⟨?_, ?_⟩
    · simp only [commandLine, List.mem_append, not_or]
      exact ⟨by decide, joinWith_avoids (by decide) _ fun p hp => (hc p hp).2.2.2⟩
    · cases cs with
      | nil => decide
      | cons c cs =>
        unfold requests
        rw [show commandLine (.joinAll (c :: cs)) = b!"JOIN " ++ joinWith COMMA ((c :: cs).map channelName) by rfl,
          join_line (joinWith_head (by simp) fun p hp => (hc p hp).1)
            (joinWith_avoids (by decide) _ fun p hp => (hc p hp).2.1)]
        simp only [fields_joinWith COMMA _ (by simp : (c :: cs).map channelName ≠ []) fun p hp => (hc p hp).2.2.1]
        simp [asked]

theorem bytes_requests (cmds : List Cmd) (h : ∀ c ∈ cmds, PlainCmd c) :
    (receivedLines (cmds.flatMap commandBytes)).flatMap requests = cmds.flatMap asked := by
  have e : cmds.flatMap commandBytes = (cmds.map commandLine).flatMap fun l => l ++ [CR, LF] := by
    rw [List.flatMap_map]
    induction cmds with
    | nil => rfl
    | cons c cs ih =>
      rw [List.flatMap_cons, List.flatMap_cons, ih fun c' hc => h c' (by simp [hc])]
      have := h c (by simp)
      cases c with
      | raw s => exact absurd this id
      | _ => rfl
  rw [e, (receivedLines_join _).2 fun l hl => by
    obtain ⟨c, hc, rfl⟩ := List.mem_map.1 hl
    exact (command_requests (h c hc)).1, List.flatMap_map]
  clear e
  induction cmds with
  | nil => rfl
  | cons c cs ih =>
    rw [List.flatMap_cons, List.flatMap_cons, ih fun c' hc => h c' (by simp [hc]), (command_requests (h c (by simp))).2]

/-- C100: from what a client sends, however its calls are cut into writes, the server understands what the program asked
for. -/
theorem C100_understood (w w' : World) (cmds : List Cmd) (h0 : w.client.scratch = []) (h : Sent w cmds w')
    (hc : ∀ c ∈ cmds, PlainCmd c) :
    (receivedLines (wire w w')).flatMap requests = cmds.flatMap asked := by
  rw [C36_bytes w w' cmds h0 h]
  exact bytes_requests cmds hc

theorem learnt_of {login : Bytes} {r : Request} {s : Said} {m : Message} (h : Relays login r s) (hm : Heard s m) :
    Learnt login r m := by
  cases r <;> cases s <;> try exact absurd h id
  · obtain ⟨rfl, rfl, rfl, rfl⟩ := h
    obtain ⟨p, rfl, R⟩ := hm
    refine ⟨p, rfl, R.senderLogin, R.channel, by rw [R.isAction, R.text], ?_⟩
    rename_i c
    cases hr : c.reply with
    | none => rw [R.noReply hr]; rfl
    | some q =>
      obtain ⟨q', h1, h2⟩ := R.reply q hr
      rw [h1]
      exact congrArg some h2.messageId
  · obtain ⟨rfl, rfl⟩ := h
    exact hm

theorem told_of (b : Build) (login bytes : Bytes) (reqs : List Request) (says : List Said)
    (hreq : (receivedLines bytes).flatMap requests = reqs)
    (hs : RelaysAll login bytes says) (hok : ∀ s ∈ says, s.Ok ∧ Readable b s.line ∧ LF ∉ s.line) (net : List Net)
    (hn : arrived net = says.flatMap fun s => s.line ++ [CR, LF]) (he : ending net = .open_) :
    ∃ ms : List MsgOwned, (∃ N, ∀ n, N ≤ n → recvPolls b n .new net = ms.map fun m => .ok (.ok m)) ∧
      ms.length = reqs.length ∧
      ∀ (i : Nat) (r : Request) (m : MsgOwned), reqs[i]? = some r → ms[i]? = some m →
        ∃ M, m.asTyped = .ok (some M) ∧ Learnt login r M := by
  obtain ⟨ms, h1, h2, h3⟩ := C96_received b says hok net hn he
  obtain ⟨k1, k2⟩ := hs
  rw [hreq] at k1 k2
  refine ⟨ms, h1, h2.trans k1, fun i r m hr hm => ?_⟩
  have hlt : i < says.length := by
    rw [← h2]
    exact (List.getElem?_eq_some_iff.1 hm).1
  obtain ⟨M, h4, h5⟩ := h3 i _ m (List.getElem?_eq_getElem hlt) hm
  exact ⟨M, h4, learnt_of (k2 i r _ hr (List.getElem?_eq_getElem hlt)) h5⟩

/-- C100: if the server relays what it understands from one client, and that arrives at another, however it is cut into
pieces, then the other receives one message for each thing that the first program asked for, in order, and its getters
report the sender, the channel, the text and the message replied to. -/
theorem C100_relayed (b : Build) (w w' : World) (cmds : List Cmd) (h0 : w.client.scratch = []) (h : Sent w cmds w')
    (hc : ∀ c ∈ cmds, PlainCmd c) (login : Bytes) (says : List Said) (hs : RelaysAll login (wire w w') says)
    (hok : ∀ s ∈ says, s.Ok ∧ Readable b s.line ∧ LF ∉ s.line) (net : List Net)
    (hn : arrived net = says.flatMap fun s => s.line ++ [CR, LF]) (he : ending net = .open_) :
    ∃ ms : List MsgOwned, (∃ N, ∀ n, N ≤ n → recvPolls b n .new net = ms.map fun m => .ok (.ok m)) ∧
      ms.length = (cmds.flatMap asked).length ∧
      ∀ (i : Nat) (r : Request) (m : MsgOwned), (cmds.flatMap asked)[i]? = some r → ms[i]? = some m →
        ∃ M, m.asTyped = .ok (some M) ∧ Learnt login r M :=
  told_of b login (wire w w') _ says (C100_understood w w' cmds h0 h hc) hs hok net hn he

theorem renderTags_value {x : UInt8} {k v : Bytes} : ∀ {ts : List (Bytes × Bytes)}, (k, v) ∈ ts → x ∈ v → x ∈ renderTags ts
  | [], h, _ => by simp at h
  | [(k', v')], h, hx => by
    simp only [List.mem_singleton, Prod.mk.injEq] at h
    simp [renderTags, joinWith, ← h.2, hx]
  | (k', v') :: q :: t, h, hx => by
    rcases List.mem_cons.1 h with h | h
    · cases h
      simp [renderTags, joinWith, hx]
    · have := renderTags_value h hx
      simp only [renderTags, List.map_cons, joinWith] at this ⊢
      simp [this]

theorem answer_plain {u : Utterance} (hu : u.Ok) (hlf : LF ∉ u.line) : ∀ c, answerTo true u = some c →
    PlainCmd c ∧ asked c = greeted u := by
  intro c hc
  cases u with
  | ping token =>
    cases hc
    refine ⟨?_, rfl⟩
    rintro v ⟨⟩
    simp only [Utterance.line, List.mem_append, not_or] at hlf
    exact hlf.2
  | reconnect => cases hc
  | reply c r => cases hc
  | spoken s =>
    cases s with
    | notified s => cases hc
    | said s =>
      cases s with
      | chat c' =>
        simp only [answerTo, true_and] at hc
        by_cases hy : b!"!yo" <+: c'.text
        · rw [if_pos hy] at hc
          cases hc
          have hu : c'.Ok := hu
          have hid := hu.ids c'.id (by simp)
          have hl : LF ∉ c'.line := hlf
          simp only [Chat.line, Frame.line, List.mem_append, not_or] at hl
          refine ⟨⟨rfl, ?_, hl.1.1.2, by decide, ?_⟩, ?_⟩
          · simp [hu.channel]; decide
          · rintro v (⟨⟨⟩⟩ | ⟨⟨⟩⟩)
            exact ⟨hid.2, hid.1, fun hm => hl.1.1.1.1.1.1.1.1.2 (renderTags_value (k := b!"id") (by simp [Chat.tags, presentTags]) hm)⟩
          · simp only [asked, greeted]; rw [if_pos hy]
        · rw [if_neg hy] at hc; cases hc
      | _ => cases hc

/-- What the server understands from the greeting program. -/
theorem greeting_requests {b : Build} {cfg : Config} {channels : List Bytes} {us : List Utterance} {ev : List Effect}
    (h : Did b cfg channels true us ev) (hu : ∀ u ∈ us, u.Ok ∧ LF ∉ u.line ∧ u ≠ .reconnect) :
    (receivedLines (written ev)).flatMap requests = us.flatMap greeted := by
  rw [(C99_answers b cfg channels true us ev h fun h' => (hu _ h').2.2 rfl).2]
  have e : us.flatMap (answerBytes true) = (us.filterMap (answerTo true)).flatMap commandBytes := by
    clear h hu
    induction us with
    | nil => rfl
    | cons u us ih =>
      rw [List.flatMap_cons, ih, List.filterMap_cons, answerBytes]
      cases answerTo true u <;> simp
  rw [e, bytes_requests _ fun c hc => by
    obtain ⟨u, hu', h'⟩ := List.mem_filterMap.1 hc
    exact (answer_plain (hu u hu').1 (hu u hu').2.1 c h').1]
  clear e h
  induction us with
  | nil => rfl
  | cons u us ih =>
    have hu' := hu u (by simp)
    rw [List.flatMap_cons, ← ih fun u hm => hu u (by simp [hm]), List.filterMap_cons]
    cases ha : answerTo true u with
    | some c => simp [(answer_plain hu'.1 hu'.2.1 c ha).2]
    | none =>
      have : greeted u = [] := by
        cases u with
        | spoken s =>
          cases s with
          | notified s => rfl
          | said s =>
            cases s with
            | chat c =>
              simp only [answerTo, true_and] at ha
              by_cases hy : b!"!yo" <+: c.text
              · rw [if_pos hy] at ha; cases ha
              · simp only [greeted]; rw [if_neg hy]
            | _ => rfl
        | _ => rfl
      simp [this]

/-- C100: what the greeting program asks for, on one connection, is `yo` as a reply to each chat message that starts with
`!yo`; and that is what the members of the channel are told. -/
theorem C100_greeting (b b' : Build) (cfg : Config) (channels : List Bytes) (us : List Utterance) (ev : List Effect)
    (h : Did b' cfg channels true us ev) (hu : ∀ u ∈ us, u.Ok ∧ LF ∉ u.line ∧ u ≠ .reconnect)
    (login : Bytes) (says : List Said) (hs : RelaysAll login (written ev) says)
    (hok : ∀ s ∈ says, s.Ok ∧ Readable b s.line ∧ LF ∉ s.line) (net : List Net)
    (hn : arrived net = says.flatMap fun s => s.line ++ [CR, LF]) (he : ending net = .open_) :
    ∃ ms : List MsgOwned, (∃ N, ∀ n, N ≤ n → recvPolls b n .new net = ms.map fun m => .ok (.ok m)) ∧
      ms.length = (us.flatMap greeted).length ∧
      ∀ (i : Nat) (r : Request) (m : MsgOwned), (us.flatMap greeted)[i]? = some r → ms[i]? = some m →
        ∃ M, m.asTyped = .ok (some M) ∧ Learnt login r M :=
  told_of b login (written ev) _ says (greeting_requests h hu) hs hok net hn he

/-! ### Samples -/

theorem relaysAll_two {login bytes : Bytes} {r₁ r₂ : Request} {s₁ s₂ : Said}
    (h : (receivedLines bytes).flatMap requests = [r₁, r₂]) (h₁ : Relays login r₁ s₁) (h₂ : Relays login r₂ s₂) :
    RelaysAll login bytes [s₁, s₂] := by
  unfold RelaysAll
  rw [h]
  refine ⟨rfl, fun i r s hr hs => ?_⟩
  match i, hr, hs with
  | 0, hr, hs => cases hr; cases hs; exact h₁
  | 1, hr, hs => cases hr; cases hs; exact h₂
  | i + 2, hr, _ => simp at hr

/-- Bob joins a channel, answers a ping and replies to the message `m0`. -/
def bobCommands : List Cmd :=
  [.join (b!"c"), .pong (some (b!"x")), .privmsg (b!"#c") (b!"\x01ACTION :) @x #y\x01") (some (b!"m0")) (some (b!"n"))]

theorem bobCommands_plain : ∀ c ∈ bobCommands, PlainCmd c := by
  simp only [bobCommands, List.mem_cons, List.not_mem_nil, or_false, forall_eq_or_imp, forall_eq]
  refine ⟨by unfold PlainCmd; decide, ?_, by decide, by decide, by decide, by decide, ?_⟩
  · rintro v ⟨⟩; decide
  · rintro v (⟨⟨⟩⟩ | ⟨⟨⟩⟩) <;> decide

theorem bob_sent : ∃ w', Sent (sampleWorld []) bobCommands w' ∧
    wire (sampleWorld []) w' = b!"JOIN #c\r\nPONG :x\r\n" ++
      b!"@reply-parent-msg-id=m0;client-nonce=n PRIVMSG #c :\x01ACTION :) @x #y\x01\r\n" :=
  ⟨_, .more [.accept 3, .accept 100] _ (by decide +kernel) (.more [.accept 100] _ (by decide +kernel)
    (.more [.accept 20, .accept 100] _ (by decide +kernel) (.none _))), by decide +kernel⟩

/-- What the server tells Ann. -/
def annHears : List Said := [.joined (b!"bob") (b!"c"), .chat servedChat]

theorem annHears_ok (b : Build) : ∀ s ∈ annHears, s.Ok ∧ Readable b s.line ∧ LF ∉ s.line := by
  simp only [annHears, List.mem_cons, List.not_mem_nil, or_false, forall_eq_or_imp, forall_eq]
  exact ⟨⟨by unfold Said.Ok Login Unescaped; decide, readable_of (by decide +kernel) b, by decide +kernel⟩,
    servedChat_ok, readable_of servedChat_readable b, by decide +kernel⟩

def annNet : List Net :=
  [.data (b!":bob!bob@bob.tmi.twitch.tv JOIN #c\r"), .pending, .data ([LF] ++ servedChat.line.take 50),
   .data (servedChat.line.drop 50 ++ [CR, LF])]

example : ∃ w', Sent (sampleWorld []) bobCommands w' ∧ RelaysAll (b!"bob") (wire (sampleWorld []) w') annHears ∧
    arrived annNet = (annHears.flatMap fun s => s.line ++ [CR, LF]) ∧ ending annNet = .open_ := by
  obtain ⟨w', h1, h2⟩ := bob_sent
  refine ⟨w', h1, ?_, by decide +kernel, by decide +kernel⟩
  exact relaysAll_two (r₁ := .enter (b!"#c")) (r₂ := .say (b!"#c") (b!"\x01ACTION :) @x #y\x01") (some (b!"m0")))
    (by rw [h2]; decide +kernel) ⟨rfl, rfl⟩ ⟨rfl, rfl, rfl, rfl⟩

example (w' : World) (h : Sent (sampleWorld []) bobCommands w') (hs : RelaysAll (b!"bob") (wire (sampleWorld []) w') annHears) :=
  C100_relayed sampleBuild _ w' bobCommands rfl h bobCommands_plain (b!"bob") annHears hs (annHears_ok _) annNet
    (by decide +kernel) (by decide +kernel)

/-- Bob asks the bot twice, with a ping in between. -/
def asksTwice : List Utterance :=
  [.spoken (.said (.chat yoChat)), .ping (b!"t"), .spoken (.said (.chat servedChat)),
   .spoken (.said (.chat { yoChat with id := b!"m3" }))]

theorem yoChat3_ok : Chat.Ok { yoChat with id := b!"m3" } := { yoChat_ok with ids := by unfold Unescaped; decide }

theorem asksTwice_ok : ∀ u ∈ asksTwice, u.Ok ∧ LF ∉ u.line ∧ u ≠ .reconnect := by
  simp only [asksTwice, List.mem_cons, List.not_mem_nil, or_false, forall_eq_or_imp, forall_eq]
  exact ⟨⟨yoChat_ok, by decide +kernel, by simp⟩, ⟨trivial, by decide, by simp⟩, ⟨servedChat_ok, by decide +kernel, by simp⟩,
    yoChat3_ok, by decide +kernel, by simp⟩

/-- What the bot writes, and that the server understands it. -/
theorem asksTwice_did (b : Build) (cfg : Config) (chs : List Bytes) : ∃ ev, Did b cfg chs true asksTwice ev ∧
    written ev = b!"@reply-parent-msg-id=m2 PRIVMSG #c :yo\r\n" ++ b!"PONG :t\r\n" ++
      b!"@reply-parent-msg-id=m3 PRIVMSG #c :yo\r\n" :=
  ⟨_, .next (by simp) (ws := [.wrote (b!"@reply-parent-msg-id=m2 PRIVMSG #c :yo\r\n")]) ⟨by simp, by decide +kernel⟩ <|
    .next (by simp) (ws := [.wrote (b!"PONG :t\r\n")]) ⟨by simp, by decide +kernel⟩ <|
    .next (by simp) (ws := []) ⟨by simp, by decide +kernel⟩ <|
    .next (by simp) (ws := [.wrote (b!"@reply-parent-msg-id=m3 PRIVMSG #c :yo\r\n")]) ⟨by simp, by decide +kernel⟩ .done,
   by decide +kernel⟩

/-- The bot's answers, as the server relays them. -/
def botSays (id to : Bytes) : Chat :=
  { servedChat with
    id := id, login := b!"bot", text := b!"yo", action := false
    reply := some ⟨to, b!"7", b!"bob", "Bob".toList, "!yo bot".toList, to, b!"bob"⟩ }

example (b : Build) : ∃ ev, Did b sampleConfig [] true asksTwice ev ∧
    RelaysAll (b!"bot") (written ev) [.chat (botSays (b!"a1") (b!"m2")), .chat (botSays (b!"a2") (b!"m3"))] := by
  obtain ⟨ev, h1, h2⟩ := asksTwice_did b sampleConfig []
  refine ⟨ev, h1, ?_⟩
  exact relaysAll_two (r₁ := .say (b!"#c") (b!"yo") (some (b!"m2"))) (r₂ := .say (b!"#c") (b!"yo") (some (b!"m3")))
    (by rw [h2]; decide +kernel) ⟨rfl, rfl, rfl, rfl⟩ ⟨rfl, rfl, rfl, rfl⟩

theorem botSays_ok : ∀ s ∈ [Said.chat (botSays (b!"a1") (b!"m2")), .chat (botSays (b!"a2") (b!"m3"))],
    s.Ok ∧ (∀ b, Readable b s.line) ∧ LF ∉ s.line := by
  have ok : ∀ id to : Bytes, Unescaped id → Unescaped to → (botSays id to).Ok := fun id to h1 h2 =>
    { servedChat_ok with
      ids := by
        simp only [botSays, List.mem_cons, List.not_mem_nil, or_false, forall_eq_or_imp, forall_eq]
        exact ⟨by unfold Unescaped; decide, h1, by unfold Unescaped; decide, by unfold Unescaped; decide⟩
      login := show Login (b!"bot") by unfold Login Unescaped; decide
      text := by rintro - ⟨body, h⟩; exact absurd (List.cons.inj h).1 (by decide)
      reply := by
        rintro _ ⟨⟩
        simp only [List.mem_cons, List.not_mem_nil, or_false, forall_eq_or_imp, forall_eq]
        exact ⟨h2, by unfold Unescaped; decide, by unfold Unescaped; decide, h2, by unfold Unescaped; decide⟩ }
  simp only [List.mem_cons, List.not_mem_nil, or_false, forall_eq_or_imp, forall_eq]
  exact ⟨⟨ok _ _ (by unfold Unescaped; decide) (by unfold Unescaped; decide), readable_of (by decide +kernel), by decide +kernel⟩,
    ok _ _ (by unfold Unescaped; decide) (by unfold Unescaped; decide), readable_of (by decide +kernel), by decide +kernel⟩

example (b : Build) (ev : List Effect) (h : Did b sampleConfig [] true asksTwice ev)
    (hs : RelaysAll (b!"bot") (written ev) [.chat (botSays (b!"a1") (b!"m2")), .chat (botSays (b!"a2") (b!"m3"))]) :=
  C100_greeting sampleBuild b sampleConfig [] asksTwice ev h asksTwice_ok (b!"bot") _ hs
    (fun s hs => ⟨(botSays_ok s hs).1, (botSays_ok s hs).2.1 _, (botSays_ok s hs).2.2⟩)
    [.data ((botSays (b!"a1") (b!"m2")).line ++ [CR, LF]), .data ((botSays (b!"a2") (b!"m3")).line ++ [CR, LF])]
    (by decide +kernel) (by decide +kernel)

end Tmi.Props
