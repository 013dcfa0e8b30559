/-
Property C112: a channel can be written to under the name it was joined with.
-/
import Verif.Spec.Reached
import Verif.Props.Relay
import Verif.Props.Reply

namespace Tmi.Props
open Tmi.Model Tmi.Spec Tmi.Proofs

/-! ## C112: from joining to writing -/

theorem privmsg_line_other {ch text : Bytes} {reply nonce : Option Bytes} (hch : ch.head? ≠ some HASH)
    (hv : ∀ v, reply = some v ∨ nonce = some v → SEMI ∉ v ∧ SP ∉ v) :
    line (commandLine (.privmsg ch text reply nonce)) = some
      { tags := sentTags reply nonce, prefix? := none, command := b!"PRIVMSG", channel := none,
        params := some (ch ++ SP :: (COLON :: text)) } := by
  have hh : (ch ++ SP :: (COLON :: text)).head? ≠ some HASH := by
    cases ch with
    | nil => simp only [List.nil_append, List.head?_cons]; decide
    | cons c t => exact hch
  have hne : ¬ ch ++ SP :: (COLON :: text) = [] := by simp
  rw [privmsg_shape]
  split
  · rename_i h
    rw [line_plain (by decide) (by decide) (by decide) (by decide), takeChannel_other hh, h]
    simp only [hne, if_false]
  · rw [line_tagged ?_ (by decide) (by decide) (by decide), takeChannel_other hh, splitTags_render]
    · simp only [hne, if_false]
    · intro p hp
      rcases sentTags_mem hp with ⟨h, h'⟩ | ⟨h, h'⟩
      · exact ⟨by rw [h]; decide, (hv _ (.inl h')).1⟩
      · exact ⟨by rw [h]; decide, (hv _ (.inr h')).1⟩
    · apply renderTags_no_space
      intro p hp
      rcases sentTags_mem hp with ⟨h, h'⟩ | ⟨h, h'⟩
      · exact ⟨by rw [h]; decide, (hv _ (.inl h')).2⟩
      · exact ⟨by rw [h]; decide, (hv _ (.inr h')).2⟩

theorem reached_hash {ch t : Bytes} {r n : Option Bytes} (h : ch.head? = some HASH) :
    reached (.privmsg ch t r n) = [.say ch t r] := by
  simp [reached, h]

theorem reached_other {ch t : Bytes} {r n : Option Bytes} (h : ch.head? ≠ some HASH) :
    reached (.privmsg ch t r n) = [] := by
  simp [reached, h]

theorem command_reached {c : Cmd} (h : NamedCmd c) : LF ∉ commandLine c ∧ requests (commandLine c) = reached c := by
  cases c with
  | privmsg ch t r n =>
    obtain ⟨h2, h3, h4, h5⟩ := h
    by_cases h1 : ch.head? = some HASH
    · have := command_requests (c := .privmsg ch t r n) ⟨h1, h2, h3, h4, h5⟩
      rw [reached_hash h1]
      exact this
    · refine ⟨?_, ?_⟩
      · cases r <;> cases n <;> simp only [commandLine, List.mem_append, not_or]
        · exact ⟨⟨⟨by decide, h3⟩, by decide⟩, h4⟩
        · rename_i v
          exact ⟨⟨⟨⟨⟨by decide, (h5 v (.inr rfl)).2.2⟩, by decide⟩, h3⟩, by decide⟩, h4⟩
        · rename_i v
          exact ⟨⟨⟨⟨⟨by decide, (h5 v (.inl rfl)).2.2⟩, by decide⟩, h3⟩, by decide⟩, h4⟩
        · rename_i v v'
          exact ⟨⟨⟨⟨⟨⟨⟨by decide, (h5 v (.inl rfl)).2.2⟩, by decide⟩, (h5 v' (.inr rfl)).2.2⟩, by decide⟩, h3⟩, by decide⟩, h4⟩
      · rw [reached_other h1]
        unfold requests
        rw [privmsg_line_other h1 fun v hv => ⟨(h5 v hv).1, (h5 v hv).2.1⟩]
        simp
  | raw s => exact absurd h id
  | _ => exact command_requests h

theorem bytes_reached (cmds : List Cmd) (h : ∀ c ∈ cmds, NamedCmd c) :
    (receivedLines (cmds.flatMap commandBytes)).flatMap requests = cmds.flatMap reached := by
  have e : cmds.flatMap commandBytes = (cmds.map commandLine).flatMap fun l => l ++ [CR, LF] := by
    rw [List.flatMap_map]
    induction cmds with
    | nil => rfl
    | cons c cs ih =>
      rw [List.flatMap_cons, List.flatMap_cons, ih fun c' hc => h c' (by simp [hc])]
      have := h c (by simp)
      cases c with
      | raw s => exact absurd this id
      | _ => rfl
  rw [e, (receivedLines_join _).2 fun l hl => by
    obtain ⟨c, hc, rfl⟩ := List.mem_map.1 hl
    exact (command_reached (h c hc)).1, List.flatMap_map]
  clear e
  induction cmds with
  | nil => rfl
  | cons c cs ih =>
    rw [List.flatMap_cons, List.flatMap_cons, ih fun c' hc => h c' (by simp [hc]), (command_reached (h c (by simp))).2]

/-- C112, exactly: every channel that the program joins is entered, and of the chat messages the server understands those
to names that start with `#`, and no other. -/
theorem C112_exactly (w w' : World) (cmds : List Cmd) (h0 : w.client.scratch = []) (h : Sent w cmds w')
    (hc : ∀ c ∈ cmds, NamedCmd c) :
    (receivedLines (wire w w')).flatMap requests = cmds.flatMap reached := by
  rw [C36_bytes w w' cmds h0 h]
  exact bytes_reached cmds hc

theorem inside_of : ∀ (cmds before : List Cmd), (∀ c ∈ cmds, NamedCmd c) →
    (∀ b' name text reply nonce after, cmds = b' ++ .privmsg name text reply nonce :: after →
      JoinedAs name (before ++ b')) →
    ∀ ch t r (pre post : List Request), cmds.flatMap reached = pre ++ .say ch t r :: post →
      .enter ch ∈ before.flatMap reached ++ pre
  | [], before, _, _, ch, t, r, pre, post, h => by cases pre <;> cases h
  | c :: cs, before, hn, hj, ch, t, r, pre, post, h => by
    rw [List.flatMap_cons] at h
    have tail : ∀ pre', cs.flatMap reached = pre' ++ .say ch t r :: post →
        .enter ch ∈ before.flatMap reached ++ (reached c ++ pre') := by
      intro pre' e
      have := inside_of cs (before ++ [c]) (fun c' hc => hn c' (by simp [hc]))
        (fun b' name text reply nonce after e => by
          have := hj (c :: b') name text reply nonce after (by rw [e]; rfl)
          simpa using this) ch t r pre' post e
      simpa [List.flatMap_append] using this
    have noSay : ∀ x : List Request, (∀ r' ∈ x, ∀ ch t r, r' ≠ .say ch t r) → reached c = x →
        .enter ch ∈ before.flatMap reached ++ pre := by
      intro x hx e
      rw [e] at h
      rw [List.append_eq_append_iff] at h
      rcases h with ⟨a, e1, e2⟩ | ⟨a, e1, e2⟩
      · have := tail a e2
        rw [e] at this
        rw [e1]; exact this
      · cases a with
        | nil =>
          have := tail [] e2.symm
          rw [e, e1] at this
          simpa using this
        | cons y ys =>
          simp only [List.cons_append, List.cons.injEq] at e2
          exact absurd e2.1.symm (hx y (by rw [e1]; simp) ch t r)
    cases c with
    | privmsg name t' r' n =>
      by_cases hh : name.head? = some HASH
      · have e : reached (.privmsg name t' r' n) = [.say name t' r'] := reached_hash hh
        rw [e] at h
        cases pre with
        | nil =>
          simp only [List.singleton_append, List.nil_append, List.cons.injEq, Request.say.injEq] at h
          obtain ⟨⟨rfl, rfl, rfl⟩, -⟩ := h
          have := hj [] name t' r' n cs rfl
          rw [List.append_nil] at this
          rw [List.append_nil, List.mem_flatMap]
          have hcn : channelName name = name := by unfold channelName; rw [if_pos hh]
          rcases this with hm | ⟨ns, hm, hin⟩
          · exact ⟨_, hm, by simp [reached, asked, hcn]⟩
          · refine ⟨_, hm, ?_⟩
            simp only [reached, asked, List.mem_map]
            exact ⟨name, hin, by rw [hcn]⟩
        | cons y ys =>
          simp only [List.singleton_append, List.cons_append, List.cons.injEq] at h
          have := tail ys h.2
          rw [e, h.1] at this
          simpa using this
      · exact noSay [] (by simp) (reached_other hh)
    | raw s => exact absurd (hn (.raw s) (by simp)) id
    | ping n => exact noSay [] (by simp) rfl
    | pong n => exact noSay [] (by simp) rfl
    | join n => exact noSay [.enter (channelName n)] (by simp) rfl
    | joinAll ns => exact noSay (ns.map fun c => .enter (channelName c)) (by simp) rfl

/-- C112: if the names start with `#`, then every message is understood as one in the channel of that name, and that
channel has been entered before. -/
theorem C112_reached_partial (w w' : World) (cmds : List Cmd) (h0 : w.client.scratch = []) (h : Sent w cmds w')
    (hc : ∀ c ∈ cmds, NamedCmd c) (hj : SpeaksWhereJoined cmds)
    (hh : ∀ name text reply nonce, .privmsg name text reply nonce ∈ cmds → name.head? = some HASH) :
    (receivedLines (wire w w')).flatMap requests = cmds.flatMap meant ∧
    SaidInside ((receivedLines (wire w w')).flatMap requests) := by
  have e := C112_exactly w w' cmds h0 h hc
  have hm : cmds.flatMap reached = cmds.flatMap meant := by
    rw [List.flatMap_def, List.flatMap_def]
    congr 1
    apply List.map_congr_left
    intro c hc'
    cases c with
    | privmsg name t r n =>
      have := hh name t r n hc'
      simp [reached, meant, channelName, this]
    | _ => rfl
  refine ⟨by rw [e, hm], fun i ch t r hi => ?_⟩
  rw [e] at hi ⊢
  obtain ⟨hlt, hget⟩ := List.getElem?_eq_some_iff.1 hi
  have hs : cmds.flatMap reached = (cmds.flatMap reached).take i ++ .say ch t r :: (cmds.flatMap reached).drop (i + 1) := by
    rw [← hget, List.getElem_cons_drop, List.take_append_drop]
  have := inside_of cmds [] hc (fun b' name text reply nonce after e' => by
    simpa using hj b' name text reply nonce after e') ch t r _ _ hs
  simp only [List.flatMap_nil, List.nil_append] at this
  obtain ⟨j, hj', hj''⟩ := List.getElem_of_mem this
  rw [List.length_take] at hj'
  refine ⟨j, by omega, ?_⟩
  rw [← hj'', List.getElem_take, List.getElem?_eq_getElem]

/-- C112: a program can always write under the name of the channel as it is sent by `join`. -/
theorem C112_full_name (w w' : World) (name text : Bytes) (reply nonce : Option Bytes) (h0 : w.client.scratch = [])
    (h : Sent w [.join name, .privmsg (channelName name) text reply nonce] w')
    (hj : NamedCmd (.join name)) (ht : NamedCmd (.privmsg name text reply nonce)) :
    (receivedLines (wire w w')).flatMap requests = [.enter (channelName name), .say (channelName name) text reply] := by
  obtain ⟨h1, h2, h3, h4⟩ := channelName_plain hj
  rw [C112_exactly w w' _ h0 h (by
    intro c hc
    simp only [List.mem_cons, List.not_mem_nil, or_false] at hc
    rcases hc with rfl | rfl
    · exact hj
    · exact ⟨h2, h4, ht.2.2.1, ht.2.2.2⟩)]
  simp [reached, asked, h1]

/-- C112, where it fails: with a name without `#` the channel is entered and the message is lost, although both calls
return `Ok`. -/
theorem C112_lost (w w' : World) (name text : Bytes) (reply nonce : Option Bytes) (h0 : w.client.scratch = [])
    (h : Sent w [.join name, .privmsg name text reply nonce] w')
    (hj : NamedCmd (.join name)) (ht : NamedCmd (.privmsg name text reply nonce)) (hh : name.head? ≠ some HASH) :
    (receivedLines (wire w w')).flatMap requests = [.enter (HASH :: name)] := by
  rw [C112_exactly w w' _ h0 h (by
    intro c hc
    simp only [List.mem_cons, List.not_mem_nil, or_false] at hc
    rcases hc with rfl | rfl
    · exact hj
    · exact ht)]
  simp [reached, asked, channelName, hh]

/-- A program that joins two channels, one of them without `#`, and writes to both. -/
def sampleProgram (second : Bytes) : List Cmd :=
  [.join (b!"#a"), .joinAll [b!"b", b!"#b"], .privmsg (b!"#a") (b!"hi") none none, .privmsg second (b!"hi") (some (b!"7")) none]

theorem sampleProgram_sent : ∃ w', Sent (sampleWorld []) (sampleProgram (b!"b")) w' :=
  ⟨_, .more [.accept 1000] _ (by decide +kernel) <| .more [.accept 2, .accept 99] _ (by decide +kernel) <|
    .more [.accept 1000] _ (by decide +kernel) <| .more [.accept 1000] _ (by decide +kernel) (.none _)⟩

theorem sampleProgram_sent' : ∃ w', Sent (sampleWorld []) (sampleProgram (b!"#b")) w' :=
  ⟨_, .more [.accept 1000] _ (by decide +kernel) <| .more [.accept 2, .accept 99] _ (by decide +kernel) <|
    .more [.accept 1000] _ (by decide +kernel) <| .more [.accept 1000] _ (by decide +kernel) (.none _)⟩

theorem sampleProgram_named (second : Bytes) (h : SP ∉ second ∧ LF ∉ second) : ∀ c ∈ sampleProgram second, NamedCmd c := by
  intro c hc
  simp only [sampleProgram, List.mem_cons, List.not_mem_nil, or_false] at hc
  rcases hc with rfl | rfl | rfl | rfl
  · exact ⟨by decide, by decide, by decide⟩
  · intro c hc
    simp only [List.mem_cons, List.not_mem_nil, or_false] at hc
    rcases hc with rfl | rfl <;> decide
  · exact ⟨by decide, by decide, by decide, by simp⟩
  · refine ⟨h.1, h.2, by decide, fun v hv => ?_⟩
    simp only [Option.some.injEq, reduceCtorEq, or_false] at hv
    subst hv
    decide

theorem sampleProgram_joined (second : Bytes) (h : second = b!"b" ∨ second = b!"#b") :
    SpeaksWhereJoined (sampleProgram second) := by
  intro before name text reply nonce after e
  unfold sampleProgram at e
  match before, e with
  | [], e => cases e
  | [_], e => cases e
  | [_, _], e =>
    simp only [List.cons_append, List.nil_append, List.cons.injEq, Cmd.privmsg.injEq] at e
    obtain ⟨rfl, rfl, ⟨rfl, -⟩, -⟩ := e
    exact .inl (by simp)
  | [_, _, _], e =>
    simp only [List.cons_append, List.nil_append, List.cons.injEq, Cmd.privmsg.injEq] at e
    obtain ⟨rfl, rfl, rfl, ⟨rfl, -⟩, -⟩ := e
    exact .inr ⟨[b!"b", b!"#b"], by simp, by rcases h with rfl | rfl <;> simp⟩
  | _ :: _ :: _ :: _ :: _, e => simp at e

/-- C112 is false: every message goes to a channel that was joined under the same name, and one of them is not
understood. -/
theorem C112_negation : ∃ w w' cmds, w.client.scratch = [] ∧ Sent w cmds w' ∧ (∀ c ∈ cmds, NamedCmd c) ∧
    SpeaksWhereJoined cmds ∧ (receivedLines (wire w w')).flatMap requests ≠ cmds.flatMap meant := by
  obtain ⟨w', h⟩ := sampleProgram_sent
  refine ⟨_, w', _, rfl, h, sampleProgram_named _ (by decide), sampleProgram_joined _ (.inl rfl), ?_⟩
  rw [C112_exactly _ w' _ rfl h (sampleProgram_named _ (by decide))]
  decide

example : ∃ w', SaidInside ((receivedLines (wire (sampleWorld []) w')).flatMap requests) := by
  obtain ⟨w', h⟩ := sampleProgram_sent'
  refine ⟨w', (C112_reached_partial _ w' _ rfl h (sampleProgram_named _ (by decide)) (sampleProgram_joined _ (.inr rfl)) ?_).2⟩
  intro name text reply nonce hm
  simp only [sampleProgram, List.mem_cons, List.not_mem_nil, or_false, reduceCtorEq, false_or, Cmd.privmsg.injEq] at hm
  rcases hm with ⟨rfl, -⟩ | ⟨rfl, -⟩ <;> rfl

example := C112_lost (sampleWorld []) _ (b!"b") (b!"hi") none none rfl
  (.more [.accept 1000] _ (by decide +kernel) <| .more [.accept 2, .accept 99] _ (by decide +kernel) (.none _))
  ⟨by decide, by decide, by decide⟩ ⟨by decide, by decide, by decide, by simp⟩ (by decide)

example := C112_full_name (sampleWorld []) _ (b!"b") (b!"hi") none none rfl
  (.more [.accept 1000] _ (by decide +kernel) <| .more [.accept 2, .accept 99] _ (by decide +kernel) (.none _))
  ⟨by decide, by decide, by decide⟩ ⟨by decide, by decide, by decide, by simp⟩

end Tmi.Props
