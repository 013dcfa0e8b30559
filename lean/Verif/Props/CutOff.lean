/-
Property C106: the end of a connection in the middle of a line.
-/
import Verif.Proofs.CutOff
import Verif.Props.Serve

namespace Tmi.Props
open Tmi.Model Tmi.Spec Tmi.Proofs

/-! ## C106: the end of a connection in the middle of a line -/

/-- What the beginning of a line says: nothing, or what is left of what was said. -/
theorem cut_said (b : Build) {s : Said} (hs : s.Ok) {c : Bytes} (h : c <+: s.line ++ [CR]) (hr : Readable b c) :
    (∀ l, line c = some l → l.command ≠ b!"ROOMSTATE" ∧ ∀ M, MessageOf l M → ∃ m, M = .other m) ∨
    ∃ s', Shortened s s' ∧ s'.Ok ∧ ∃ l M, line c = some l ∧ MessageOf l M ∧ Heard s' M ∧ ∀ m, M ≠ .other m := by
  have whole : ∀ s', Shortened s s' → s'.Ok → c = s'.line →
      ∃ s', Shortened s s' ∧ s'.Ok ∧ ∃ l M, line c = some l ∧ MessageOf l M ∧ Heard s' M ∧ ∀ m, M ≠ .other m := by
    rintro s' h1 h2 rfl
    obtain ⟨l, hl, M, h3⟩ := said_typed b s' h2 hr
    exact ⟨s', h1, h2, l, M, hl, h3⟩
  cases s with
  | chat k =>
    have hf := chat_frame hs
    have e : (Said.chat k).line ++ [CR] = AT :: (renderTags k.tags ++ SP :: (COLON :: (userPrefix k.login ++ SP ::
        (b!"PRIVMSG" ++ SP :: (HASH :: (k.channel ++ SP :: (COLON :: (actionText k.action k.text ++ [CR])))))))) := by
      rw [Said.line, Chat.line, frame_eq]
      simp [userPrefix, actionText]
    rw [e] at h
    rcases cut_tagged (renderTags_no_space _ fun p h => ⟨(hf.keys p h).2, (hf.values p h).2⟩) hf.pfx hf.command.1 h with
      h | ⟨z, h0, h1, rfl⟩
    · exact .inl fun l hl => ⟨mute_room (by simp) h hl, fun M hM => mute_message (by simp) h hl hM⟩
    rcases rest_cases h0 h1 with ⟨ch, h2, h3⟩ | ⟨t, h2, rfl⟩
    · left
      intro l hl
      rw [quiet_line hf.keys (fun p h => ⟨(hf.values p h).2, (hf.values p h).1⟩) hf.pfx hf.command
        (prefix_no h2 hs.channel) h3] at hl
      cases hl
      exact ⟨by simp only []; decide, fun M hM => (quiet_message (.inl rfl) rfl hM).elim⟩
    · right
      obtain ⟨action, text, rfl, ha⟩ := actionText_exists t
      refine whole _ (.chat k text action h2) { hs with text := ha } ?_
      rw [Said.line, Chat.line, frame_eq]
      simp [userPrefix, actionText, Chat.tags]
  | cleared p =>
    have hn : ∀ c, Said.cleared p ≠ .chat c := by simp
    have hk := said_keys hn
    have hv := said_values hs hn
    have e : (Said.cleared p).line ++ [CR] = AT :: (renderTags (Said.tags (.cleared p)) ++ SP :: (COLON :: (b!"tmi.twitch.tv" ++ SP ::
        (b!"CLEARCHAT" ++ SP :: (HASH :: (p.channel ++ [CR])))))) := by
      simp [Said.line]
    rw [e] at h
    rcases cut_tagged (renderTags_no_space _ fun p h => ⟨(hk p h).2, (hv p h).1⟩) (by decide) (by decide) h with
      h | ⟨z, h0, h1, rfl⟩
    · exact .inl fun l hl => ⟨mute_room (by simp) h hl, fun M hM => mute_message (by simp) h hl hM⟩
    rcases prefix_cons h1 with rfl | ⟨ch, rfl, h2⟩
    · exact absurd rfl h0
    right
    refine whole _ (.cleared p ch h2) ⟨prefix_no h2 (by simp [hs.channel]; decide), hs.channelId, hs.time⟩ ?_
    simp [Said.line, Said.tags]
  | banned p user userId =>
    have hn : ∀ c, Said.banned p user userId ≠ .chat c := by simp
    have hk := said_keys hn
    have hv := said_values hs hn
    have e : (Said.banned p user userId).line ++ [CR] = AT :: (renderTags (Said.tags (.banned p user userId)) ++ SP ::
        (COLON :: (b!"tmi.twitch.tv" ++ SP :: (b!"CLEARCHAT" ++ SP :: (HASH :: (p.channel ++ SP :: (COLON :: (user ++ [CR])))))))) := by
      simp [Said.line]
    rw [e] at h
    rcases cut_tagged (renderTags_no_space _ fun p h => ⟨(hk p h).2, (hv p h).1⟩) (by decide) (by decide) h with
      h | ⟨z, h0, h1, rfl⟩
    · exact .inl fun l hl => ⟨mute_room (by simp) h hl, fun M hM => mute_message (by simp) h hl hM⟩
    right
    rcases rest_cases h0 h1 with ⟨ch, h2, h3⟩ | ⟨t, h2, rfl⟩
    · have hsp := prefix_no h2 hs.1.channel
      have hl := quiet_line hk hv (pfx := b!"tmi.twitch.tv") (cmd := b!"CLEARCHAT") (by decide) (by decide) hsp h3
      obtain ⟨M, hM⟩ := clear_quiet (l := ⟨Said.tags (.banned p user userId), some (b!"tmi.twitch.tv"), b!"CLEARCHAT", some (HASH :: ch), none⟩)
        (p := p) rfl rfl rfl rfl (by simp [Line.tag, Said.tags, lookup]) hs.1.time
      exact ⟨_, .bannedNobody p user userId ch h2, ⟨hsp, hs.1.channelId, hs.1.time⟩, _, M, hl, hM⟩
    · refine whole _ (.banned p user userId t h2) hs ?_
      simp [Said.line, Said.tags]
  | timedOut p user userId n =>
    have hn : ∀ c, Said.timedOut p user userId n ≠ .chat c := by simp
    have hk := said_keys hn
    have hv := said_values hs hn
    have e : (Said.timedOut p user userId n).line ++ [CR] = AT :: (renderTags (Said.tags (.timedOut p user userId n)) ++ SP ::
        (COLON :: (b!"tmi.twitch.tv" ++ SP :: (b!"CLEARCHAT" ++ SP :: (HASH :: (p.channel ++ SP :: (COLON :: (user ++ [CR])))))))) := by
      simp [Said.line]
    rw [e] at h
    rcases cut_tagged (renderTags_no_space _ fun p h => ⟨(hk p h).2, (hv p h).1⟩) (by decide) (by decide) h with
      h | ⟨z, h0, h1, rfl⟩
    · exact .inl fun l hl => ⟨mute_room (by simp) h hl, fun M hM => mute_message (by simp) h hl hM⟩
    right
    rcases rest_cases h0 h1 with ⟨ch, h2, h3⟩ | ⟨t, h2, rfl⟩
    · have hsp := prefix_no h2 hs.1.channel
      have hl := quiet_line hk hv (pfx := b!"tmi.twitch.tv") (cmd := b!"CLEARCHAT") (by decide) (by decide) hsp h3
      obtain ⟨M, hM⟩ := clear_quiet (l := ⟨Said.tags (.timedOut p user userId n), some (b!"tmi.twitch.tv"), b!"CLEARCHAT", some (HASH :: ch), none⟩)
        (p := p) rfl rfl rfl (by simp [Line.tag, Said.tags, lookup]) (by simp [Line.tag, Said.tags, lookup]) hs.1.time
      exact ⟨_, .timedOutNobody p user userId n ch h2, ⟨hsp, hs.1.channelId, hs.1.time⟩, _, M, hl, hM⟩
    · refine whole _ (.timedOut p user userId n t h2) hs ?_
      simp [Said.line, Said.tags]
  | deleted p author id text action =>
    have hn : ∀ c, Said.deleted p author id text action ≠ .chat c := by simp
    have hk := said_keys hn
    have hv := said_values hs hn
    have e : (Said.deleted p author id text action).line ++ [CR] = AT :: (renderTags (Said.tags (.deleted p author id text action)) ++ SP ::
        (COLON :: (b!"tmi.twitch.tv" ++ SP :: (b!"CLEARMSG" ++ SP :: (HASH :: (p.channel ++ SP :: (COLON :: (actionText action text ++ [CR])))))))) := by
      simp [Said.line]
    rw [e] at h
    rcases cut_tagged (renderTags_no_space _ fun p h => ⟨(hk p h).2, (hv p h).1⟩) (by decide) (by decide) h with
      h | ⟨z, h0, h1, rfl⟩
    · exact .inl fun l hl => ⟨mute_room (by simp) h hl, fun M hM => mute_message (by simp) h hl hM⟩
    rcases rest_cases h0 h1 with ⟨ch, h2, h3⟩ | ⟨t, h2, rfl⟩
    · left
      intro l hl
      rw [quiet_line hk hv (by decide) (by decide) (prefix_no h2 hs.1.channel) h3] at hl
      cases hl
      exact ⟨by simp only []; decide, fun M hM => (quiet_message (.inr rfl) rfl hM).elim⟩
    · right
      obtain ⟨action', text', rfl, ha⟩ := actionText_exists t
      refine whole _ (.deleted p author id text action text' action' h2) ⟨hs.1, hs.2.1, hs.2.2.1, ha⟩ ?_
      simp [Said.line, Said.tags]
  | joined login channel =>
    have e : (Said.joined login channel).line ++ [CR] = COLON :: (userPrefix login ++ SP :: (b!"JOIN" ++ SP :: (HASH :: (channel ++ [CR])))) := by
      simp [Said.line]
    rw [e] at h
    rcases cut_plain (userPrefix_space hs.1.1.1) (by decide) h with h | ⟨z, h0, h1, rfl⟩
    · exact .inl fun l hl => ⟨mute_room (by simp) h hl, fun M hM => mute_message (by simp) h hl hM⟩
    rcases prefix_cons h1 with rfl | ⟨ch, rfl, h2⟩
    · exact absurd rfl h0
    right
    refine whole _ (.joined login channel ch h2) ⟨hs.1, prefix_no h2 (by simp [hs.2]; decide)⟩ ?_
    simp [Said.line]
  | parted login channel =>
    have e : (Said.parted login channel).line ++ [CR] = COLON :: (userPrefix login ++ SP :: (b!"PART" ++ SP :: (HASH :: (channel ++ [CR])))) := by
      simp [Said.line]
    rw [e] at h
    rcases cut_plain (userPrefix_space hs.1.1.1) (by decide) h with h | ⟨z, h0, h1, rfl⟩
    · exact .inl fun l hl => ⟨mute_room (by simp) h hl, fun M hM => mute_message (by simp) h hl hM⟩
    rcases prefix_cons h1 with rfl | ⟨ch, rfl, h2⟩
    · exact absurd rfl h0
    right
    refine whole _ (.parted login channel ch h2) ⟨hs.1, prefix_no h2 (by simp [hs.2]; decide)⟩ ?_
    simp [Said.line]

/-- The typed message of the beginning of a line. -/
theorem cut_typed (b : Build) {s : Said} (hs : s.Ok) {c : Bytes} (h : c <+: s.line ++ [CR]) (hr : Readable b c) {l : Line}
    (hl : line c = some l) {m : MsgRef} (hm : Represents m l) :
    ∃ r, Message.fromIrc m = .ok r ∧ ∀ M, r = some M → (∃ m', M = .other m') ∨ ∃ s', Shortened s s' ∧ Heard s' M := by
  have hroom : l.command = b!"ROOMSTATE" → ¬ FollowersOverflow l := by
    intro hc
    exfalso
    rcases cut_said b hs h hr with h | ⟨s', -, -, l', M, hl', hM, hh, -⟩
    · exact (h l hl).1 hc
    · rw [hl] at hl'
      cases hl'
      cases s' <;> obtain ⟨v, rfl, -⟩ := hh <;> (have h := hM.1; rw [hc] at h; revert h; decide)
  obtain ⟨⟨r, hf⟩, hx⟩ := fromIrc_exactly hm hroom
  refine ⟨r, hf, ?_⟩
  rintro M rfl
  obtain ⟨hM, -⟩ := (hx M).1 hf
  rcases cut_said b hs h hr with h | ⟨s', h1, -, l', M', hl', hM', hh, ho⟩
  · exact .inl ((h l hl).2 M hM)
  · rw [hl] at hl'
    cases hl'
    have := (hx M').2 ⟨hM', fun m' e => absurd e (ho m')⟩
    rw [hf] at this
    cases this
    exact .inr ⟨s', h1, hh⟩

theorem line_at {l : Bytes} {ss : List Said} {k : Nat} (h : (ss.map Said.line)[k]? = some l) :
    ∃ s, ss[k]? = some s ∧ l = s.line := by
  rw [List.getElem?_map] at h
  cases hs : ss[k]? with
  | none => rw [hs] at h; simp at h
  | some s => rw [hs] at h; simp at h; exact ⟨s, rfl, h.symm⟩

/-- C106, part: a connection that stays open: only whole lines are taken for messages, however much of the next one has
arrived, whatever the lines are.  (Missing: connections that are closed, for which C106 is false, `C106_negation`.) -/
theorem C106_open_partial (b : Build) (ls : List Bytes) (hl : ∀ l ∈ ls, LF ∉ l ∧ Utf8 l) (net : List Net)
    (hn : arrived net <+: lineBytes ls) (he : ending net = .open_) (n : Nat) :
    recvPolls b n .new net <+: ls.map fun l => expected b (.ok l) := by
  obtain ⟨whole, rest, h1, h2, h3⟩ := arrivedOf_exists ls _ hn
  have hlf : LF ∉ rest := by
    rcases h3 with rfl | ⟨l, hm, h⟩
    · simp
    · exact prefix_no h (by simp; exact ⟨(hl l (List.mem_of_getElem? hm)).1, by decide⟩)
  have hd := lineBytes_delivered whole rest (fun l h => hl l (h2.subset h)) hlf
  have := (C60_open b net he).1 n
  rw [h1, hd.1, List.map_map] at this
  exact this.trans (h2.map _)

/-- C106, part: a connection that fails (it is reset, times out, ...): whole lines, then the error.  (Missing: connections
that are closed, for which C106 is false, `C106_negation`.) -/
theorem C106_failed_partial (b : Build) (ls : List Bytes) (hl : ∀ l ∈ ls, LF ∉ l ∧ Utf8 l) (net : List Net)
    (hn : arrived net <+: lineBytes ls) (e : IoError) (he : ending net = .failed e) :
    ∃ whole rest, ArrivedOf ls whole rest (arrived net) ∧
      ∃ N, recvPolls b N .new net = (whole.map fun l => expected b (.ok l)) ++ [.ok (.error (.io e))] ∧
        ∀ n, n ≤ N → recvPolls b n .new net <+: recvPolls b N .new net := by
  obtain ⟨whole, rest, h1, h2, h3⟩ := arrivedOf_exists ls _ hn
  have hlf : LF ∉ rest := by
    rcases h3 with rfl | ⟨l, hm, h⟩
    · simp
    · exact prefix_no h (by simp; exact ⟨(hl l (List.mem_of_getElem? hm)).1, by decide⟩)
  have hd := lineBytes_delivered whole rest (fun l h => hl l (h2.subset h)) hlf
  obtain ⟨N, hN, hN'⟩ := C60_failed b net e he
  rw [h1, hd.1, List.map_map] at hN
  exact ⟨whole, rest, ⟨h1, h2, h3⟩, N, hN, hN'⟩

/-- C106, exactly: a connection that is closed: the results for the whole lines; if something of the next line has arrived,
the result for that, as if it were a line; then `StreamClosed`.  (So C106 holds of a closed connection just if nothing of
the next line has arrived or it does not parse.) -/
theorem C106_closed_partial (b : Build) (ls : List Bytes) (hl : ∀ l ∈ ls, LF ∉ l ∧ Utf8 l) (net : List Net)
    (hn : arrived net <+: lineBytes ls) (he : ending net = .closed) :
    ∃ whole rest, ArrivedOf ls whole rest (arrived net) ∧
      (∀ n, recvPolls b n .new net <+: (whole.map fun l => expected b (.ok l)) ++
        (if rest = [] then [] else [expected b (deliver rest)]) ++ List.replicate n (.ok (.error .streamClosed))) ∧
      ∃ N, ∀ k, recvPolls b (N + k) .new net = (whole.map fun l => expected b (.ok l)) ++
        (if rest = [] then [] else [expected b (deliver rest)]) ++ List.replicate k (.ok (.error .streamClosed)) := by
  obtain ⟨whole, rest, h1, h2, h3⟩ := arrivedOf_exists ls _ hn
  have hlf : LF ∉ rest := by
    rcases h3 with rfl | ⟨l, hm, h⟩
    · simp
    · exact prefix_no h (by simp; exact ⟨(hl l (List.mem_of_getElem? hm)).1, by decide⟩)
  have hd := lineBytes_delivered whole rest (fun l h => hl l (h2.subset h)) hlf
  have hall : (deliveredAll (arrived net)).map (expected b) = (whole.map fun l => expected b (.ok l)) ++
      (if rest = [] then [] else [expected b (deliver rest)]) := by
    unfold deliveredAll
    rw [h1, hd.1, hd.2, List.map_append, List.map_map]
    congr 1
    split <;> rfl
  have hc := C60_closed b net he
  rw [hall] at hc
  exact ⟨whole, rest, ⟨h1, h2, h3⟩, hc⟩

/-- C106, exactly: what a program is told by the beginning of a line: nothing, or what is left of what the server said.
(Partial, because a beginning that is left should tell nothing at all; `C106_occurs` shows that each of these does tell.) -/
theorem C106_left_partial (b : Build) (s : Said) (hs : s.Ok) (c : Bytes) (h : c <+: s.line ++ [CR]) (hr : Readable b c) :
    ∃ r, Message.parse b c = .ok r ∧ ∀ M, r = some M → (∃ m, M = .other m) ∨ ∃ s', Shortened s s' ∧ Heard s' M := by
  unfold Message.parse
  cases hl : line c with
  | none =>
    have := parse_refines b hr.1 hr.2.1 hr.2.2
    rw [hl] at this
    exact ⟨none, by rw [this, bind_ok]; rfl, by simp⟩
  | some l =>
    obtain ⟨m, hp, -, R⟩ := parse_line hl hr.1 hr.2.1 hr.2.2
    rw [hp, bind_ok]
    exact cut_typed b hs h hr hl R

/-- A message that `recv` returns for a whole line. -/
theorem whole_told {b : Build} {s : Said} (hs : s.Ok) (hr : Readable b s.line) {m : MsgOwned}
    (h : expected b (.ok s.line) = .ok (.ok m)) : ∃ M, m.asTyped = .ok (some M) ∧ Heard s M := by
  obtain ⟨l, hl, M, h4, h5, h6⟩ := said_typed b s hs hr
  simp only [expected, (owned_parse_some hr hl).1] at h
  cases h
  exact ⟨M, typed_told (owned_parse_some hr hl).2.2 h4 h5 h6, h5⟩

/-- A message that `recv` returns for the beginning of a line. -/
theorem rest_told {b : Build} {s : Said} (hs : s.Ok) (hw : Within (s.line ++ [CR])) {rest : Bytes} (h : rest <+: s.line ++ [CR])
    {m : MsgOwned} (hm : expected b (deliver rest) = .ok (.ok m)) :
    ∃ r, m.asTyped = .ok r ∧ ∀ M, r = some M → (∃ m', M = .other m') ∨ ∃ s', Shortened s s' ∧ Heard s' M := by
  have hu : Utf8 rest := by
    by_cases hu : Utf8 rest
    · exact hu
    · simp [deliver, hu, expected] at hm
  have hd : deliver rest = .ok rest := by simp [deliver, hu]
  rw [hd] at hm
  have hw' := within_prefix hw h
  have ht : TagsTerminated b rest := by
    by_cases ht : TagsTerminated b rest
    · exact ht
    · exfalso
      unfold TagsTerminated at ht
      simp only [Classical.not_imp, Classical.not_forall] at ht
      obtain ⟨hb, r, rfl, hsp⟩ := ht
      obtain ⟨e, he⟩ := (C01_parse_panics_iff b (AT :: r) hu hw'.len).2 (.inr ⟨hb, rfl, by simp [hsp]; decide⟩)
      rw [expected, show MsgOwned.parse b (AT :: r) = .error e by rw [MsgOwned.parse, he]; rfl] at hm
      cases hm
  have hr : Readable b rest := ⟨hu, hw', ht⟩
  cases hl : line rest with
  | none =>
    have := parse_refines b hr.1 hr.2.1 hr.2.2
    rw [hl] at this
    rw [expected, show MsgOwned.parse b rest = .ok none by rw [MsgOwned.parse, this]; rfl] at hm
    cases hm
  | some l =>
    have ho := owned_parse_some hr hl
    simp only [expected, ho.1] at hm
    cases hm
    exact cut_typed b hs h hr hl ho.2.2

/-- C106, part: through the client.  Every message that a program receives is for what the server said in that place; only
the last one before `StreamClosed`, of a connection that was closed, may tell only what was left of it.  (Missing: that this last one is not returned, which is
false; connections that fail are `C106_failed_partial`.) -/
theorem C106_told_partial (b : Build) (ss : List Said)
    (hs : ∀ s ∈ ss, s.Ok ∧ Readable b s.line ∧ LF ∉ s.line ∧ s.line.length + 1 < 4294967296) (net : List Net)
    (hn : arrived net <+: lineBytes (ss.map Said.line)) (he : ∀ e, ending net ≠ .failed e) (n i : Nat) (m : MsgOwned)
    (hm : (recvPolls b n .new net)[i]? = some (.ok (.ok m))) :
    ∃ s, ss[i]? = some s ∧
      ((∃ M, m.asTyped = .ok (some M) ∧ Heard s M) ∨
       (ending net = .closed ∧ (∀ x ∈ (recvPolls b n .new net).drop (i + 1), x = .ok (.error .streamClosed)) ∧
        ∃ r, m.asTyped = .ok r ∧ ∀ M, r = some M → (∃ m', M = .other m') ∨ ∃ s', Shortened s s' ∧ Heard s' M)) := by
  have hl : ∀ l ∈ ss.map Said.line, LF ∉ l ∧ Utf8 l := by
    intro l hl
    obtain ⟨s, h, rfl⟩ := List.mem_map.1 hl
    exact ⟨(hs s h).2.2.1, (hs s h).2.1.1⟩
  have hget : ∀ {L : List (Except Stop (Except RecvError MsgOwned))}, recvPolls b n .new net <+: L →
      ∀ {j : Nat} {x}, (recvPolls b n .new net)[j]? = some x → L[j]? = some x := by
    rintro L ⟨t, rfl⟩ j x hx
    rw [List.getElem?_append_left (List.getElem?_eq_some_iff.1 hx).1, hx]
  cases hend : ending net with
  | failed e => exact absurd hend (he e)
  | open_ =>
    have h := hget (C106_open_partial b _ hl net hn hend n) hm
    rw [List.map_map, List.getElem?_map] at h
    cases hsi : ss[i]? with
    | none => rw [hsi] at h; simp at h
    | some s =>
      rw [hsi] at h
      simp only [Option.map_some, Function.comp, Option.some.injEq] at h
      obtain ⟨h1, h2, -⟩ := hs s (List.mem_of_getElem? hsi)
      exact ⟨s, rfl, .inl (whole_told h1 h2 h)⟩
  | closed =>
    obtain ⟨whole, rest, ⟨-, h2, h3⟩, h4, -⟩ := C106_closed_partial b _ hl net hn hend
    have h := hget (h4 n) hm
    rcases Nat.lt_trichotomy i whole.length with hi | rfl | hi
    · rw [List.append_assoc, List.getElem?_append_left (by simpa using hi), List.getElem?_map] at h
      obtain ⟨t, ht⟩ := h2
      have hw : (ss.map Said.line)[i]? = whole[i]? := by rw [← ht, List.getElem?_append_left hi]
      cases hx : whole[i]? with
      | none => rw [hx] at h; simp at h
      | some l =>
        rw [hx] at h hw
        simp only [Option.map_some, Option.some.injEq] at h
        obtain ⟨s, hsi, rfl⟩ := line_at hw
        obtain ⟨g1, g2, -⟩ := hs s (List.mem_of_getElem? hsi)
        exact ⟨s, hsi, .inl (whole_told g1 g2 h)⟩
    · by_cases h0 : rest = []
      · exfalso
        rw [if_pos h0, List.append_nil, List.getElem?_append_right (by simp), List.getElem?_replicate] at h
        split at h <;> simp at h
      · rw [if_neg h0, List.append_assoc, List.getElem?_append_right (by simp)] at h
        simp only [List.length_map, Nat.sub_self, List.cons_append, List.nil_append, List.getElem?_cons_zero, Option.some.injEq] at h
        rcases h3 with h3 | ⟨l, hl', h3⟩
        · exact absurd h3 h0
        obtain ⟨s, hsi, rfl⟩ := line_at hl'
        obtain ⟨g1, g2, -, g4⟩ := hs s (List.mem_of_getElem? hsi)
        refine ⟨s, hsi, .inr ⟨rfl, ?_, rest_told g1 (within_cr g2.2.1 g4) h3 h⟩⟩
        intro x hx
        obtain ⟨j, hj⟩ := List.getElem?_of_mem hx
        rw [List.getElem?_drop] at hj
        have := hget (h4 n) hj
        rw [if_neg h0, List.getElem?_append_right (by simp), List.getElem?_replicate] at this
        split at this
        · exact (Option.some.inj this).symm
        · cases this
    · exfalso
      rw [List.getElem?_append_right (by split <;> simp <;> omega), List.getElem?_replicate] at h
      split at h <;> simp at h

/-- The beginning of a line in which only the name of a user is missing. -/
def untilUser (s : Said) (p : Place) : Bytes :=
  AT :: (renderTags s.tags ++ SP :: (COLON :: (b!"tmi.twitch.tv" ++ SP :: (b!"CLEARCHAT" ++ SP :: (HASH :: p.channel)))))

/-- C106, exactly: every way to shorten what the server says comes about. -/
theorem C106_occurs (b : Build) (s s' : Said) (hs : s.Ok) (hs' : s'.Ok) (h : Shortened s s') :
    ∃ c, c <+: s.line ++ [CR] ∧ (Readable b c → ∃ M, Message.parse b c = .ok (some M) ∧ Heard s' M) := by
  have whole : s'.line <+: s.line ++ [CR] → ∃ c, c <+: s.line ++ [CR] ∧
      (Readable b c → ∃ M, Message.parse b c = .ok (some M) ∧ Heard s' M) :=
    fun h => ⟨_, h, fun hr => C96_told b s' hs' hr⟩
  have quiet : ∀ (p : Place) (ch : Bytes), ch <+: p.channel → p.Ok → (∀ c, s ≠ .chat c) → s' = .cleared { p with channel := ch } →
      untilUser s { p with channel := ch } <+: s.line ++ [CR] →
      lookup (b!"room-id") s.tags = some p.channelId → lookup (b!"tmi-sent-ts") s.tags = some (showNat p.time) →
      ∃ c, c <+: s.line ++ [CR] ∧ (Readable b c → ∃ M, Message.parse b c = .ok (some M) ∧ Heard s' M) := by
    intro p ch hch hp hn e hpre h1 h2
    refine ⟨_, hpre, fun hr => ?_⟩
    have hsp := prefix_no hch hp.channel
    have hl : line (untilUser s { p with channel := ch }) = _ :=
      quiet_line (said_keys hn) (said_values hs hn) (pfx := b!"tmi.twitch.tv") (cmd := b!"CLEARCHAT") (by decide) (by decide) hsp (.inl rfl)
    obtain ⟨M, hM, hh, ho⟩ := clear_quiet (l := ⟨s.tags, some (b!"tmi.twitch.tv"), b!"CLEARCHAT", some (HASH :: ch), none⟩)
      (p := p) rfl rfl rfl h1 h2 hp.time
    obtain ⟨r, hp', -, R⟩ := parse_line hl hr.1 hr.2.1 hr.2.2
    subst e
    refine ⟨M, ?_, hh⟩
    unfold Message.parse
    rw [hp', bind_ok]
    exact typed_told R hM hh ho
  cases h with
  | chat c text action h =>
    refine whole ?_
    rw [Said.line, Said.line, Chat.line, Chat.line, frame_eq, frame_eq]
    simpa [Chat.tags, actionText] using h
  | cleared p ch h => exact whole (by simpa [Said.line, Said.tags] using h)
  | joined login channel ch h => exact whole (by simpa [Said.line] using h)
  | parted login channel ch h => exact whole (by simpa [Said.line] using h)
  | banned p user userId user' h => exact whole (by simpa [Said.line, Said.tags] using h)
  | timedOut p user userId n user' h => exact whole (by simpa [Said.line, Said.tags] using h)
  | deleted p author id text action text' action' h => exact whole (by simpa [Said.line, Said.tags] using h)
  | bannedNobody p user userId ch h =>
    refine quiet p ch h hs.1 (by simp) rfl ?_ (by simp [Said.tags, lookup]) (by simp [Said.tags, lookup])
    obtain ⟨t, ht⟩ := h
    exact ⟨t ++ SP :: COLON :: (user ++ [CR]), by simp [untilUser, Said.line, ← ht]⟩
  | timedOutNobody p user userId n ch h =>
    refine quiet p ch h hs.1 (by simp) rfl ?_ (by simp [Said.tags, lookup]) (by simp [Said.tags, lookup])
    obtain ⟨t, ht⟩ := h
    exact ⟨t ++ SP :: COLON :: (user ++ [CR]), by simp [untilUser, Said.line, ← ht]⟩

/-- What is received from a connection that brings a piece of a line and is closed. -/
theorem piece_received (b : Build) {c : Bytes} (h0 : c ≠ []) (hlf : LF ∉ c) (hu : Utf8 c) :
    ∃ N, ∀ k, recvPolls b (N + k) .new [.data c, .eof] = expected b (.ok c) :: List.replicate k (.ok (.error .streamClosed)) := by
  obtain ⟨N, hN⟩ := (C60_closed b [.data c, .eof] rfl).2
  have hd := lineBytes_delivered [] c (by simp) hlf
  refine ⟨N, fun k => ?_⟩
  rw [hN k]
  have e : arrived [.data c, .eof] = lineBytes [] ++ c := by simp [arrived, lineBytes]
  unfold deliveredAll
  rw [e, hd.1, hd.2, if_neg h0]
  simp [deliver, hu]

/-- C106 is false: whoever is timed out, if the connection is closed just before their name, then the program is told that
the chat was cleared. -/
theorem C106_negation (b : Build) (p : Place) (user userId : Bytes) (n : Nat) (hs : (Said.timedOut p user userId n).Ok)
    (hr : Readable b (Said.timedOut p user userId n).line) (hlf : LF ∉ (Said.timedOut p user userId n).line) :
    ∃ net, arrived net <+: lineBytes [(Said.timedOut p user userId n).line] ∧ ending net = .closed ∧
      ∃ N m M, recvPolls b N .new net = [.ok (.ok m), .ok (.error .streamClosed)] ∧ m.asTyped = .ok (some M) ∧
        Heard (.cleared p) M := by
  have e : (Said.timedOut p user userId n).line = untilUser (.timedOut p user userId n) p ++ SP :: (COLON :: user) := by
    simp [untilUser, Said.line]
  generalize hc : untilUser (.timedOut p user userId n) p = c at e
  have hpre : c <+: (Said.timedOut p user userId n).line := e ▸ List.prefix_append _ _
  have hrc : Readable b c := by
    refine ⟨(e ▸ hr.1).left (x := SP) (by decide), within_prefix hr.2.1 hpre, ?_⟩
    rintro - r hr'
    rw [← hc, untilUser] at hr'
    simp only [List.cons.injEq, true_and] at hr'
    simp [← hr']
  have hl := quiet_line (said_keys (s := .timedOut p user userId n) (by simp)) (said_values hs (by simp))
    (pfx := b!"tmi.twitch.tv") (cmd := b!"CLEARCHAT") (by decide) (by decide) hs.1.channel (.inl rfl)
  rw [show AT :: _ = c from hc] at hl
  obtain ⟨M, hM, hh, ho⟩ := clear_quiet
    (l := ⟨Said.tags (.timedOut p user userId n), some (b!"tmi.twitch.tv"), b!"CLEARCHAT", some (HASH :: p.channel), none⟩)
    (p := p) rfl rfl rfl (by simp [Line.tag, Said.tags, lookup]) (by simp [Line.tag, Said.tags, lookup]) hs.1.time
  have hown := owned_parse_some hrc hl
  obtain ⟨N, hN⟩ := piece_received b (c := c) (by rw [← hc]; simp [untilUser]) (prefix_no hpre hlf) hrc.1
  refine ⟨[.data c, .eof], ?_, rfl, N + 1, parsed b c, M, ?_, typed_told hown.2.2 hM hh ho, hh⟩
  · simpa [arrived, lineBytes] using hpre.trans (List.prefix_append _ _)
  · rw [hN 1, expected, hown.1]; rfl

/-- C106 is false: without SIMD, if the connection is closed in the tags of a message, then `recv` panics. -/
theorem C106_negation_scalar (checks : Bool) (c : Chat) :
    ∃ net, arrived net <+: lineBytes [c.line] ∧ ending net = .closed ∧
      ∃ N e, recvPolls ⟨.scalar, checks⟩ N .new net = [.error (.panic e)] := by
  obtain ⟨N, hN⟩ := piece_received ⟨.scalar, checks⟩ (c := [AT]) (by simp) (by decide) (.of_ascii (by decide))
  obtain ⟨e, he⟩ := (C01_parse_panics_iff ⟨.scalar, checks⟩ [AT] (.of_ascii (by decide)) (by decide)).2 (.inr ⟨rfl, rfl, by decide⟩)
  refine ⟨[.data [AT], .eof], ?_, rfl, N, e, ?_⟩
  · rw [Chat.line, frame_eq]
    simp [arrived, lineBytes]
  · rw [show N = N + 0 from rfl, hN 0, expected,
      show MsgOwned.parse ⟨.scalar, checks⟩ [AT] = .error e by rw [MsgOwned.parse, he]; rfl]
    rfl

/-! Non-vacuity of C106: a timeout whose line is cut off in the name of the user, after a chat message. -/

/-- A connection that is closed three bytes before the end of the second line. -/
def cutPieces : List Net :=
  [.data (servedChat.line.take 100), .pending, .data (servedChat.line.drop 100 ++ [CR, LF] ++ sampleMute.line.dropLast.dropLast), .eof]

theorem cutPieces_sent : ∀ s ∈ [.chat servedChat, sampleMute],
    s.Ok ∧ (∀ b, Readable b s.line) ∧ LF ∉ s.line ∧ s.line.length + 1 < 4294967296 := by
  intro s hs
  have h := samples_ok s (by simp only [List.mem_cons, List.not_mem_nil, or_false] at hs ⊢; rcases hs with rfl | rfl <;> simp)
  refine ⟨h.1, h.2.1, h.2.2, ?_⟩
  simp only [List.mem_cons, List.not_mem_nil, or_false] at hs
  rcases hs with rfl | rfl <;> decide +kernel

theorem cutPieces_arrived : arrived cutPieces <+: lineBytes ([.chat servedChat, sampleMute].map Said.line) := by decide +kernel

example := C106_told_partial ⟨.simd .sse2 5, true⟩ [.chat servedChat, sampleMute]
  (fun s hs => ⟨(cutPieces_sent s hs).1, (cutPieces_sent s hs).2.1 _, (cutPieces_sent s hs).2.2⟩) cutPieces cutPieces_arrived
  (by intro e h; rw [show ending cutPieces = .closed from rfl] at h; cases h)

/-- The first two results of that connection are messages, and the second tells of a timeout of `b` instead of `bob`. -/
example : (recvPolls ⟨.simd .sse2 5, true⟩ 5 .new cutPieces).map (fun r => match r with
      | .ok (.ok m) => (match m.asTyped with
        | .ok (some (.clearChat v)) => some v.action
        | _ => none)
      | _ => none) =
    [none, some (.timeOut (b!"b") (b!"7") 600000000000), none, none] := by decide +kernel

example := C106_closed_partial ⟨.scalar, true⟩ [b!"PING :a", b!"PING :b"] (by
    simp only [List.mem_cons, List.not_mem_nil, or_false, forall_eq_or_imp, forall_eq]
    exact ⟨⟨by decide, .of_ascii (by decide)⟩, by decide, .of_ascii (by decide)⟩)
  [.data (b!"PING :a\r\nPI"), .eof] (by decide +kernel) (by decide +kernel)
example := C106_open_partial ⟨.scalar, true⟩ [b!"PING :a", b!"PING :b"] (by
    simp only [List.mem_cons, List.not_mem_nil, or_false, forall_eq_or_imp, forall_eq]
    exact ⟨⟨by decide, .of_ascii (by decide)⟩, by decide, .of_ascii (by decide)⟩)
  [.data (b!"PING :a\r\nPI")] (by decide +kernel) (by decide +kernel)
example := C106_failed_partial ⟨.scalar, true⟩ [b!"PING :a", b!"PING :b"] (by
    simp only [List.mem_cons, List.not_mem_nil, or_false, forall_eq_or_imp, forall_eq]
    exact ⟨⟨by decide, .of_ascii (by decide)⟩, by decide, .of_ascii (by decide)⟩)
  [.data (b!"PING :a\r\nPI"), .fail ⟨.connectionReset, 0⟩] (by decide +kernel) ⟨.connectionReset, 0⟩ (by decide +kernel)

/-- A chat message that is cut off between `\r` and `\n` is no action any more. -/
example : Shortened (.chat servedChat) (.chat { servedChat with text := 0x01 :: b!"ACTION :) @x #y\x01\r", action := false }) :=
  .chat servedChat _ false (by decide +kernel)
example := C106_negation ⟨.simd .sse2 5, true⟩ ⟨b!"c", b!"1", 1594545155039⟩ (b!"bob") (b!"7") 600 (samples_ok sampleMute (by simp)).1
  ((samples_ok sampleMute (by simp)).2.1 _) (samples_ok sampleMute (by simp)).2.2
example := C106_negation_scalar true servedChat
example := C106_left_partial ⟨.simd .sse2 5, true⟩ sampleMute (samples_ok _ (by simp)).1 (sampleMute.line.dropLast)
  (by decide +kernel) (readable_of (by decide +kernel) _)
example := C106_occurs ⟨.simd .sse2 5, true⟩ sampleMute sampleWipe (samples_ok _ (by simp)).1 (samples_ok _ (by simp)).1
  (.timedOutNobody _ _ _ _ _ (List.prefix_refl _))

end Tmi.Props
