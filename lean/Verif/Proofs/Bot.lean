/-
Lemmas about the programs of README.md and examples/basic.rs.
-/
import Verif.Spec.Bot
import Verif.Proofs.Attempts
import Verif.Props.Send
import Verif.Props.Connect
import Verif.Props.Msg
import Verif.Props.Unescape
import Verif.Props.Stream

namespace Tmi.Proofs
open Tmi.Model Tmi.Spec Tmi.Props

/-- What the loop needs to know about the handler of chat messages. -/
def Handles (handler : Privmsg → Act (Except SendError Unit)) (cfg : Config) (greets : Bool) : Prop :=
  ∀ (p : Privmsg) (w : World), (∃ x, p.sender.getName = .ok x) → w.client.config = cfg →
    handler p w = if greets = true ∧ b!"!yo" <+: p.text then
      (Cmd.privmsg p.channel (b!"yo") (some p.id) none).send w else (.ok (.ok ()), w)

theorem quickStart_handles (cfg : Config) : Handles quickStartOnMsg cfg false := by
  intro p w ⟨x, hx⟩ _
  rw [if_neg (by simp)]
  unfold quickStartOnMsg
  rw [act_bind, hx]
  rfl

theorem onMsg_handles (cfg : Config) : Handles onMsg cfg (!cfg.credentials.isAnon) := by
  intro p w ⟨x, hx⟩ hc
  unfold onMsg
  rw [act_bind, hx]
  simp only [lift, act_pure]
  rw [act_bind]
  simp only [getClient, hc]
  cases ha : cfg.credentials.isAnon with
  | true =>
    rw [if_pos rfl, if_neg (by simp)]
    rfl
  | false =>
    rw [if_neg (by simp)]
    by_cases hp : b!"!yo" <+: p.text
    · rw [if_neg (by rw [(hasPrefix_iff _ _).2 hp]; simp), if_pos ⟨rfl, hp⟩]
      rfl
    · have : hasPrefix (b!"!yo") p.text = false := by
        cases h : hasPrefix (b!"!yo") p.text with
        | false => rfl
        | true => exact absurd ((hasPrefix_iff _ _).1 h) hp
      rw [if_pos (by rw [this]; rfl), if_neg (fun h => hp h.2)]
      rfl

/-- Receiving a readable, orderly line and typing it. -/
theorem typed_cases {b : Build} {s : Bytes} (hr : Readable b s) (ho : Orderly s) {l : Line} (hl : line s = some l) :
    (∃ M, (parsed b s).asTyped = .ok (some M) ∧ MessageOf l M ∧
      ∀ p, M = .privmsg p → ∃ x, p.sender.getName = .ok x) ∨
    ((parsed b s).asTyped = .ok none ∧ ¬ ∃ M, MessageOf l M) := by
  have h := parse_refines b hr.1 hr.2.1 hr.2.2
  rw [hl] at h
  obtain ⟨m, h1, h2, h3, h4⟩ := h
  have h5 : MsgOwned.parse b s = .ok (some ⟨m.checks, s, m.parts⟩) := by
    unfold MsgOwned.parse
    rw [h1]
    rfl
  have h6 : parsed b s = ⟨m.checks, s, m.parts⟩ := by unfold parsed; rw [h5]
  have ht : (parsed b s).asTyped = Message.fromIrc m := by
    rw [h6]
    unfold MsgOwned.asTyped MsgOwned.asRef
    rw [← h2]
  have hp : Message.parse b s = Message.fromIrc m := by unfold Message.parse; rw [h1, bind_ok]
  have ho' : ∀ l, line s = some l → l.command = b!"ROOMSTATE" → ¬ FollowersOverflow l := ho
  have key := C21_message b s hr.1 hr.2.1 hr.2.2 ho'
  rw [ht, ← hp]
  obtain ⟨r, hres⟩ : ∃ r, Message.parse b s = .ok r := by
    refine C22_no_panic_partial b s hr.1 hr.2.1 hr.2.2 (.inr fun l' hl' hc v n hv hn => ?_)
    have := ho l' hl' hc
    by_cases hle : n ≤ 153722867280912930
    · exact hle
    · exact absurd ⟨v, n, hv, hn, by unfold maxMinutes; omega⟩ this
  rw [hres]
  cases r with
  | none =>
    right
    refine ⟨rfl, fun ⟨M, hM⟩ => ?_⟩
    have hex : ∃ M, MessageOf l M ∧ ∀ m, M = .other m → MsgRef.parse b s = .ok (some m) := by
      by_cases hM' : ∃ m', M = .other m'
      · obtain ⟨m', rfl⟩ := hM'
        exact ⟨.other m, hM, fun m' h => by cases h; exact h1⟩
      · exact ⟨M, hM, fun m' h => absurd ⟨m', h⟩ hM'⟩
    obtain ⟨M, hM, hM'⟩ := hex
    have := (key M).2 ⟨l, hl, hM, hM'⟩
    rw [hres] at this
    simp at this
  | some M =>
    left
    obtain ⟨l', hl', hM, _⟩ := (key M).1 hres
    rw [hl] at hl'
    cases hl'
    refine ⟨M, rfl, hM, fun p hp => ?_⟩
    subst hp
    have := C19_total _ (line_tag_utf8 hr.1 hl hM.2.senderName)
    obtain ⟨cs, h⟩ := this
    exact ⟨_, h⟩

open Classical in
/-- The reaction to a line with a typed message. -/
theorem react_typed {greets : Bool} {s : Bytes} {l : Line} (hl : line s = some l) {M : Message} (hM : MessageOf l M) :
    react greets s = if l.command = b!"PING" then .send (.pong l.text)
      else if l.command = b!"RECONNECT" then .rejoin
      else if greets = true ∧ SaysYo l then
        .send (.privmsg (l.channel.getD []) (b!"yo") (l.tag (b!"id")) none)
      else .ignore := by
  unfold react
  rw [hl]
  simp only []
  rw [if_neg (fun h => h ⟨M, hM⟩)]

theorem saysYo_iff {l : Line} {p : Privmsg} (hc : l.command = b!"PRIVMSG") (h : PrivmsgOf l p) :
    SaysYo l ↔ b!"!yo" <+: p.text := by
  obtain ⟨t, ht, htx⟩ := h.text
  constructor
  · rintro ⟨_, t', x, a, h1, h2, h3⟩
    rw [ht] at h1
    cases h1
    have e1 := (text_iff _ _ _).2 h2
    have e2 := (text_iff _ _ _).2 htx
    rw [e1] at e2
    cases e2
    exact h3
  · intro h3
    exact ⟨hc, t, p.text, p.isAction, ht, htx, h3⟩

/-- The reaction to a message that is neither a chat message, nor PING, nor RECONNECT. -/
theorem react_ignore {greets : Bool} {s : Bytes} {l : Line} (hl : line s = some l) {M : Message} (hM : MessageOf l M)
    (h1 : l.command ≠ b!"PING") (h2 : l.command ≠ b!"RECONNECT") (h3 : l.command ≠ b!"PRIVMSG") :
    react greets s = .ignore := by
  rw [react_typed hl hM, if_neg h1, if_neg h2, if_neg (fun h => h3 h.2.1)]

theorem react_ping {greets : Bool} {s : Bytes} {l : Line} (hl : line s = some l) {p : Ping}
    (hM : MessageOf l (.ping p)) : react greets s = .send (.pong p.nonce) := by
  rw [react_typed hl hM, if_pos hM.1, hM.2.nonce]

theorem react_reconnect {greets : Bool} {s : Bytes} {l : Line} (hl : line s = some l)
    (hM : MessageOf l .reconnect) : react greets s = .rejoin := by
  have hc : l.command = b!"RECONNECT" := hM
  rw [react_typed hl hM, if_neg (by rw [hc]; decide +kernel), if_pos hc]

theorem react_yo {greets : Bool} {s : Bytes} {l : Line} (hl : line s = some l) {p : Privmsg}
    (hM : MessageOf l (.privmsg p)) (h : greets = true ∧ b!"!yo" <+: p.text) :
    react greets s = .send (.privmsg p.channel (b!"yo") (some p.id) none) := by
  have hc : l.command = b!"PRIVMSG" := hM.1
  rw [react_typed hl hM, if_neg (by rw [hc]; decide +kernel), if_neg (by rw [hc]; decide +kernel),
    if_pos ⟨h.1, (saysYo_iff hM.1 hM.2).2 h.2⟩, hM.2.channel, hM.2.id]
  rfl

theorem react_chat {greets : Bool} {s : Bytes} {l : Line} (hl : line s = some l) {p : Privmsg}
    (hM : MessageOf l (.privmsg p)) (h : ¬ (greets = true ∧ b!"!yo" <+: p.text)) :
    react greets s = .ignore := by
  have hc : l.command = b!"PRIVMSG" := hM.1
  rw [react_typed hl hM, if_neg (by rw [hc]; decide +kernel), if_neg (by rw [hc]; decide +kernel),
    if_neg fun h' => h ⟨h'.1, (saysYo_iff hM.1 hM.2).1 h'.2⟩]

/-- What may have happened after a call that is followed by `?`. -/
theorem sendQ_cases (c : Cmd) (hc : ∀ s, c ≠ .raw s) (w : World) (h0 : w.client.scratch = []) :
    ∃ ws w', w'.log = w.log ++ ws ∧ w'.client.config = w.client.config ∧ w'.client.scratch = [] ∧
      w'.script <:+ w.script ∧
      ((sendQ c.send w = (.ok none, w') ∧ Writes (commandBytes c) ws) ∨
       (∃ e, sendQ c.send w = (.ok (some e), w') ∧ CutOff (commandBytes c) ws ∧ Interrupted (.ok e)) ∨
       (∃ e, sendQ c.send w = (.error e, w') ∧ CutOff (commandBytes c) ws ∧ Interrupted (.error e))) := by
  obtain ⟨⟨⟨ws, l1, l2, l3, l4⟩, hcfg, _, hscr, hnp, herr, hfull⟩, hs⟩ := send_effect c hc w
  rw [h0, List.nil_append] at l3 l4 hfull
  have hcut : (c.send w).1 ≠ .ok (.ok ()) → CutOff (commandBytes c) ws := by
    intro h
    refine ⟨l2, l3, fun e => h (hfull ?_)⟩
    rw [wire_of l1, e]
  refine ⟨ws, (c.send w).2, l1, hcfg, hs, hscr, ?_⟩
  clear l1 hcfg hs hscr hfull l3
  unfold sendQ
  rw [act_bind]
  generalize c.send w = res at *
  obtain ⟨r, w'⟩ := res
  rcases r with e | e | u
  · refine .inr (.inr ⟨e, rfl, hcut (by simp), ?_⟩)
    cases e with
    | panic f => exact absurd rfl (hnp f)
    | dropped => trivial
    | elapsed n => trivial
  · obtain ⟨e', rfl⟩ := herr e rfl
    exact .inr (.inl ⟨_, rfl, hcut (by simp), trivial⟩)
  · exact .inl ⟨rfl, l2, l4 rfl⟩

/-- What one round may do. -/
def RoundOk (b : Build) (cfg : Config) (channels : List Bytes) (greets : Bool) (w : World)
    (res : Except Stop (Option BotError) × World) : Prop :=
  ∃ ev, res.2.log = w.log ++ ev ∧
    (res.1 = .ok none ∧ res.2.client.scratch = [] ∧ res.2.client.config = cfg ∧ res.2.script <:+ w.script ∧
        res.2.script.length < w.script.length ∧
        (∀ ev' r', BotLog b cfg channels greets ev' r' → BotLog b cfg channels greets (ev ++ ev') r') ∨
     (∃ e, res.1 = .ok (some e) ∧ BotLog b cfg channels greets ev (.ok e)) ∨
     (∃ e, res.1 = .error e ∧ BotLog b cfg channels greets ev (.error e)))

theorem send_round {b : Build} {cfg : Config} {channels : List Bytes} {greets : Bool} {w w1 : World} {s : Bytes}
    {c : Cmd} (hc : ∀ s, c ≠ .raw s) (hre : react greets s = .send c) (h0 : w1.client.scratch = [])
    (h1 : w1.client.config = cfg) (hl : w1.log = w.log ++ [.took s]) (hs : w1.script <:+ w.script)
    (hlt : w1.script.length < w.script.length) :
    RoundOk b cfg channels greets w (sendQ c.send w1) := by
  obtain ⟨ws, w', l1, l2, l3, l4, hcase⟩ := sendQ_cases c hc w1 h0
  refine ⟨.took s :: ws, ?_⟩
  rcases hcase with ⟨e1, e2⟩ | ⟨e, e1, e2, e3⟩ | ⟨e, e1, e2, e3⟩ <;> rw [e1]
  · refine ⟨by simp [l1, hl], .inl ⟨rfl, l3, l2.trans h1, l4.trans hs, ?_, fun ev' r' h => ?_⟩⟩
    · exact Nat.lt_of_le_of_lt l4.length_le hlt
    · exact .answered hre e2 h
  · exact ⟨by simp [l1, hl], .inr (.inl ⟨e, rfl, .interrupted hre e2 e3⟩)⟩
  · exact ⟨by simp [l1, hl], .inr (.inr ⟨e, rfl, .interrupted hre e2 e3⟩)⟩

theorem rejoin_round {b : Build} {cfg : Config} {channels : List Bytes} {greets : Bool} {w w1 : World} {s : Bytes}
    (hre : react greets s = .rejoin) (h0 : w1.client.scratch = [])
    (h1 : w1.client.config = cfg) (hl : w1.log = w.log ++ [.took s]) (hs : w1.script <:+ w.script)
    (hlt : w1.script.length < w.script.length) (hr : AllReadable b w1.script) :
    RoundOk b cfg channels greets w ((do
      match ← reconnect b with
      | .error e => return some (.reconnect e)
      | .ok () => sendQ (joinAll channels) : Act (Option BotError)) w1) := by
  have eff := reconnectLoop_effect b w1.client.config (w1.script.length + 1)
    w1.client.config.backoff.maxTries w1.client.config.backoff.initialDelay .timeout w1
  rw [← reconnect_eq] at eff
  obtain ⟨⟨es, l1, _⟩, lc, lsc, l0⟩ := eff
  have hd : Redials b cfg es (reconnect b w1).1 := ⟨w1, h1, h0, hr, rfl, l1⟩
  rw [act_bind]
  generalize reconnect b w1 = res at *
  obtain ⟨r, w2⟩ := res
  simp only [] at *
  rcases r with e | e | u
  · exact ⟨.took s :: es, by simp [l1, hl], .inr (.inr ⟨e, rfl, .lost hre hd rfl⟩)⟩
  · exact ⟨.took s :: es, by simp [l1, hl, act_pure], .inr (.inl ⟨_, rfl, .lost hre hd rfl⟩)⟩
  · obtain ⟨ws, w', k1, k2, k3, k4, hcase⟩ := sendQ_cases (.joinAll channels) (by simp) w2 (l0 rfl)
    have hsend : (Cmd.joinAll channels).send = joinAll channels := rfl
    rw [hsend] at hcase
    refine ⟨.took s :: (es ++ ws), ?_⟩
    simp only []
    rcases hcase with ⟨e1, e2⟩ | ⟨e, e1, e2, e3⟩ | ⟨e, e1, e2, e3⟩ <;> rw [e1]
    · refine ⟨by simp [l1, hl, k1], .inl ⟨rfl, k3, k2.trans (lc.trans h1), k4.trans (lsc.trans hs), ?_, fun ev' r' h => ?_⟩⟩
      · exact Nat.lt_of_le_of_lt (k4.trans lsc).length_le hlt
      · have := BotLog.rejoined hre hd e2 h
        simpa using this
    · exact ⟨by simp [l1, hl, k1], .inr (.inl ⟨e, rfl, .notJoined hre hd e2 e3⟩)⟩
    · exact ⟨by simp [l1, hl, k1], .inr (.inr ⟨e, rfl, .notJoined hre hd e2 e3⟩)⟩

/-- The round of the loop, by the reaction to the line. -/
def perform (b : Build) (channels : List Bytes) : Reaction → Act (Option BotError)
  | .ignore => pure none
  | .giveUp e => pure (some e)
  | .send c => sendQ c.send
  | .rejoin => do
    match ← reconnect b with
    | .error e => return some (.reconnect e)
    | .ok () => sendQ (joinAll channels)

theorem react_not_raw {greets : Bool} {s : Bytes} {c : Cmd} (h : react greets s = .send c) : ∀ s, c ≠ .raw s := by
  rintro s' rfl
  unfold react at h
  split at h
  · simp at h
  · split at h
    · simp at h
    · split at h
      · simp at h
      · split at h
        · simp at h
        · split at h <;> simp at h

theorem botRound_line {handler : Privmsg → Act (Except SendError Unit)} {b : Build} {cfg : Config}
    {channels : List Bytes} {greets : Bool} (hh : Handles handler cfg greets) (w : World)
    (h1 : w.client.config = cfg) (hcl : w.client.closed = false) {s : Bytes} {rest : List Answer}
    (hsc : w.script = .line s :: rest) (hrs : Readable b s) (hos : Orderly s) :
    botRound handler b channels w =
      perform b channels (react greets s) { w with log := w.log ++ [.took s], script := rest } := by
  unfold botRound
  rw [act_bind, recv_run, if_neg (by simp [hcl]), hsc]
  simp only []
  have hp := parse_refines b hrs.1 hrs.2.1 hrs.2.2
  cases hl : line s with
  | none =>
    rw [hl] at hp
    have : MsgOwned.parse b s = .ok none := by unfold MsgOwned.parse; rw [hp]; rfl
    rw [this]
    have hre : react greets s = .giveUp (.recv (.parse s)) := by unfold react; rw [hl]
    rw [hre]
    rfl
  | some l =>
    rw [hl] at hp
    obtain ⟨m, hm, _⟩ := hp
    have hpm : MsgOwned.parse b s = .ok (some ⟨m.checks, s, m.parts⟩) := by unfold MsgOwned.parse; rw [hm]; rfl
    have hpd : parsed b s = ⟨m.checks, s, m.parts⟩ := by unfold parsed; rw [hpm]
    rw [hpm, ← hpd]
    simp only []
    rw [act_bind]
    rcases typed_cases hrs hos hl with ⟨M, ht, hM, hname⟩ | ⟨ht, hM⟩
    · rw [ht]
      simp only [lift, act_pure]
      cases M with
      | ping p => rw [react_ping hl hM]; rfl
      | reconnect => rw [react_reconnect hl hM]; rfl
      | privmsg p =>
        simp only []
        have hq : ∀ w1, w1.client.config = cfg → sendQ (handler p) w1 =
            if greets = true ∧ b!"!yo" <+: p.text then
              sendQ (Cmd.privmsg p.channel (b!"yo") (some p.id) none).send w1 else (.ok none, w1) := by
          intro w1 hw1
          unfold sendQ
          rw [act_bind, hh p w1 (hname p rfl) hw1]
          by_cases hy : greets = true ∧ b!"!yo" <+: p.text
          · rw [if_pos hy, if_pos hy, act_bind]
          · rw [if_neg hy, if_neg hy]; rfl
        rw [hq { w with log := w.log ++ [.took s], script := rest } h1]
        by_cases hy : greets = true ∧ b!"!yo" <+: p.text
        · rw [if_pos hy, react_yo hl hM hy]
          rfl
        · rw [if_neg hy, react_chat hl hM hy]
          rfl
      | other m =>
        have hc : l.command ∉ typedCommands := hM
        rw [react_ignore hl hM (fun h => hc (by rw [h]; decide +kernel))
          (fun h => hc (by rw [h]; decide +kernel)) (fun h => hc (by rw [h]; decide +kernel))]
        rfl
      | _ =>
        rw [react_ignore hl hM (by rw [hM.1]; decide +kernel) (by rw [hM.1]; decide +kernel)
          (by rw [hM.1]; decide +kernel)]
        rfl
    · rw [ht]
      have hre : react greets s = .giveUp .parse := by
        unfold react
        rw [hl]
        simp only []
        rw [if_pos hM]
      rw [hre]
      rfl

theorem round_ok {handler : Privmsg → Act (Except SendError Unit)} {b : Build} {cfg : Config}
    {channels : List Bytes} {greets : Bool} (hh : Handles handler cfg greets) (w : World)
    (h0 : w.client.scratch = []) (h1 : w.client.config = cfg) (hr : AllReadable b w.script)
    (ho : ∀ s, .line s ∈ w.script → Orderly s) :
    RoundOk b cfg channels greets w (botRound handler b channels w) := by
  have quiet : ∀ (r : Except Stop BotError) (w' : World), w'.log = w.log → Silence r →
      RoundOk b cfg channels greets w (r.map some, w') := by
    intro r w' h hsil
    refine ⟨[], by simp [h], ?_⟩
    cases r with
    | error e => exact .inr (.inr ⟨e, rfl, .silence hsil⟩)
    | ok e => exact .inr (.inl ⟨e, rfl, .silence hsil⟩)
  by_cases hcl : w.client.closed = true
  · unfold botRound
    rw [act_bind, recv_run, if_pos hcl]
    exact quiet (.ok (.recv .streamClosed)) _ rfl trivial
  by_cases hline : ∃ s rest, w.script = .line s :: rest
  · obtain ⟨s, rest, hsc⟩ := hline
    have hsuf : rest <:+ w.script := by rw [hsc]; exact List.suffix_cons _ _
    have hlt : rest.length < w.script.length := by rw [hsc]; simp
    have hm : Answer.line s ∈ w.script := by rw [hsc]; simp
    rw [botRound_line hh w h1 (by simpa using hcl) hsc (hr s hm) (ho s hm)]
    cases hre : react greets s with
    | ignore => exact ⟨[.took s], rfl, .inl ⟨rfl, h0, h1, hsuf, hlt, fun ev' r' h' => .ignored hre h'⟩⟩
    | giveUp e => exact ⟨[.took s], rfl, .inr (.inl ⟨_, rfl, .giveUp hre⟩)⟩
    | send c => exact send_round (react_not_raw hre) hre h0 h1 rfl hsuf hlt
    | rejoin => exact rejoin_round hre h0 h1 rfl hsuf hlt (fun s hs => hr s (hsuf.subset hs))
  unfold botRound
  rw [act_bind, recv_run, if_neg hcl]
  generalize hsc : w.script = sc at hline
  cases sc with
  | nil => exact quiet (.error .dropped) _ rfl trivial
  | cons a rest =>
    cases a with
    | elapsed n => exact quiet (.error (.elapsed n)) _ rfl trivial
    | readFailed e => exact quiet (.ok (.recv (.io e))) _ rfl trivial
    | eof => exact quiet (.ok (.recv .streamClosed)) _ rfl trivial
    | line s => exact absurd ⟨s, rest, rfl⟩ hline
    | _ => exact quiet (.error .dropped) _ rfl trivial

theorem loop_ok {handler : Privmsg → Act (Except SendError Unit)} {b : Build} {cfg : Config}
    {channels : List Bytes} {greets : Bool} (hh : Handles handler cfg greets) :
    ∀ (fuel : Nat) (w : World), w.script.length < fuel → w.client.scratch = [] → w.client.config = cfg →
      AllReadable b w.script → (∀ s, .line s ∈ w.script → Orderly s) →
      ∃ ev, (botLoop handler b channels fuel w).2.log = w.log ++ ev ∧
        BotLog b cfg channels greets ev (botLoop handler b channels fuel w).1
  | 0, w, hf, _, _, _, _ => absurd hf (Nat.not_lt_zero _)
  | fuel + 1, w, hf, h0, h1, hr, ho => by
    have hk := round_ok (channels := channels) hh w h0 h1 hr ho
    rw [botLoop, act_bind]
    generalize botRound handler b channels w = res at *
    obtain ⟨r, w2⟩ := res
    obtain ⟨ev, hl, ⟨e, k1, k2, k3, k4, k5⟩ | ⟨e, he, hb⟩ | ⟨e, he, hb⟩⟩ := hk
    · simp only [] at *
      subst e
      obtain ⟨ev', g1, g2⟩ := loop_ok (channels := channels) hh fuel w2 (by omega) k1 k2
        (fun s hs => hr s (k3.subset hs)) (fun s hs => ho s (k3.subset hs))
      exact ⟨ev ++ ev', by simp only []; rw [g1, hl, List.append_assoc], k5 _ _ g2⟩
    · simp only [] at *
      subst he
      exact ⟨ev, hl, hb⟩
    · simp only [] at *
      subst he
      exact ⟨ev, hl, hb⟩

theorem written_took_cons (s : Bytes) (ev : List Effect) : written (.took s :: ev) = written ev := rfl

theorem taken_writes : ∀ {ws : List Effect}, (∀ e ∈ ws, ∃ bs, e = .wrote bs) → taken ws = []
  | [], _ => rfl
  | e :: ws, h => by
    obtain ⟨bs, rfl⟩ := h e List.mem_cons_self
    exact taken_writes (ws := ws) fun e he => h e (List.mem_cons_of_mem _ he)

/-- `connect` uses up answers one after the other. -/
theorem connect_script (b : Build) (cfg : Config) (w : World) : (connect b cfg w).2.script <:+ w.script := by
  unfold connect
  rcases next_cases w with ⟨hs, hn⟩ | ⟨n, rest, hs, hn⟩ | ⟨a, rest, hs, hne, hn⟩
  · rw [act_bind_error hn]; exact List.suffix_refl _
  · rw [act_bind_error hn, hs]; exact List.suffix_cons _ _
  rw [act_bind_ok hn, hs]
  have q0 : rest <:+ a :: rest := List.suffix_cons _ _
  cases a with
  | elapsed n => exact absurd rfl (hne n)
  | tlsLoaded =>
    simp only []
    rw [act_bind, open_run]
    cases hr : rest with
    | nil => exact List.suffix_cons _ _
    | cons a rest' =>
      have q1 : rest' <:+ .tlsLoaded :: a :: rest' := (List.suffix_cons _ _).trans (List.suffix_cons _ _)
      cases a with
      | elapsed n =>
        cases n with
        | zero => exact q1
        | succ n => exact q1
      | openFailed e => exact q1
      | opened =>
        simp only [act_bind, emit, setClient, withTimeout]
        generalize hw1 : World.mk _ (w.log ++ [.open_] ++ [.connected]) rest' = w1
        have s1 : w1.script = rest' := by rw [← hw1]
        have hh := (handshake_effect b w1).script
        rw [s1] at hh
        cases hres : handshake b w1 with
        | mk r w2 =>
          rw [hres] at hh
          have q2 := hh.trans q1
          cases r with
          | error s =>
            cases s with
            | elapsed n => cases n <;> exact q2
            | dropped => exact q2
            | panic f => exact q2
          | ok r => exact q2
      | _ => exact q1
  | _ => exact q0

/-! ### A network that accepts everything -/

theorem sendRaw_accepts {s : Bytes} (hs : endsWith [CR, LF] s = true) (w : World) {rest : List Answer}
    (h : Accepts s w.script rest) : (sendRaw s w).1 = .ok (.ok ()) ∧ (sendRaw s w).2.script = rest := by
  obtain ⟨w', h1, h2⟩ := writeAll_accepts w h
  unfold sendRaw rawMessage
  rw [if_pos hs]
  simp only []
  rw [act_bind_ok h1]
  exact ⟨rfl, h2⟩

theorem withScratch_accepts {data : Bytes} {w : World} {rest : List Answer}
    (hs : endsWith [CR, LF] (w.client.scratch ++ data) = true)
    (h : Accepts (w.client.scratch ++ data) w.script rest) :
    (withScratch (fun f => sendRaw (f ++ data)) w).1 = .ok (.ok ()) ∧
      (withScratch (fun f => sendRaw (f ++ data)) w).2.script = rest := by
  unfold withScratch
  rw [act_bind_ok (x := takeScratch) (a := w.client.scratch)
    (w' := { w with client := { w.client with scratch := [] } }) rfl]
  obtain ⟨h1, h2⟩ := sendRaw_accepts hs { w with client := { w.client with scratch := [] } } h
  simp only []
  rw [act_bind]
  generalize sendRaw (w.client.scratch ++ data) { w with client := { w.client with scratch := [] } } = res at *
  obtain ⟨r, w'⟩ := res
  simp only [] at h1 h2
  subst h1
  exact ⟨rfl, h2⟩

theorem joinChannel_accepts {channel : Bytes} {w : World} {rest : List Answer}
    (h : Accepts (w.client.scratch ++ (b!"JOIN " ++ displayChannel channel ++ [CR, LF])) w.script rest) :
    (joinChannel channel w).1 = .ok (.ok ()) ∧ (joinChannel channel w).2.script = rest := by
  unfold joinChannel
  rw [act_bind_ok (x := takeScratch) (a := w.client.scratch)
    (w' := { w with client := { w.client with scratch := [] } }) rfl]
  have hs : endsWith [CR, LF] (w.client.scratch ++ (b!"JOIN " ++ displayChannel channel ++ [CR, LF]))
      = true := by
    rw [← List.append_assoc]; exact crlf_suffix _
  obtain ⟨h1, h2⟩ := sendRaw_accepts hs { w with client := { w.client with scratch := [] } } h
  generalize w.client.scratch ++ (b!"JOIN " ++ displayChannel channel ++ [CR, LF]) = data at *
  rw [act_bind]
  generalize sendRaw data { w with client := { w.client with scratch := [] } } = res at *
  obtain ⟨r, w'⟩ := res
  simp only [] at h1 h2
  subst h1
  exact ⟨rfl, h2⟩

/-- A command succeeds if the network accepts it. -/
theorem send_accepts (c : Cmd) (hc : ∀ s, c ≠ .raw s) (w : World) {rest : List Answer}
    (h : Accepts (w.client.scratch ++ commandBytes c) w.script rest) :
    (c.send w).1 = .ok (.ok ()) ∧ (c.send w).2.script = rest := by
  have crlf : ∀ x : Bytes, endsWith [CR, LF] (w.client.scratch ++ (x ++ [CR, LF])) = true := by
    intro x; rw [← List.append_assoc]; exact crlf_suffix _
  cases c with
  | raw s => exact absurd rfl (hc s)
  | privmsg ch text r n =>
    have : commandBytes (.privmsg ch text r n) = commandLine (.privmsg ch text r n) ++ [CR, LF] := rfl
    rw [← privmsgText_eq] at this h
    exact withScratch_accepts (data := privmsgText ch text r n) (by rw [this]; exact crlf _) h
  | ping n => exact withScratch_accepts (data := b!"PING :" ++ n ++ [CR, LF]) (crlf _) h
  | pong n =>
    cases n with
    | none => exact withScratch_accepts (data := b!"PONG" ++ [CR, LF]) (crlf _) h
    | some n => exact withScratch_accepts (data := b!"PONG :" ++ n ++ [CR, LF]) (crlf _) h
  | join ch =>
    refine joinChannel_accepts ?_
    rw [displayChannel_eq]
    exact h
  | joinAll cs =>
    have : commandBytes (.joinAll cs) = joinAllText cs := by rw [joinAllText_eq]; rfl
    rw [this] at h
    exact withScratch_accepts (data := joinAllText cs) (by rw [joinAllText_eq]; exact crlf _) h

/-- More fuel than answers makes no difference. -/
theorem fuel_irrelevant {handler : Privmsg → Act (Except SendError Unit)} {b : Build} {cfg : Config}
    {channels : List Bytes} {greets : Bool} (hh : Handles handler cfg greets) :
    ∀ (n m : Nat) (w : World), w.script.length < n → w.script.length < m → w.client.scratch = [] →
      w.client.config = cfg → AllReadable b w.script → (∀ s, .line s ∈ w.script → Orderly s) →
      botLoop handler b channels n w = botLoop handler b channels m w
  | 0, _, _, h, _, _, _, _, _ => absurd h (Nat.not_lt_zero _)
  | _ + 1, 0, _, _, h, _, _, _, _ => absurd h (Nat.not_lt_zero _)
  | n + 1, m + 1, w, hn, hm, h0, h1, hr, ho => by
    have hk := round_ok (channels := channels) hh w h0 h1 hr ho
    rw [botLoop, botLoop, act_bind, act_bind]
    generalize botRound handler b channels w = res at *
    obtain ⟨r, w2⟩ := res
    obtain ⟨ev, hl, ⟨e, k1, k2, k3, k4, k5⟩ | ⟨e, he, hb⟩ | ⟨e, he, hb⟩⟩ := hk
    · simp only [] at *
      subst e
      exact fuel_irrelevant hh n m w2 (by omega) (by omega) k1 k2
        (fun s hs => hr s (k3.subset hs)) (fun s hs => ho s (k3.subset hs))
    · simp only [] at *
      subst he
      rfl
    · simp only [] at *
      subst he
      rfl

/-- One round of `runBot`. -/
theorem runBot_step {handler : Privmsg → Act (Except SendError Unit)} {b : Build} {cfg : Config}
    {channels : List Bytes} {greets : Bool} (hh : Handles handler cfg greets) (w w2 : World)
    (h0 : w.client.scratch = []) (h1 : w.client.config = cfg) (hr : AllReadable b w.script)
    (ho : ∀ s, .line s ∈ w.script → Orderly s) (hw : botRound handler b channels w = (.ok none, w2)) :
    runBot handler b channels w = runBot handler b channels w2 := by
  obtain ⟨ev, hl, ⟨e, k1, k2, k3, k4, k5⟩ | ⟨e, he, hb⟩ | ⟨e, he, hb⟩⟩ := round_ok (channels := channels) hh w h0 h1 hr ho
  · rw [hw] at k1 k2 k3 k4
    unfold runBot
    rw [botLoop, act_bind, hw]
    exact fuel_irrelevant hh _ _ w2 k4 (Nat.lt_succ_self _) k1 k2
      (fun s hs => hr s (k3.subset hs)) (fun s hs => ho s (k3.subset hs))
  · rw [hw] at he; simp at he
  · rw [hw] at he; simp at he

theorem runBot_served {handler : Privmsg → Act (Except SendError Unit)} {b : Build} {cfg : Config}
    {channels : List Bytes} {greets : Bool} (hh : Handles handler cfg greets) {ss : List Bytes}
    {script rest : List Answer} (h : Served greets ss script rest) : ∀ (w : World), w.script = script →
    w.client.scratch = [] → w.client.config = cfg → w.client.closed = false → AllReadable b w.script →
    (∀ s, .line s ∈ w.script → Orderly s) →
    ∃ ev w', w'.log = w.log ++ ev ∧ w'.client = w.client ∧ w'.script = rest ∧ rest <:+ w.script ∧
      taken ev = ss ∧ written ev = answers greets ss ∧
      runBot handler b channels w = runBot handler b channels w' := by
  induction h with
  | done rest => exact fun w hs _ _ _ _ _ => ⟨[], w, by simp, rfl, hs, by rw [hs]; exact List.suffix_refl _, rfl, rfl, rfl⟩
  | @ignored s ss script rest hre hsv ih =>
    intro w hs h0 h1 hcl hr ho
    have hm : Answer.line s ∈ w.script := by rw [hs]; simp
    have hsuf : script <:+ w.script := by rw [hs]; exact List.suffix_cons _ _
    have hround := botRound_line (channels := channels) hh w h1 hcl hs (hr s hm) (ho s hm)
    rw [hre] at hround
    have hstep := runBot_step hh w _ h0 h1 hr ho hround
    obtain ⟨ev, w', e1, e2, e3, e4, e5, e6, e7⟩ := ih { w with log := w.log ++ [.took s], script := script } rfl h0 h1 hcl
      (fun s hs => hr s (hsuf.subset hs)) (fun s hs => ho s (hsuf.subset hs))
    refine ⟨.took s :: ev, w', by rw [e1]; simp, e2, e3, e4.trans hsuf, ?_, ?_, hstep.trans e7⟩
    · rw [taken, e5]
    · unfold answers at e6 ⊢
      rw [List.flatMap_cons, hre, written_took_cons, e6]
      rfl
  | @answered s c ss script mid rest hre ha hsv ih =>
    intro w hs h0 h1 hcl hr ho
    have hm : Answer.line s ∈ w.script := by rw [hs]; simp
    have hsuf : script <:+ w.script := by rw [hs]; exact List.suffix_cons _ _
    have hround := botRound_line (channels := channels) hh w h1 hcl hs (hr s hm) (ho s hm)
    rw [hre] at hround
    have hraw := react_not_raw hre
    obtain ⟨⟨⟨ws, l1, l2, l3, l4⟩, hcfg, hcls, hscr, hnp, herr, hfull⟩, hs0⟩ := send_effect c hraw
      { w with log := w.log ++ [.took s], script := script }
    have hok := send_accepts c hraw { w with log := w.log ++ [.took s], script := script } (rest := mid)
      (by simp only [h0, List.nil_append]; exact ha)
    simp only [h0, List.nil_append] at l3 l4
    have hr1 : perform b channels (.send c) { w with log := w.log ++ [.took s], script := script }
        = (.ok none, (c.send { w with log := w.log ++ [.took s], script := script }).2) := by
      show sendQ c.send _ = _
      unfold sendQ
      rw [act_bind]
      generalize c.send { w with log := w.log ++ [.took s], script := script } = res at *
      obtain ⟨r, w'⟩ := res
      have : r = .ok (.ok ()) := hok.1
      subst this
      rfl
    rw [hr1] at hround
    have hstep := runBot_step hh w _ h0 h1 hr ho hround
    have l4 := l4 hok.1
    have hmid := hok.2
    clear hok hr1 hround
    generalize (c.send { w with log := w.log ++ [.took s], script := script }).2 = w2 at *
    have hcl2 : w2.client = w.client := by
      have a1 : w2.client.config = w.client.config := hcfg
      have a2 : w2.client.closed = w.client.closed := hcls
      have a3 : w2.client.scratch = w.client.scratch := hs0.trans h0.symm
      revert a1 a2 a3
      cases w2.client; cases w.client
      intro a1 a2 a3
      simp only [] at a1 a2 a3
      rw [a1, a2, a3]
    have hsuf2 : w2.script <:+ w.script := hscr.trans hsuf
    obtain ⟨ev, w', e1, e2, e3, e4, e5, e6, e7⟩ := ih w2 hmid (by rw [hcl2]; exact h0) (by rw [hcl2]; exact h1)
      (by rw [hcl2]; exact hcl) (fun s hs => hr s (hsuf2.subset hs)) (fun s hs => ho s (hsuf2.subset hs))
    refine ⟨.took s :: (ws ++ ev), w', by rw [e1, l1]; simp, e2.trans hcl2, e3, e4.trans hsuf2, ?_, ?_, hstep.trans e7⟩
    · rw [taken, taken_append, taken_writes l2, e5]
      rfl
    · unfold answers at e6 ⊢
      rw [List.flatMap_cons, hre, written_took_cons, written_append, e6, l4]

end Tmi.Proofs
