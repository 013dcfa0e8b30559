/-
C128: a pong tells which ping it answers.
-/
import Verif.Spec.Pong
import Verif.Props.Relay
import Verif.Proofs.Chatter

namespace Tmi.Props
open Tmi.Model Tmi.Spec Tmi.Proofs

theorem pong_line {host : Bytes} (h : HostName host) (t : Bytes) :
    ∃ l, line (b!":" ++ host ++ b!" PONG " ++ host ++ b!" :" ++ t) = some l ∧ l.command = b!"PONG" ∧ l.text = some t := by
  have e : b!":" ++ host ++ b!" PONG " ++ host ++ b!" :" ++ t =
      COLON :: (host ++ SP :: (b!"PONG" ++ SP :: (host ++ SP :: COLON :: t))) := by
    simp [SP, COLON]
  have hch : takeChannel (host ++ SP :: COLON :: t) = (none, host ++ SP :: COLON :: t) := by
    refine takeChannel_other ?_
    cases host with
    | nil => simp; decide
    | cons a host => simpa using h.2.2.2
  have htok : takeToken (b!"PONG" ++ SP :: (host ++ SP :: COLON :: t)) = (b!"PONG", host ++ SP :: COLON :: t) := by
    unfold takeToken
    rw [cut_append _ (by decide)]
  refine ⟨⟨[], some host, b!"PONG", none, some (host ++ SP :: COLON :: t)⟩, ?_, ?_⟩
  · rw [e]
    unfold line
    rw [takeTags_other (by simp; decide)]
    simp only []
    rw [takePrefix_space _ h.1]
    simp only [htok, hch]
    rw [if_neg (by decide), if_neg (by simp)]
  · refine ⟨rfl, ?_⟩
    have : cut COLON (host ++ SP :: COLON :: t) = some (host ++ [SP], t) := by
      have := cut_append (x := COLON) (a := host ++ [SP]) t (by simp; exact ⟨h.2.1, by decide⟩)
      simpa using this
    simp only [Line.text, Option.map_some, textOf, this]

/-- What the server answers to the line of a command. -/
theorem command_answers {c : Cmd} (h : PlainCmd c) (host : Bytes) :
    answersTo host (commandLine c) = (pinged c).map fun n => b!":" ++ host ++ b!" PONG " ++ host ++ b!" :" ++ n := by
  unfold answersTo
  cases c with
  | raw s => exact absurd h id
  | privmsg ch t r n =>
    obtain ⟨h1, h2, h3, h4, h5⟩ := h
    rw [privmsg_line h1 h2 fun v hv => ⟨(h5 v hv).1, (h5 v hv).2.1⟩]
    rfl
  | ping n =>
    rw [show commandLine (.ping n) = b!"PING" ++ SP :: (COLON :: n) by rfl,
      line_plain (by decide) (by decide) (by decide) (by decide), takeChannel_other (by simp; decide)]
    simp [Line.text, textOf_colon, pinged]
  | pong n =>
    cases n with
    | none => rfl
    | some n =>
      rw [show commandLine (.pong (some n)) = b!"PONG" ++ SP :: (COLON :: n) by rfl,
        line_plain (by decide) (by decide) (by decide) (by decide)]
      rfl
  | join c =>
    obtain ⟨h1, h2, h3, h4⟩ := channelName_plain h
    rw [show commandLine (.join c) = b!"JOIN " ++ channelName c by rfl, join_line h1 h2]
    rfl
  | joinAll cs =>
    have hc : ∀ p ∈ cs.map channelName, p.head? = some HASH ∧ SP ∉ p ∧ COMMA ∉ p ∧ LF ∉ p := by
      intro p hp
      obtain ⟨c, hc, rfl⟩ := List.mem_map.1 hp
      exact channelName_plain (h c hc)
    cases cs with
    | nil => rfl
    | cons c cs =>
      rw [show commandLine (.joinAll (c :: cs)) = b!"JOIN " ++ joinWith COMMA ((c :: cs).map channelName) by rfl,
        join_line (joinWith_head (by simp) fun p hp => (hc p hp).1)
          (joinWith_avoids (by decide) _ fun p hp => (hc p hp).2.1)]
      rfl

/-- C128: the server, who reads the bytes that a client sent, however they were cut into writes, answers exactly the
pings of the program, in order, each with its nonce. -/
theorem C128_answered (w w' : World) (cmds : List Cmd) (h0 : w.client.scratch = []) (h : Sent w cmds w')
    (hc : ∀ c ∈ cmds, PlainCmd c) (host : Bytes) :
    (receivedLines (wire w w')).flatMap (answersTo host) =
      (cmds.flatMap pinged).map fun n => b!":" ++ host ++ b!" PONG " ++ host ++ b!" :" ++ n := by
  rw [(C36_one_line_iff w w' cmds h0 h).2 fun c hc' => (command_requests (hc c hc')).1, List.flatMap_map]
  clear h
  induction cmds with
  | nil => rfl
  | cons c cs ih =>
    rw [List.flatMap_cons, List.flatMap_cons, List.map_append, ih fun c' hc' => hc c' (by simp [hc']),
      command_answers (hc c (by simp))]

theorem filterMap_same {α β : Type} {f g : α → Option β} : ∀ l : List α, (∀ a ∈ l, f a = g a) → l.filterMap f = l.filterMap g
  | [], _ => rfl
  | a :: l, h => by
    rw [List.filterMap_cons, List.filterMap_cons, h a (by simp), filterMap_same l fun a' h' => h a' (by simp [h'])]

/-- What is learnt from one line. -/
theorem learnt_line {b : Build} {s : Bytes} (hr : Readable b s) :
    learntNonce (expected b (.ok s)) = if isPong s then (line s).map Line.text else none := by
  cases hl : line s with
  | none =>
    have := parse_refines b hr.1 hr.2.1 hr.2.2
    rw [hl] at this
    have hp : MsgOwned.parse b s = .ok none := by
      unfold MsgOwned.parse
      rw [this]
      rfl
    simp [expected, hp, learntNonce, isPong, hl]
  | some l =>
    obtain ⟨h1, -, R⟩ := owned_parse_some hr hl
    simp only [expected, h1, learntNonce, isPong, hl]
    by_cases hc : l.command = b!"PONG"
    · have hM := ((fromIrc_exactly R fun h => absurd (hc.symm.trans h) (by decide)).2 (.pong ⟨l.text⟩)).2
        ⟨⟨hc, ⟨rfl⟩⟩, fun m' e => by cases e⟩
      simp only [MsgOwned.asTyped, hM, hc]
      rfl
    · have hno : ∀ p, Message.fromIrc (parsed b s).asRef ≠ .ok (some (.pong p)) := by
        intro p hp
        exact hc ((dispatch_of R.command).1 _ hp)
      rw [if_neg (by simpa using hc)]
      unfold MsgOwned.asTyped
      split
      · rename_i p hp
        exact absurd hp (hno p)
      · rfl

/-- C128: a program pings, among other commands; the server answers, and says anything else in between.  However all of
this is cut into pieces on the way, what the program receives as PONGs carries the nonces of its pings, all of them, in
order. -/
theorem C128_back (b : Build) (w w' : World) (cmds : List Cmd) (h0 : w.client.scratch = []) (h : Sent w cmds w')
    (hc : ∀ c ∈ cmds, PlainCmd c) (host : Bytes) (hh : HostName host) (says : List Bytes)
    (hs : says.filter isPong = (receivedLines (wire w w')).flatMap (answersTo host))
    (hr : ∀ s ∈ says, Readable b s ∧ LF ∉ s) (net : List Net)
    (hn : arrived net = says.flatMap fun s => s ++ [CR, LF]) (he : ending net = .open_) :
    ∃ N, ∀ n, N ≤ n → (recvPolls b n .new net).filterMap learntNonce = (cmds.flatMap pinged).map some := by
  obtain ⟨N, hN⟩ := (C60_open b net he).2
  refine ⟨N, fun n hn' => ?_⟩
  rw [hN n hn', hn]
  have e : (delivered (says.flatMap fun s => s ++ [CR, LF])) = says.map .ok := by
    unfold delivered
    rw [(receivedLines_join _).2 fun l hl => (hr l hl).2]
    refine List.map_congr_left fun s hs' => ?_
    unfold deliver
    rw [if_pos (hr s hs').1.1]
  rw [e, List.map_map, List.filterMap_map]
  have e2 : says.filterMap (learntNonce ∘ expected b ∘ .ok) = (says.filter isPong).filterMap fun s => (line s).map Line.text := by
    rw [List.filterMap_filter]
    exact filterMap_same _ fun s hs' => learnt_line (hr s hs').1
  rw [e2, hs, C128_answered w w' cmds h0 h hc host, List.filterMap_map]
  generalize cmds.flatMap pinged = ns
  induction ns with
  | nil => rfl
  | cons t ns ih =>
    obtain ⟨l, hl, -, ht⟩ := pong_line hh t
    rw [List.filterMap_cons]
    simp only [Function.comp, hl, Option.map_some, ht] at ih ⊢
    rw [ih]
    rfl

/-- C128: so if the nonces of its pings are different, a program that gets a PONG knows which ping it answers: the one
that had the nonce, and as many pings have been answered before as were sent before it. -/
theorem C128_which (b : Build) (w w' : World) (cmds : List Cmd) (h0 : w.client.scratch = []) (h : Sent w cmds w')
    (hc : ∀ c ∈ cmds, PlainCmd c) (host : Bytes) (hh : HostName host) (says : List Bytes)
    (hs : says.filter isPong = (receivedLines (wire w w')).flatMap (answersTo host))
    (hr : ∀ s ∈ says, Readable b s ∧ LF ∉ s) (net : List Net)
    (hn : arrived net = says.flatMap fun s => s ++ [CR, LF]) (he : ending net = .open_)
    (hd : (cmds.flatMap pinged).Nodup) (n i j : Nat) (x : Bytes)
    (hi : ((recvPolls b n .new net).filterMap learntNonce)[i]? = some (some x))
    (hj : (cmds.flatMap pinged)[j]? = some x) : i = j := by
  obtain ⟨N, hN⟩ := C128_back b w w' cmds h0 h hc host hh says hs hr net hn he
  obtain ⟨t, ht⟩ := recvPolls_mono b .new net (Nat.le_add_right n N)
  have := hN (n + N) (by omega)
  rw [← ht, List.filterMap_append] at this
  have hi' : ((cmds.flatMap pinged).map some)[i]? = some (some x) := by
    rw [← this, List.getElem?_append_left (List.getElem?_eq_some_iff.1 hi).1]
    exact hi
  rw [List.getElem?_map] at hi'
  obtain ⟨y, hy, hxy⟩ := Option.map_eq_some_iff.1 hi'
  cases hxy
  obtain ⟨hi1, hi2⟩ := List.getElem?_eq_some_iff.1 hy
  obtain ⟨hj1, hj2⟩ := List.getElem?_eq_some_iff.1 hj
  have ne := List.pairwise_iff_getElem.1 hd
  rcases Nat.lt_trichotomy i j with hlt | rfl | hlt
  · exact absurd (hi2.trans hj2.symm) (ne i j hi1 hj1 hlt)
  · rfl
  · exact absurd (hj2.trans hi2.symm) (ne j i hj1 hi1 hlt)

/-! Non-vacuity: two pings with a chat message in between; the server says something else as well. -/

def pingCommands : List Cmd := [.ping (b!"a :b"), .privmsg (b!"#c") (b!"PING") none none, .ping (b!"2")]

theorem pingCommands_plain : ∀ c ∈ pingCommands, PlainCmd c := by
  simp only [pingCommands, List.mem_cons, List.not_mem_nil, or_false, forall_eq_or_imp, forall_eq]
  exact ⟨by unfold PlainCmd; decide, ⟨by decide, by decide, by decide, by decide, by simp⟩, by unfold PlainCmd; decide⟩

theorem pings_sent : ∃ w', Sent (sampleWorld []) pingCommands w' ∧
    wire (sampleWorld []) w' = b!"PING :a :b\r\nPRIVMSG #c :PING\r\nPING :2\r\n" :=
  ⟨_, .more [.accept 3, .accept 100] _ (by decide +kernel) (.more [.accept 100] _ (by decide +kernel)
    (.more [.accept 100] _ (by decide +kernel) (.none _))), by decide +kernel⟩

def pongsSaid : List Bytes :=
  [b!":tmi.twitch.tv PONG tmi.twitch.tv :a :b", b!"PING :x", b!":tmi.twitch.tv PONG tmi.twitch.tv :2", b!""]

theorem pongsSaid_ok (b : Build) : ∀ s ∈ pongsSaid, Readable b s ∧ LF ∉ s := by
  simp only [pongsSaid, List.mem_cons, List.not_mem_nil, or_false, forall_eq_or_imp, forall_eq]
  exact ⟨⟨readable_of (by decide +kernel) b, by decide⟩, ⟨readable_of (by decide +kernel) b, by decide⟩,
    ⟨readable_of (by decide +kernel) b, by decide⟩, readable_of (by decide +kernel) b, by decide⟩

def pongsNet : List Net :=
  [.data (b!":tmi.twitch.tv PONG tmi.twi"), .pending, .data (b!"tch.tv :a :b\r\nPING :x\r"),
   .data (b!"\n:tmi.twitch.tv PONG tmi.twitch.tv :2\r\n\r\n")]

example : ∃ N, ∀ n, N ≤ n → (recvPolls sampleBuild n .new pongsNet).filterMap learntNonce = [some (b!"a :b"), some (b!"2")] := by
  obtain ⟨w', h1, h2⟩ := pings_sent
  exact C128_back sampleBuild _ w' pingCommands rfl h1 pingCommands_plain (b!"tmi.twitch.tv")
    ⟨by decide, by decide, by decide, by decide⟩ pongsSaid (by rw [h2]; decide +kernel) (pongsSaid_ok _) pongsNet
    (by decide +kernel) (by decide +kernel)

example : ((recvPolls sampleBuild 4 .new pongsNet).filterMap learntNonce)[1]? = some (some (b!"2")) ∧
    (pingCommands.flatMap pinged)[1]? = some (b!"2") ∧ (pingCommands.flatMap pinged).Nodup := by decide +kernel

end Tmi.Props
