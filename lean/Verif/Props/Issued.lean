/-
C118: on each connection the server gets the greeting and then the commands issued on it.
-/
import Verif.Proofs.Issued
import Verif.Proofs.Moments

namespace Tmi.Props
open Tmi.Model Tmi.Spec Tmi.Proofs

/-- C118: at any moment of any life of a client, what the server has got on the newest connection is (a
beginning of) some copies of the greeting, followed by a beginning of each command issued on this
connection, in the order they were issued, whole exactly where the call returned `Ok`.  Nothing issued on an
earlier connection is in it.  There are no more copies of the greeting than connections so far.  If the
`reconnect` that made this connection returned `Ok`, the greeting is whole and no copy of it is sent later. -/
theorem C118_issued {cfg : Config} {rs : List (Bool × Nat)} {cs : List (Cmd × Bool)} {w : World}
    (s : Since cfg rs cs w) :
    ∃ k n m g q, written (lastConnection w.log) = g ++ q ∧
      1 ≤ k ∧ k ≤ 1 + (rs.map (·.2)).sum ∧ n ≤ (rs.map (·.2)).sum ∧
      g <+: copies k (hello cfg.credentials) ∧
      Portions (hello cfg.credentials) n cs m q ∧
      (welcomed rs = true → g = copies k (hello cfg.credentials) ∧ n = 0) := by
  obtain ⟨k, n, m, g, q, i⟩ := since_newest s
  exact ⟨k, n, m, g, q, i.talk, i.least, i.most, i.waiting, i.greeting, i.pieces, i.whole⟩

theorem pieces_zero {hi : Bytes} {cs : List (Cmd × Bool)} {m : Nat} {q : Bytes} (h : Portions hi 0 cs m q) :
    m = 0 := by
  induction h with
  | none => rfl
  | raw _ _ _ _ _ _ _ ih => exact ih
  | own => rfl

theorem pieces_whole {hi : Bytes} {cs : List (Cmd × Bool)} {m : Nat} {q : Bytes} (h : Portions hi 0 cs m q)
    (hok : ∀ c ∈ cs, c.2 = true) : q = cs.flatMap fun c => commandBytes c.1 := by
  induction h with
  | none => rfl
  | raw h s ok p hp hp' _ ih =>
    rw [ih fun c hc => hok c (List.mem_append_left _ hc),
      hp' (hok _ (List.mem_append_right _ (List.mem_singleton.2 rfl)))]
    simp
  | own h c ok hc p hp hp' _ ih =>
    rw [ih fun c hc => hok c (List.mem_append_left _ hc),
      hp' (hok _ (List.mem_append_right _ (List.mem_singleton.2 rfl))), pieces_zero h]
    simp [copies]

/-- C118: as long as every `reconnect` that got a connection succeeded on it, the greeting comes exactly
once and first, and no command has anything in front of it. -/
theorem C118_once {cfg : Config} {rs : List (Bool × Nat)} {cs : List (Cmd × Bool)} {w : World}
    (s : Since cfg rs cs w) (h : ∀ r ∈ rs, r.2 ≠ 0 → r = (true, 1)) :
    ∃ q, written (lastConnection w.log) = hello cfg.credentials ++ q ∧
      Portions (hello cfg.credentials) 0 cs 0 q := by
  obtain ⟨k, n, m, g, q, i⟩ := since_newest s
  obtain ⟨h1, h2⟩ := i.whole (welcomed_of h)
  have hk := i.once h
  subst h2 hk
  have hp := i.pieces
  have hm := pieces_zero hp
  subst hm
  refine ⟨q, ?_, hp⟩
  rw [i.talk, h1]
  simp [copies]

/-- C118: and if the commands were all accepted, the server has got exactly the greeting and these
commands. -/
theorem C118_complete {cfg : Config} {rs : List (Bool × Nat)} {cs : List (Cmd × Bool)} {w : World}
    (s : Since cfg rs cs w) (h : ∀ r ∈ rs, r.2 ≠ 0 → r = (true, 1)) (hok : ∀ c ∈ cs, c.2 = true) :
    written (lastConnection w.log) = hello cfg.credentials ++ cs.flatMap fun c => commandBytes c.1 := by
  obtain ⟨q, h1, h2⟩ := C118_once s h
  rw [h1, pieces_whole h2 hok]

/-- C118: as lines: three of the greeting, then one for each command, if no text in them breaks a line. -/
theorem C118_lines {cfg : Config} {rs : List (Bool × Nat)} {cs : List (Cmd × Bool)} {w : World}
    (s : Since cfg rs cs w) (h : ∀ r ∈ rs, r.2 ≠ 0 → r = (true, 1)) (hok : ∀ c ∈ cs, c.2 = true)
    (hlogin : LF ∉ cfg.credentials.login) (htoken : ∀ t, cfg.credentials.token = some t → LF ∉ t)
    (hcs : ∀ c ∈ cs, (∀ t, c.1 ≠ .raw t) ∧ LF ∉ commandLine c.1) :
    receivedLines (written (lastConnection w.log)) =
      [b!"CAP REQ :twitch.tv/commands twitch.tv/tags twitch.tv/membership",
       b!"PASS " ++ passToken (cfg.credentials.token.getD (b!"just_a_lil_guy")),
       b!"NICK " ++ cfg.credentials.login] ++ cs.map fun c => commandLine c.1 := by
  rw [C118_complete s h hok]
  have e : hello cfg.credentials ++ (cs.flatMap fun c => commandBytes c.1) =
      ([b!"CAP REQ :twitch.tv/commands twitch.tv/tags twitch.tv/membership",
       b!"PASS " ++ passToken (cfg.credentials.token.getD (b!"just_a_lil_guy")),
       b!"NICK " ++ cfg.credentials.login] ++ cs.map fun c => commandLine c.1).flatMap
        fun l => l ++ [CR, LF] := by
    rw [List.flatMap_append]
    congr 1
    · simp [hello, CR, LF]
    · rw [List.flatMap_map]
      clear s hok
      induction cs with
      | nil => rfl
      | cons c cs ih =>
        rw [List.flatMap_cons, List.flatMap_cons, ih fun c hc => hcs c (List.mem_cons_of_mem _ hc)]
        congr 1
        have := (hcs c (by simp)).1
        cases hc : c.1 with
        | raw t => exact absurd hc (this t)
        | _ => rfl
  rw [e, receivedLines_join]
  intro l hl
  rcases List.mem_append.1 hl with hl | hl
  · have htok : LF ∉ passToken (cfg.credentials.token.getD (b!"just_a_lil_guy")) := by
      have : LF ∉ cfg.credentials.token.getD (b!"just_a_lil_guy") := by
        cases ht : cfg.credentials.token with
        | none => decide
        | some t => exact htoken t ht
      unfold passToken
      split
      · exact this
      · rw [List.mem_append]
        rintro (h | h)
        · exact absurd h (by decide)
        · exact this h
    simp only [List.mem_cons, List.not_mem_nil, or_false] at hl
    rcases hl with rfl | rfl | rfl
    · decide
    · rw [List.mem_append]
      rintro (h | h)
      · exact absurd h (by decide)
      · exact htok h
    · rw [List.mem_append]
      rintro (h | h)
      · exact absurd h (by decide)
      · exact hlogin h
  · obtain ⟨c, hc, rfl⟩ := List.mem_map.1 hl
    exact (hcs c hc).2

/-- C118, for every connection a client has had, not just the newest: let `l` be all that had happened when the
connection after the one number `j` was made (or all that has happened, if there was none after it).  Then the server
got on the connection number `j` (a beginning of) at most `j + 1` copies of the greeting, followed by a beginning of
each command issued while it was the newest connection, whole where the call returned `Ok`, and nothing else.  If the
call that opened it returned `Ok`, the greeting was whole, and not sent again. -/
theorem C118_every {cfg : Config} {all : List (Bool × List (Cmd × Bool))} {w : World} (s : Lives cfg all w)
    {l : List Effect} {j : Nat} {ok : Bool} {cs : List (Cmd × Bool)}
    (hl : w.log = l ∨ ∃ r, w.log = l ++ .connected :: r) (hj : connections l = j + 1)
    (hcs : all[j]? = some (ok, cs)) :
    ∃ k n m g q, written (lastConnection l) = g ++ q ∧ 1 ≤ k ∧ k ≤ 1 + j ∧ n ≤ j ∧
      g <+: copies k (hello cfg.credentials) ∧ Portions (hello cfg.credentials) n cs m q ∧
      (ok = true → g = copies k (hello cfg.credentials) ∧ n = 0) := by
  obtain ⟨-, -, h⟩ := lives_moment s
  obtain ⟨rs, w', s', rfl, rfl, rfl, -⟩ := h l j ok cs hl hj hcs
  exact C118_issued s'

/-- C118: and there is an entry for each connection. -/
theorem C118_every_listed {cfg : Config} {all : List (Bool × List (Cmd × Bool))} {w : World} (s : Lives cfg all w) :
    connections w.log = all.length := (lives_moment s).1

/-- C118: as long as each connection so far was opened by a call that returned `Ok` on it, the server got on each the
greeting, once, and then the commands issued on it; all of them, if all were accepted. -/
theorem C118_every_once {cfg : Config} {all : List (Bool × List (Cmd × Bool))} {w : World} (s : Lives cfg all w)
    {l : List Effect} {j : Nat} {ok : Bool} {cs : List (Cmd × Bool)}
    (hl : w.log = l ∨ ∃ r, w.log = l ++ .connected :: r) (hj : connections l = j + 1)
    (hcs : all[j]? = some (ok, cs)) (hok : ∀ x ∈ all.take (j + 1), x.1 = true) :
    (∃ q, written (lastConnection l) = hello cfg.credentials ++ q ∧ Portions (hello cfg.credentials) 0 cs 0 q) ∧
    ((∀ c ∈ cs, c.2 = true) →
      written (lastConnection l) = hello cfg.credentials ++ cs.flatMap fun c => commandBytes c.1) := by
  obtain ⟨-, -, h⟩ := lives_moment s
  obtain ⟨rs, w', s', rfl, -, -, h'⟩ := h l j ok cs hl hj hcs
  exact ⟨C118_once s' (h' hok), C118_complete s' (h' hok)⟩

/-! Non-vacuity: a client that connects, sends a message of which only five bytes are accepted, reconnects,
and joins a channel: the server gets on the new connection the greeting and the command to join, and
nothing of the message. -/

def issuedWorld₀ : World := (connect ⟨.scalar, true⟩ sampleConfig
  (sampleWorld (.tlsLoaded :: .opened :: goodReplies))).2
def issuedWorld₁ : World := (Cmd.send (.privmsg (b!"#a") (b!"secret") none none)
  { issuedWorld₀ with script := [.accept 5, .writeFailed ⟨.other 0, 1⟩] }).2
def issuedWorld₂ : World := (reconnect ⟨.scalar, true⟩
  { issuedWorld₁ with script := .slept :: .opened :: goodReplies }).2
def issuedWorld₃ : World := (Cmd.send (.join (b!"#a"))
  { issuedWorld₂ with script := [.accept 5, .accept 1000, .flushed] }).2

theorem issued_since₁ : Since sampleConfig [] [(.privmsg (b!"#a") (b!"secret") none none, false)]
    issuedWorld₁ :=
  .send (.connect ⟨.scalar, true⟩ (sampleWorld (.tlsLoaded :: .opened :: goodReplies)) (by decide +kernel)) _
    [.accept 5, .writeFailed ⟨.other 0, 1⟩]

theorem issued_since : Since sampleConfig [(true, 1)] [(.join (b!"#a"), true)] issuedWorld₃ :=
  .send (.reconnect issued_since₁ ⟨.scalar, true⟩ (.slept :: .opened :: goodReplies)
    (issuedWorld₂.log.drop issuedWorld₁.log.length) (by decide +kernel)) (.join (b!"#a"))
    [.accept 5, .accept 1000, .flushed]

example : written (lastConnection issuedWorld₁.log) =
    hello sampleConfig.credentials ++ b!"PRIVM" := by decide +kernel
example : written (lastConnection issuedWorld₃.log) = hello sampleConfig.credentials ++ b!"JOIN #a\r\n" :=
  C118_complete issued_since (by decide) (by decide)
example := C118_issued issued_since
example := C118_once issued_since (by decide)
example := C118_lines issued_since (by decide) (by decide) (by decide) (by decide +kernel) (by
  intro c hc
  simp only [List.mem_singleton] at hc
  subst hc
  exact ⟨by simp, by decide⟩)

/-! Non-vacuity: the same client, reconnecting again; on the first connection it gets, only five bytes of the greeting
are accepted and the connection fails; it gets another. -/

def issuedWorld₄ : World := (reconnect ⟨.scalar, true⟩
  { issuedWorld₃ with script := .slept :: .opened :: .accept 5 :: .writeFailed ⟨.other 0, 1⟩ :: .slept :: .opened ::
      goodReplies }).2

def issuedAll : List (Bool × List (Cmd × Bool)) :=
  [(true, [(.privmsg (b!"#a") (b!"secret") none none, false)]), (true, [(.join (b!"#a"), true)]), (false, []),
    (true, [])]

theorem issued_sent {cfg : Config} {old : List (Bool × List (Cmd × Bool))} {ok v : Bool} {cs : List (Cmd × Bool)}
    {w w' : World} (s : Lives cfg (old ++ [(ok, cs)]) w) (c : Cmd) (answers : List Answer)
    (hw : w' = (c.send { w with script := answers }).2)
    (h : returnedOk (c.send { w with script := answers }).1 = v) :
    Lives cfg (old ++ [(ok, cs ++ [(c, v)])]) w' := hw ▸ h ▸ .send s c answers

theorem issued_again {cfg : Config} {all : List (Bool × List (Cmd × Bool))} {v : Bool} {w w' : World}
    (s : Lives cfg all w) (b : Build) (answers : List Answer) (ev : List Effect) (n : Nat)
    (hw : w' = (reconnect b { w with script := answers }).2)
    (hev : w'.log = w.log ++ ev) (h : connections ev = n + 1)
    (hv : returnedOk (reconnect b { w with script := answers }).1 = v) :
    Lives cfg (all ++ List.replicate n (false, []) ++ [(v, [])]) w' := by
  subst hw hv
  exact .reconnect s b answers ev n hev h

theorem issued_lives : Lives sampleConfig issuedAll issuedWorld₄ := by
  have l₀ : Lives sampleConfig ([] ++ [(true, [])]) issuedWorld₀ :=
    .connect ⟨.scalar, true⟩ (sampleWorld (.tlsLoaded :: .opened :: goodReplies)) rfl (by decide +kernel)
  have l₁ := issued_sent (w' := issuedWorld₁) (v := false) l₀ (.privmsg (b!"#a") (b!"secret") none none)
    [.accept 5, .writeFailed ⟨.other 0, 1⟩] (by rw [issuedWorld₁]) (by decide +kernel)
  have l₂ := issued_again (w' := issuedWorld₂) (v := true) l₁ ⟨.scalar, true⟩ (.slept :: .opened :: goodReplies)
      (issuedWorld₂.log.drop issuedWorld₁.log.length) 0 (by rw [issuedWorld₂]) (by decide +kernel) (by decide +kernel)
      (by decide +kernel)
  have l₃ := issued_sent (w' := issuedWorld₃) (v := true) l₂ (.join (b!"#a")) [.accept 5, .accept 1000, .flushed]
    (by rw [issuedWorld₃]) (by decide +kernel)
  exact issued_again (w' := issuedWorld₄) (v := true) l₃ ⟨.scalar, true⟩ (.slept :: .opened :: .accept 5 ::
    .writeFailed ⟨.other 0, 1⟩ :: .slept :: .opened :: goodReplies)
    (issuedWorld₄.log.drop issuedWorld₃.log.length) 1 (by rw [issuedWorld₄]) (by decide +kernel) (by decide +kernel)
    (by decide +kernel)

example : connections issuedWorld₄.log = 4 := C118_every_listed issued_lives
example := C118_every issued_lives (l := issuedWorld₄.log) (j := 3) (.inl rfl) (by decide +kernel) rfl


/-- What had happened when the third connection was about to be made, and the fourth. -/
def issuedBefore₂ : List Effect := issuedWorld₄.log.take (issuedWorld₁.log.length + 12)
def issuedBefore₃ : List Effect := issuedWorld₄.log.take (issuedWorld₁.log.length + 16)

theorem issued_before₂ : issuedWorld₄.log = issuedBefore₂ ++ .connected ::
    issuedWorld₄.log.drop (issuedWorld₁.log.length + 13) := by decide +kernel
theorem issued_before₃ : issuedWorld₄.log = issuedBefore₃ ++ .connected ::
    issuedWorld₄.log.drop (issuedWorld₁.log.length + 17) := by decide +kernel

example : written (lastConnection issuedBefore₂) = hello sampleConfig.credentials ++ b!"JOIN #a\r\n" :=
  (C118_every_once issued_lives (.inr ⟨_, issued_before₂⟩) (j := 1) (by decide +kernel) rfl (by decide)).2 (by decide)
example := C118_every issued_lives (.inr ⟨_, issued_before₃⟩) (j := 2) (by decide +kernel) rfl
example : written (lastConnection issuedBefore₃) = b!"CAP R" := by decide +kernel
example : written (lastConnection issuedWorld₄.log) = copies 2 (hello sampleConfig.credentials) := by decide +kernel

end Tmi.Props
