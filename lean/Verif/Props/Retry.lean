/-
C122: commands that are sent again on a new connection are carried out exactly once.
-/
import Verif.Proofs.Retry
import Verif.Proofs.Bot
import Verif.Proofs.LikeNew

namespace Tmi.Props
open Tmi.Model Tmi.Spec Tmi.Proofs

/-- C122: take any life of a client in which nothing was sent on a connection after a command failed there, nor on a
connection on which the client was not welcomed.  Over all its connections, the complete lines that were sent, apart
from those with which the client introduces itself, are exactly the commands whose calls returned `Ok`, in order, each
once: a command that failed or was dropped has not been sent, however much of it was. -/
theorem C122_sent {cfg : Config} {all : List (Bool × List (Cmd × Bool))} {w : World} (s : Lives cfg all w)
    (hcare : Careful all) (hone : ∀ x ∈ all, ∀ c ∈ x.2, OneLine c.1)
    (hlogin : LF ∉ cfg.credentials.login) (htoken : ∀ t, cfg.credentials.token = some t → LF ∉ t) :
    orders (sentOn w.log) = (accepted all).map commandLine := by
  have h := all_orders s hcare hone hlogin htoken
  unfold orders accepted
  rw [List.flatMap_def, h, List.map_map]
  clear h s hcare hone
  induction all with
  | nil => rfl
  | cons x all ih =>
    rw [List.flatMap_cons, List.filter_append, List.map_append]
    rw [List.map_cons, List.flatten_cons, ih]
    rfl

/-- C122: and if of what was sent on some connections only a beginning arrives, the server is asked to do only some of
these commands, still in order and none more than once. -/
theorem C122_arrived {cfg : Config} {all : List (Bool × List (Cmd × Bool))} {w : World} (s : Lives cfg all w)
    (hcare : Careful all) (hone : ∀ x ∈ all, ∀ c ∈ x.2, OneLine c.1)
    (hlogin : LF ∉ cfg.credentials.login) (htoken : ∀ t, cfg.credentials.token = some t → LF ∉ t)
    {got : List Bytes} (h : Arrive got (sentOn w.log)) :
    (orders got).Sublist ((accepted all).map commandLine) := by
  rw [← C122_sent s hcare hone hlogin htoken]
  exact arrive_orders h

/-! ### The program that tries again -/

theorem remaining_snoc (cs : List Cmd) (gs : List Gave) (g : Gave) : remaining cs (gs ++ [g]) =
    match g with
    | .sent (.ok (.ok ())) => ((remaining cs gs).1.tail, false)
    | .sent _ => ((remaining cs gs).1, true)
    | .reconnected (.ok (.ok ())) => ((remaining cs gs).1, false)
    | .reconnected _ => ((remaining cs gs).1, true)
    | .received _ => remaining cs gs := by
  unfold remaining
  rw [List.foldl_append]
  rcases List.foldl _ (cs, false) gs with ⟨todo, broken⟩
  cases g <;> rfl

theorem remaining_mem (cs : List Cmd) : ∀ (gs : List Gave), ∀ c ∈ (remaining cs gs.reverse).1, c ∈ cs
  | [], _, hc => hc
  | g :: gs, c, hc => by
    refine remaining_mem cs gs c ?_
    rw [List.reverse_cons, remaining_snoc] at hc
    split at hc
    · exact List.mem_of_mem_tail hc
    all_goals exact hc

/-- The state of the program between two calls. -/
structure Trying (cfg : Config) (cs : List Cmd) (gs : List Gave) (all : List (Bool × List (Cmd × Bool))) (w : World) :
    Prop where
  life : Lives cfg all w
  care : Careful all
  mine : ∀ x ∈ all, ∀ c ∈ x.2, c.1 ∈ cs
  done : accepted all ++ (remaining cs gs).1 = cs
  ready : (remaining cs gs).2 = false → ∃ old now, all = old ++ [(true, now)] ∧ ∀ c ∈ now, c.2 = true

theorem accepted_append (a b : List (Bool × List (Cmd × Bool))) : accepted (a ++ b) = accepted a ++ accepted b := by
  unfold accepted
  rw [List.flatMap_append, List.filter_append, List.map_append]

theorem trying_step {b : Build} {cfg : Config} {cs : List Cmd} {gs : List Gave}
    {all : List (Bool × List (Cmd × Bool))} {w : World} (t : Trying cfg cs gs all w) {k : Call}
    (hk : retrying cs gs = some k) :
    ∃ all', Trying cfg cs (gs ++ [(k.make b w).1]) all' (k.make b w).2 := by
  unfold retrying at hk
  rcases hr : remaining cs gs with ⟨todo, broken⟩
  have hdone := t.done
  rw [hr] at hk hdone
  cases broken with
  | false =>
    obtain ⟨old, now, rfl, hnow⟩ := t.ready (by rw [hr])
    cases todo with
    | nil => simp at hk
    | cons c todo =>
      simp only [Option.some.injEq] at hk
      subst hk
      have life : Lives cfg (old ++ [(true, now ++ [(c, returnedOk (c.send w).1)])]) (c.send w).2 :=
        .send t.life c w.script
      have care : Careful (old ++ [(true, now ++ [(c, returnedOk (c.send w).1)])]) := by
        intro x hx
        rcases List.mem_append.1 hx with hx | hx
        · exact t.care x (List.mem_append_left _ hx)
        · rw [List.mem_singleton.1 hx]
          refine ⟨by simp, fun d hd => ?_⟩
          rw [List.dropLast_concat] at hd
          exact hnow d hd
      have mine : ∀ x ∈ old ++ [(true, now ++ [(c, returnedOk (c.send w).1)])], ∀ d ∈ x.2, d.1 ∈ cs := by
        intro x hx d hd
        rcases List.mem_append.1 hx with hx | hx
        · exact t.mine x (List.mem_append_left _ hx) d hd
        · rw [List.mem_singleton.1 hx] at hd
          rcases List.mem_append.1 hd with hd | hd
          · exact t.mine (true, now) (List.mem_append_right _ (List.mem_singleton.2 rfl)) d hd
          · rw [List.mem_singleton.1 hd, ← hdone]
            simp
      refine ⟨_, life, care, mine, ?_, ?_⟩
      · rw [remaining_snoc, hr]
        simp only [Call.make]
        rw [accepted_append] at hdone ⊢
        have e : ∀ v, accepted [(true, now ++ [(c, v)])] = accepted [(true, now)] ++ if v then [c] else [] := by
          intro v
          unfold accepted
          cases v <;> simp
        rw [e]
        rcases h : (c.send w).1 with f | e | u
        · simpa [returnedOk] using hdone
        · simpa [returnedOk] using hdone
        · simpa [returnedOk] using hdone
      · rw [remaining_snoc, hr]
        simp only [Call.make]
        rcases h : (c.send w).1 with f | e | u
        · simp
        · simp
        · intro _
          refine ⟨old, _, rfl, fun d hd => ?_⟩
          rcases List.mem_append.1 hd with hd | hd
          · exact hnow d hd
          · rw [List.mem_singleton.1 hd]; rfl
  | true =>
    simp only [Option.some.injEq] at hk
    subst hk
    have left := (reconnectLoop_leftover b w.client.config (w.script.length + 1)
      w.client.config.backoff.maxTries w.client.config.backoff.initialDelay .timeout w).log
    obtain ⟨ev, hev, hok, -⟩ := left
    have hev : (reconnect b w).2.log = w.log ++ ev := hev
    have hok : (reconnect b w).1 = .ok (.ok ()) → connections ev ≠ 0 := hok
    have failed : ∀ {r : Except Stop (Except ConnectError Unit)}, r ≠ .ok (.ok ()) →
        remaining cs (gs ++ [.reconnected r]) = (todo, true) := by
      intro r h
      rw [remaining_snoc, hr]
      rcases r with f | e | u
      · rfl
      · rfl
      · exact absurd rfl h
    by_cases h0 : connections ev = 0
    · have life : Lives cfg all (reconnect b w).2 := .idle t.life b w.script ev hev h0
      have hne : (reconnect b w).1 ≠ .ok (.ok ()) := fun h => hok h h0
      refine ⟨all, life, t.care, t.mine, ?_, ?_⟩
      · simp only [Call.make]
        rw [failed hne]; exact hdone
      · simp only [Call.make]
        rw [failed hne]; simp
    · obtain ⟨n, hn⟩ : ∃ n, connections ev = n + 1 := ⟨connections ev - 1, by omega⟩
      have life : Lives cfg (all ++ List.replicate n (false, []) ++ [(returnedOk (reconnect b w).1, [])])
          (reconnect b w).2 := .reconnect t.life b w.script ev n hev hn
      have new : ∀ x ∈ all ++ List.replicate n (false, []) ++ [(returnedOk (reconnect b w).1, [])],
          x ∈ all ∨ x.2 = [] := by
        intro x hx
        rcases List.mem_append.1 hx with hx | hx
        · rcases List.mem_append.1 hx with hx | hx
          · exact .inl hx
          · exact .inr (by rw [(List.mem_replicate.1 hx).2])
        · exact .inr (by rw [List.mem_singleton.1 hx])
      refine ⟨_, life, ?_, ?_, ?_, ?_⟩
      · intro x hx
        rcases new x hx with h | h
        · exact t.care x h
        · rw [h]; exact ⟨fun _ => rfl, by simp⟩
      · intro x hx c hc
        rcases new x hx with h | h
        · exact t.mine x h c hc
        · rw [h] at hc; simp at hc
      · have e : (remaining cs (gs ++ [.reconnected (reconnect b w).1])).1 = todo := by
          rw [remaining_snoc, hr]
          rcases (reconnect b w).1 with f | e | u <;> rfl
        simp only [Call.make]
        rw [e, accepted_append, accepted_append]
        have e1 : accepted (List.replicate n (false, ([] : List (Cmd × Bool)))) = [] := by
          unfold accepted
          rw [List.flatMap_replicate]
          simp
        have e2 : accepted [(returnedOk (reconnect b w).1, ([] : List (Cmd × Bool)))] = [] := rfl
        rw [e1, e2, List.append_nil, List.append_nil]
        exact hdone
      · simp only [Call.make]
        by_cases h : (reconnect b w).1 = .ok (.ok ())
        · intro _
          exact ⟨_, [], by rw [h]; rfl, by simp⟩
        · rw [failed h]; simp

theorem trying_run {b : Build} {cfg : Config} {cs : List Cmd} : ∀ (n : Nat) (gs : List Gave)
    {all : List (Bool × List (Cmd × Bool))} {w : World}, Trying cfg cs gs all w →
    ∃ all', Trying cfg cs ((retrying cs).run b n gs w).1 all' ((retrying cs).run b n gs w).2
  | 0, _, all, _, t => ⟨all, t⟩
  | n + 1, gs, all, w, t => by
    rw [Program.run]
    cases hk : retrying cs gs with
    | none => exact ⟨all, t⟩
    | some k =>
      obtain ⟨all', t'⟩ := trying_step (b := b) t hk
      exact trying_run n _ t'

/-- C122: a program that sends commands in order and, whenever a call fails for whatever reason, reconnects until that
succeeds and sends the command again.  At every moment, over all connections, the complete lines sent, apart from those
with which the client introduces itself, are the commands it is done with: those before the ones that remain, in order,
each exactly once.  If of what was sent on some connections only a beginning arrives, the server is asked to do only
some of them, in order and none twice. -/
theorem C122_retrying (b : Build) (cfg : Config) (w : World) (cs : List Cmd) (n : Nat)
    (hw : connections w.log = 0) (made : (connect b cfg w).1 = .ok (.ok ())) (hone : ∀ c ∈ cs, OneLine c)
    (hlogin : LF ∉ cfg.credentials.login) (htoken : ∀ t, cfg.credentials.token = some t → LF ∉ t) :
    let ran := (retrying cs).run b n [] (connect b cfg w).2
    ∃ done, cs = done ++ (remaining cs ran.1).1 ∧ orders (sentOn ran.2.log) = done.map commandLine ∧
      ∀ got, Arrive got (sentOn ran.2.log) → (orders got).Sublist (done.map commandLine) := by
  simp only []
  have start : Trying cfg cs [] [(true, [])] (connect b cfg w).2 :=
    ⟨.connect b w hw made, by intro x hx; rw [List.mem_singleton.1 hx]; simp,
      by intro x hx; rw [List.mem_singleton.1 hx]; simp, rfl, fun _ => ⟨[], [], rfl, by simp⟩⟩
  obtain ⟨all, t⟩ := trying_run (b := b) n [] start
  have one : ∀ x ∈ all, ∀ c ∈ x.2, OneLine c.1 := fun x hx c hc => hone _ (t.mine x hx c hc)
  exact ⟨accepted all, t.done.symm, C122_sent t.life t.care one hlogin htoken,
    fun got h => C122_arrived t.life t.care one hlogin htoken h⟩

/-- C122: and when it has ended, that is all of them. -/
theorem C122_finished (b : Build) (cfg : Config) (w : World) (cs : List Cmd) (n : Nat)
    (hw : connections w.log = 0) (made : (connect b cfg w).1 = .ok (.ok ())) (hone : ∀ c ∈ cs, OneLine c)
    (hlogin : LF ∉ cfg.credentials.login) (htoken : ∀ t, cfg.credentials.token = some t → LF ∉ t)
    (ended : retrying cs ((retrying cs).run b n [] (connect b cfg w).2).1 = none) :
    orders (sentOn ((retrying cs).run b n [] (connect b cfg w).2).2.log) = cs.map commandLine := by
  obtain ⟨done, h1, h2, -⟩ := C122_retrying b cfg w cs n hw made hone hlogin htoken
  rw [h2]
  unfold retrying at ended
  rcases hr : remaining cs ((retrying cs).run b n [] (connect b cfg w).2).1 with ⟨todo, broken⟩
  unfold retrying at hr
  rw [hr] at ended
  have h1' := h1
  unfold retrying at h1'
  rw [hr] at h1'
  cases broken with
  | true => simp at ended
  | false =>
    cases todo with
    | nil =>
      simp only [List.append_nil] at h1'
      rw [h1']
    | cons c todo => simp at ended

theorem sends_on (b : Build) (cs : List Cmd) : ∀ (todo : List Cmd) (gs : List Gave) (w : World),
    remaining cs gs = (todo, false) → (∀ c ∈ todo, ∀ s, c ≠ .raw s) → w.client.scratch = [] → Takes todo w.script →
    retrying cs ((retrying cs).run b todo.length gs w).1 = none
  | [], gs, w, hr, _, _, _ => by
    show retrying cs gs = none
    unfold retrying; rw [hr]
  | c :: todo, gs, w, hr, hraw, h0, .more ha ht => by
    have hk : retrying cs gs = some (.send c) := by unfold retrying; rw [hr]
    have hc := hraw c List.mem_cons_self
    obtain ⟨e1, e2⟩ := send_accepts c hc w (by rw [h0]; exact ha)
    rw [List.length_cons, Program.run, hk]
    refine sends_on b cs todo _ _ ?_ (fun d hd => hraw d (List.mem_cons_of_mem _ hd)) (send_effect c hc w).2 ?_
    · rw [remaining_snoc, hr]
      simp only [Call.make]
      rw [e1]
      rfl
    · simp only [Call.make]
      rw [e2]
      exact ht

/-- C122: and it gets to its end once the network lets it: after a call that failed, if `reconnect` finds a connection,
in one of the attempts it may make, and the network then takes the commands that remain, the program ends after one
call for each of them.  (The attempts of `reconnect` are those of C41.) -/
theorem C122_recovers (b : Build) (cs : List Cmd) (gs : List Gave) (w : World) (hraw : ∀ c ∈ cs, ∀ s, c ≠ .raw s)
    (hr : AllParse b w.script) (broken : (remaining cs gs).2 = true) {rest : List Answer} {n : Nat}
    (back : Reconnects (parsed b) w.client.config.backoff (hello w.client.config.credentials) 0
      w.client.config.backoff.maxTries .timeout w.client.scratch w.script none rest n)
    (taken : Takes (remaining cs gs).1 rest) :
    retrying cs ((retrying cs).run b (1 + (remaining cs gs).1.length) gs w).1 = none := by
  rcases hg : remaining cs gs with ⟨todo, broken'⟩
  rw [hg] at broken taken
  simp only at broken taken
  subst broken
  have hk : retrying cs gs = some .reconnect := by unfold retrying; rw [hg]
  obtain ⟨w', h1, h2⟩ := (C41_reconnect b w hr none rest).2 ⟨n, back⟩
  simp only at h1
  have hok : (reconnect b w).1 = .ok (.ok ()) := by rw [h1]
  rw [Nat.add_comm, Program.run, hk]
  refine sends_on b cs todo _ _ ?_ ?_ ?_ ?_
  · rw [remaining_snoc, hg]
    simp only [Call.make]
    rw [hok]
  · intro c hc
    refine hraw c ?_
    have := remaining_mem cs gs.reverse
    rw [List.reverse_reverse] at this
    exact this c (by rw [hg]; exact hc)
  · simp only [Call.make]
    rw [reconnect_ok_client hok]
  · simp only [Call.make]
    rw [h1]
    simp only
    rw [h2]
    exact taken

/-! Non-vacuity: two commands; the first is cut off after five bytes, `reconnect` loses a connection during the
greeting and gets another, then both are sent. -/

def retryCommands : List Cmd := [.join (b!"#a"), .privmsg (b!"#a") (b!"hi") none none]

def retryWorld : World := sampleWorld (.tlsLoaded :: .opened :: goodReplies ++
  [.accept 5, .writeFailed ⟨.other 0, 1⟩, .slept, .opened, .accept 5, .writeFailed ⟨.other 0, 1⟩, .slept, .opened] ++
  goodReplies ++ [.accept 1000, .accept 3, .accept 1000])

theorem retry_made : (connect ⟨.scalar, true⟩ sampleConfig retryWorld).1 = .ok (.ok ()) := by decide +kernel

theorem retry_one : ∀ c ∈ retryCommands, OneLine c := by
  intro c hc
  simp only [retryCommands, List.mem_cons, List.not_mem_nil, or_false] at hc
  rcases hc with rfl | rfl <;> exact ⟨by simp, by decide⟩

example := C122_retrying ⟨.scalar, true⟩ sampleConfig retryWorld retryCommands 3 rfl retry_made retry_one (by decide)
  (by decide +kernel)

def retryRan : List Gave × World :=
  (retrying retryCommands).run ⟨.scalar, true⟩ 10 [] (connect ⟨.scalar, true⟩ sampleConfig retryWorld).2

theorem retry_ran (ran : List Gave × World) (h : ran = retryRan) (ended : retrying retryCommands ran.1 = none) :
    orders (sentOn ran.2.log) = retryCommands.map commandLine := by
  rw [h, retryRan] at ended ⊢
  exact C122_finished ⟨.scalar, true⟩ sampleConfig retryWorld retryCommands 10 rfl retry_made retry_one (by decide)
    (by decide +kernel) ended

theorem retry_ended : (retrying retryCommands retryRan.1).isNone = true := by decide +kernel

example : orders (sentOn retryRan.2.log) = retryCommands.map commandLine :=
  retry_ran retryRan rfl (Option.isNone_iff_eq_none.1 retry_ended)
example : (sentOn retryRan.2.log).map List.length = [102, 5, 219] := by decide +kernel
example : retryRan.1.length = 4 := by decide +kernel

/-! Non-vacuity of `C122_recovers`: the future of the first call was dropped; the first attempt to open a connection
fails. -/

def backRest : List Answer := [.accept 1000, .accept 3, .accept 1000]
def backWorld : World := sampleWorld (.slept :: .openFailed ⟨.other 0, 1⟩ :: .slept :: .opened :: goodReplies ++ backRest)

theorem back_parse : AllParse ⟨.scalar, true⟩ backWorld.script := by
  intro s hs
  have : .line s ∈ [.slept, .openFailed ⟨.other 0, 1⟩, .slept, .opened] ++ goodReplies := by
    rcases List.mem_append.1 (show _ ∈ ([.slept, .openFailed ⟨.other 0, 1⟩, .slept, .opened] ++ goodReplies) ++ backRest
      from hs) with h | h
    · exact h
    · simp [backRest] at h
  exact goodReplies_parse _ [.slept, .openFailed ⟨.other 0, 1⟩, .slept, .opened] (by simp) s this

theorem back_ok : (reconnect ⟨.scalar, true⟩ backWorld).1 = .ok (.ok ()) := by decide +kernel
theorem back_rest : (reconnect ⟨.scalar, true⟩ backWorld).2.script = backRest := by decide +kernel

theorem back_takes : Takes retryCommands backRest :=
  .more (.more (by decide) (by decide) (by
    have e : (commandBytes (.join (b!"#a"))).drop 1000 = [] := by decide +kernel
    rw [e]; exact .done _)) (.more (.more (by decide) (by decide) (.more (by decide +kernel) (by decide) (by
    have e : ((commandBytes (.privmsg (b!"#a") (b!"hi") none none)).drop 3).drop 1000 = [] := by decide +kernel
    rw [e]; exact .done _))) (.done _))

example : retrying retryCommands ((retrying retryCommands).run ⟨.scalar, true⟩ 3 [.sent (.error .dropped)] backWorld).1
    = none := by
  obtain ⟨n, h⟩ := (C41_reconnect ⟨.scalar, true⟩ backWorld back_parse none backRest).1
    ⟨_, Prod.ext back_ok rfl, back_rest⟩
  exact C122_recovers ⟨.scalar, true⟩ retryCommands [.sent (.error .dropped)] backWorld
    (fun c hc => (retry_one c hc).1) back_parse rfl h back_takes

end Tmi.Props
