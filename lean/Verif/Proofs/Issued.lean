/-
Lemmas: what the server has received on the newest connection.
-/
import Verif.Spec.Issued
import Verif.Props.Connect

namespace Tmi.Proofs
open Tmi.Model Tmi.Spec Tmi.Props

/-- After a `connect` that succeeds: one new connection, and on it the greeting. -/
theorem connect_log (b : Build) (cfg : Config) (w : World) (h : (connect b cfg w).1 = .ok (.ok ())) :
    ∃ a ev, (connect b cfg w).2.log = w.log ++ a ++ .connected :: ev ∧ connections ev = 0 ∧
      written ev = hello cfg.credentials := by
  revert h
  unfold connect
  rcases next_cases w with ⟨hs, hn⟩ | ⟨n, rest, hs, hn⟩ | ⟨a, rest, hs, hne, hn⟩
  · rw [act_bind_error hn]; simp
  · rw [act_bind_error hn]; simp
  rw [act_bind_ok hn]
  cases a with
  | elapsed n => exact absurd rfl (hne n)
  | tlsLoaded =>
    simp only []
    rw [act_bind, open_run]
    cases hr : rest with
    | nil => simp
    | cons a rest' =>
      cases a with
      | elapsed n => cases n <;> simp [act_pure]
      | openFailed e => simp [act_pure]
      | opened =>
        simp only [act_bind, emit, setClient, withTimeout]
        generalize hw1 : World.mk _ (w.log ++ [.open_] ++ [.connected]) rest' = w1
        have l1 : w1.log = w.log ++ [.open_, .connected] := by rw [← hw1]; simp
        have c1 : w1.client = ⟨false, [], cfg⟩ := by rw [← hw1]
        have hh := handshake_effect b w1
        cases hres : handshake b w1 with
        | mk r w2 =>
          rw [hres] at hh
          obtain ⟨ev, he, hev⟩ := hh.events
          obtain ⟨ws, ss, g1, g2, g3, g4⟩ := hh.log
          have hwr : written ev = written ws := by
            rw [g1, List.append_assoc] at he
            rw [← List.append_cancel_left he, written_append, written_took, List.append_nil]
          simp only [c1, List.nil_append] at g3 g4
          have fin : r = .ok (.ok ()) →
              ∃ a ev, w2.log = w.log ++ a ++ .connected :: ev ∧ connections ev = 0 ∧
                written ev = hello cfg.credentials := by
            intro h
            rcases g4 with g4 | g4
            · exact ⟨[.open_], ev, by rw [he, l1]; simp, hev.connections, by rw [hwr]; exact g4.2⟩
            · exact absurd h g4.2.2.1
          cases r with
          | error s =>
            cases s with
            | elapsed n => cases n <;> simp [act_pure]
            | dropped => simp
            | panic f => simp
          | ok r => simp only [act_pure]; exact fin
      | _ => simp
  | _ => simp [act_pure, stop]

theorem OnlyWrites.connections {ev : List Effect} (h : OnlyWrites ev) : connections ev = 0 := by
  unfold Spec.connections
  have : ev.filter (· == Effect.connected) = [] := by
    rw [List.filter_eq_nil_iff]
    intro e he
    obtain ⟨bs, rfl⟩ := h e he
    simp
  rw [this]; rfl

/-- A call that opens no connection adds to the newest one. -/
theorem lastConnection_more {a b : List Effect} (h : connections b = 0) :
    lastConnection (a ++ b) = lastConnection a ++ b := by
  unfold lastConnection
  have hb : ∀ y ∈ b.reverse, (y != Effect.connected) = true := by
    intro y hy
    unfold connections at h
    have h := List.filter_eq_nil_iff.1 (List.length_eq_zero_iff.1 h) y (by simpa using hy)
    simpa using h
  rw [List.reverse_append, List.takeWhile_append_of_pos hb, List.reverse_append, List.reverse_reverse]

/-- What one call of `recv` adds to the log. -/
theorem recv_log (b : Build) (w : World) :
    ∃ ev, (recv b w).2.log = w.log ++ ev ∧ connections ev = 0 ∧ written ev = [] := by
  rw [recv_run]
  split
  · exact ⟨[], by simp, rfl, rfl⟩
  · split
    case h_3 s rest _ =>
      simp only []
      split <;> exact ⟨[.took s], rfl, rfl, rfl⟩
    all_goals exact ⟨[], by simp, rfl, rfl⟩

/-- What one command adds to the log. -/
theorem send_piece (c : Cmd) (w : World) :
    ∃ ev, (c.send w).2.log = w.log ++ ev ∧ connections ev = 0 ∧
      (∀ s, c = .raw s → written ev <+: s ∧ (returnedOk (c.send w).1 = true → written ev = s) ∧
        (s ≠ [] → written ev = s → returnedOk (c.send w).1 = true) ∧
        (c.send w).2.client.scratch = w.client.scratch) ∧
      ((∀ s, c ≠ .raw s) → written ev <+: w.client.scratch ++ commandBytes c ∧
        (returnedOk (c.send w).1 = true → written ev = w.client.scratch ++ commandBytes c) ∧
        (written ev = w.client.scratch ++ commandBytes c → returnedOk (c.send w).1 = true) ∧
        (c.send w).2.client.scratch = []) := by
  have ok : ∀ {r : Except Stop (Except SendError Unit)}, returnedOk r = true → r = .ok (.ok ()) := by
    intro r h
    cases r with
    | error e => simp [returnedOk] at h
    | ok r =>
      cases r with
      | error e => simp [returnedOk] at h
      | ok u => rfl
  by_cases hc : ∃ s, c = .raw s
  · obtain ⟨s, rfl⟩ := hc
    have hsc := raw_scratch s w
    by_cases hs : endsWith [CR, LF] s = true
    · have hfull := (sendRaw_effect hs w).1.full
      obtain ⟨ev, h1, h2, h3, h4⟩ := (sendRaw_effect hs w).1.log
      refine ⟨ev, h1, h2.connections, ?_, fun h => absurd rfl (h s)⟩
      rintro s' h
      cases h
      refine ⟨h3, fun h => h4 (ok h), fun _ h => ?_, hsc⟩
      have := hfull (by unfold wire; rw [h1, List.drop_left]; exact h)
      show returnedOk (sendRaw s w).1 = true
      rw [this]; rfl
    · have hi := sendRaw_invalid hs w
      refine ⟨[], ?_, rfl, ?_, fun h => absurd rfl (h s)⟩
      · show (sendRaw s w).2.log = _
        rw [hi]; simp
      · rintro s' h
        cases h
        refine ⟨List.nil_prefix, ?_, fun h h' => absurd h'.symm h, hsc⟩
        show returnedOk (sendRaw s w).1 = true → _
        rw [hi]; simp [returnedOk]
  · have hne : ∀ s, c ≠ .raw s := fun s h => hc ⟨s, h⟩
    obtain ⟨e, hsc⟩ := send_effect c hne w
    obtain ⟨ev, h1, h2, h3, h4⟩ := e.log
    refine ⟨ev, h1, h2.connections, fun s h => absurd h (hne s), fun _ => ⟨h3, fun h => h4 (ok h), fun h => ?_, hsc⟩⟩
    rw [e.full (by unfold wire; rw [h1, List.drop_left]; exact h)]
    rfl

theorem welcomed_snoc (rs : List (Bool × Nat)) (r : Bool × Nat) :
    welcomed (rs ++ [r]) = if r.2 = 0 then welcomed rs else r.1 := by
  unfold welcomed
  rw [List.filter_append]
  by_cases h : r.2 = 0
  · rw [if_pos h, List.filter_cons_of_neg (by simp [h])]; simp
  · rw [if_neg h, List.filter_cons_of_pos (by simp [h])]; simp

theorem welcomed_of {rs : List (Bool × Nat)} (h : ∀ r ∈ rs, r.2 ≠ 0 → r = (true, 1)) : welcomed rs = true := by
  unfold welcomed
  cases hl : (rs.filter (·.2 != 0)).getLast? with
  | none => rfl
  | some r =>
    have := List.mem_filter.1 (List.mem_of_getLast? hl)
    have := h r this.1 (by simpa using this.2)
    rw [this]

/-- A run of `reconnect` that began to talk on no connection leaves the buffer as it was. -/
theorem reconnectLoop_stays (b : Build) (cfg : Config) : ∀ (fuel : Nat) (tries : Option Nat) (d : Nat)
    (cause : ConnectError) (w : World), ∃ ev, (reconnectLoop b cfg fuel tries d cause w).2.log = w.log ++ ev ∧
      (connections ev = 0 → (reconnectLoop b cfg fuel tries d cause w).2.client.scratch = w.client.scratch)
  | 0, tries, d, cause, w => ⟨[], by simp [reconnectLoop, stop], fun _ => rfl⟩
  | fuel + 1, tries, d, cause, w => by
    rw [reconnectLoop]
    by_cases ht : tries = some 0
    · rw [if_pos ht]; exact ⟨[], by simp [act_pure], fun _ => rfl⟩
    rw [if_neg ht, act_bind, sleep_run]
    cases hs : w.script with
    | nil => exact ⟨[.sleep d], rfl, fun _ => rfl⟩
    | cons a rest =>
      cases a with
      | slept =>
        simp only []
        rw [act_bind]
        cases hm : mulDuration d cfg.backoff.delayMultiplier with
        | error f => exact ⟨[.sleep d], rfl, fun _ => rfl⟩
        | ok x =>
          simp only [lift, act_pure]
          rw [act_bind, open_run]
          simp only []
          have e2 : ∀ l : List Effect, l ++ [.sleep d] ++ [.open_] = l ++ [.sleep d, .open_] := by simp
          cases hr : rest with
          | nil => exact ⟨[.sleep d, .open_], e2 _, fun _ => rfl⟩
          | cons a' rest' =>
            cases a' with
            | elapsed n => cases n <;> exact ⟨[.sleep d, .open_], e2 _, fun _ => rfl⟩
            | openFailed e =>
              simp only []
              obtain ⟨ev, l1, l2⟩ := reconnectLoop_stays b cfg fuel
                (tries.map (· - 1)) (min cfg.backoff.maxDelay x) (.open_ e)
                { w with log := w.log ++ [.sleep d] ++ [.open_], script := rest' }
              refine ⟨[.sleep d, .open_] ++ ev, by rw [l1]; simp, ?_⟩
              rw [connections_append]
              intro h
              exact l2 (by omega)
            | opened =>
              simp only [useStream, act_bind, emit, setClosed]
              generalize hw1 : World.mk (Client.mk false w.client.scratch w.client.config)
                (w.log ++ [.sleep d] ++ [.open_] ++ [.connected]) rest' = w1
              have hlog : w1.log = w.log ++ [.sleep d, .open_, .connected] := by rw [← hw1]; simp
              have hh := handshake_effect b w1
              unfold withTimeout
              have one : ∀ l : List Effect, connections ([.sleep d, .open_, .connected] ++ l) ≠ 0 := by
                intro l
                rw [connections_append]
                have : connections [.sleep d, .open_, .connected] = 1 := rfl
                omega
              cases hres : handshake b w1 with
              | mk r w2 =>
                rw [hres] at hh
                obtain ⟨ev, he, _⟩ := hh.events
                have done : ∃ l, w2.log = w.log ++ l ∧
                    (connections l = 0 → w2.client.scratch = w.client.scratch) :=
                  ⟨_, by rw [he, hlog, List.append_assoc], fun h => absurd h (one _)⟩
                cases r with
                | error s =>
                  cases s with
                  | elapsed n => cases n <;> exact done
                  | dropped => exact done
                  | panic f => exact done
                | ok r =>
                  cases r with
                  | error e =>
                    simp only []
                    by_cases hsr : e.shouldRetry = true
                    · rw [if_pos hsr]
                      obtain ⟨ev', l1, _⟩ := reconnectLoop_stays b cfg fuel
                        (tries.map (· - 1)) (min cfg.backoff.maxDelay x) e w2
                      exact ⟨_, by rw [l1, he, hlog, List.append_assoc, List.append_assoc],
                        fun h => absurd h (one _)⟩
                    · rw [if_neg hsr]; exact done
                  | ok u => exact done
            | _ => exact ⟨[.sleep d, .open_], e2 _, fun _ => rfl⟩
      | _ => exact ⟨[.sleep d], rfl, fun _ => rfl⟩

/-- The state of the newest connection. -/
structure Newest (cfg : Config) (rs : List (Bool × Nat)) (cs : List (Cmd × Bool)) (w : World) (k n m : Nat)
    (g q : Bytes) : Prop where
  config : w.client.config = cfg
  scratch : w.client.scratch = copies m (hello cfg.credentials)
  talk : written (lastConnection w.log) = g ++ q
  greeting : g <+: copies k (hello cfg.credentials)
  whole : welcomed rs = true → g = copies k (hello cfg.credentials) ∧ n = 0
  pieces : Portions (hello cfg.credentials) n cs m q
  least : 1 ≤ k
  most : k ≤ 1 + (rs.map (·.2)).sum
  waiting : n ≤ (rs.map (·.2)).sum
  still : m ≤ n
  once : (∀ r ∈ rs, r.2 ≠ 0 → r = (true, 1)) → k = 1

theorem copies_add (a b : Nat) (s : Bytes) : copies a s ++ copies b s = copies (a + b) s := by
  unfold copies
  rw [← List.flatten_append, List.replicate_append_replicate]

theorem since_newest {cfg : Config} {rs : List (Bool × Nat)} {cs : List (Cmd × Bool)} {w : World}
    (s : Since cfg rs cs w) : ∃ k n m g q, Newest cfg rs cs w k n m g q := by
  induction s with
  | connect b w h =>
    obtain ⟨_, _, h3⟩ := C39_greeting b cfg w
    obtain ⟨_, h4, h5⟩ := h3 h
    obtain ⟨a, ev, l1, l2, l3⟩ := connect_log b cfg w h
    refine ⟨1, 0, 0, hello cfg.credentials, [], h5, by rw [h4]; rfl, ?_, ?_, ?_, .none, by simp, by simp,
      by simp, by simp, by simp⟩
    · rw [l1, lastConnection_eq l2, l3, List.append_nil]
    · simp [copies]
    · simp [copies]
  | @send rs cs w s c answers ih =>
    obtain ⟨k, n, m, g, q, i⟩ := ih
    obtain ⟨ev, l1, l2, l3, l4⟩ := send_piece c { w with script := answers }
    have hcfg : (c.send { w with script := answers }).2.client.config = cfg := by
      rw [send_config]; exact i.config
    have htalk : written (lastConnection (c.send { w with script := answers }).2.log)
        = g ++ (q ++ written ev) := by
      rw [l1]
      show written (lastConnection (w.log ++ ev)) = _
      rw [lastConnection_more l2, written_append, i.talk, List.append_assoc]
    by_cases hc : ∃ s, c = .raw s
    · obtain ⟨t, rfl⟩ := hc
      obtain ⟨p1, p2, p4, p3⟩ := l3 t rfl
      exact ⟨k, n, m, g, q ++ written ev, hcfg, by rw [p3]; exact i.scratch, htalk, i.greeting, i.whole,
        .raw i.pieces t _ _ p1 p2 p4, i.least, i.most, i.waiting, i.still, i.once⟩
    · obtain ⟨p1, p2, p4, p3⟩ := l4 fun t h => hc ⟨t, h⟩
      exact ⟨k, n, 0, g, q ++ written ev, hcfg, by rw [p3]; rfl, htalk, i.greeting, i.whole,
        .own i.pieces c _ (fun t h => hc ⟨t, h⟩) _ (by rw [← i.scratch]; exact p1)
          (fun h => by rw [← i.scratch]; exact p2 h) (fun h => p4 (by rw [i.scratch]; exact h)), i.least, i.most, i.waiting, Nat.zero_le _, i.once⟩
  | @recv rs cs w s b answers ih =>
    obtain ⟨k, n, m, g, q, i⟩ := ih
    obtain ⟨ev, l1, l2, l3⟩ := recv_log b { w with script := answers }
    obtain ⟨r1, r2⟩ := recv_keeps b { w with script := answers }
    refine ⟨k, n, m, g, q, by rw [r2]; exact i.config, by rw [r1]; exact i.scratch, ?_, i.greeting, i.whole,
      i.pieces, i.least, i.most, i.waiting, i.still, i.once⟩
    rw [l1]
    show written (lastConnection (w.log ++ ev)) = _
    rw [lastConnection_more l2, written_append, i.talk, l3, List.append_nil]
  | @reconnect rs cs w s b answers ev hev ih =>
    obtain ⟨k, n, m, g, q, i⟩ := ih
    have e := reconnectLoop_effect b w.client.config (answers.length + 1)
      w.client.config.backoff.maxTries w.client.config.backoff.initialDelay .timeout
      { w with script := answers }
    obtain ⟨ev', l1, l2, l0, l3, l4, l5⟩ := (reconnectLoop_leftover b w.client.config
      (answers.length + 1) w.client.config.backoff.maxTries w.client.config.backoff.initialDelay
      .timeout { w with script := answers }).log
    have heq : reconnect b { w with script := answers } = reconnectLoop b w.client.config
      (answers.length + 1) w.client.config.backoff.maxTries w.client.config.backoff.initialDelay .timeout
      { w with script := answers } := rfl
    rw [← heq] at e l1 l2 l4 l5
    have : ev' = ev := by
      rw [l1] at hev
      exact List.append_cancel_left hev
    subst this
    have hcfg : (reconnect b { w with script := answers }).2.client.config = cfg := by
      rw [e.config]; exact i.config
    have ok : returnedOk (reconnect b { w with script := answers }).1 = true →
        (reconnect b { w with script := answers }).1 = .ok (.ok ()) := by
      intro h
      cases hr : (reconnect b { w with script := answers }).1 with
      | error x => rw [hr] at h; simp [returnedOk] at h
      | ok r =>
        cases r with
        | error x => rw [hr] at h; simp [returnedOk] at h
        | ok u => rfl
    simp only [i.scratch, i.config, copies_add] at l3 l4 l5
    by_cases h0 : connections ev' = 0
    · rw [if_pos h0]
      have hsc : (reconnect b { w with script := answers }).2.client.scratch = w.client.scratch := by
        obtain ⟨ev, k1, k2⟩ := reconnectLoop_stays b w.client.config (answers.length + 1)
          w.client.config.backoff.maxTries w.client.config.backoff.initialDelay .timeout
          { w with script := answers }
        rw [← heq] at k1 k2
        have : ev = ev' := by
          rw [l1] at k1
          exact (List.append_cancel_left k1).symm
        subst this
        exact k2 h0
      refine ⟨k, n, m, g, q, hcfg, by rw [hsc]; exact i.scratch, ?_, i.greeting, ?_, i.pieces, i.least, ?_, ?_,
        i.still, ?_⟩
      · rw [l1]
        show written (lastConnection (w.log ++ ev')) = _
        rw [lastConnection_more h0, written_append, i.talk, l0 h0, List.append_nil]
      · rw [welcomed_snoc, if_pos h0]; exact i.whole
      · have := i.most
        simp only [List.map_append, List.sum_append]; omega
      · have := i.waiting
        simp only [List.map_append, List.sum_append]; omega
      · intro h
        exact i.once fun r hr => h r (List.mem_append_left _ hr)
    · rw [if_neg h0]
      have hm := i.still
      have hn := i.waiting
      have hsum : ((rs ++ [(returnedOk (reconnect b { w with script := answers }).1, connections ev')]).map
          (·.2)).sum = (rs.map (·.2)).sum + connections ev' := by simp
      have htalk : written (lastConnection (reconnect b { w with script := answers }).2.log)
          = written (lastConnection ev') ++ [] := by
        rw [l1]
        show written (lastConnection (w.log ++ ev')) = _
        rw [lastConnection_append h0, List.append_nil]
      have once : (∀ r ∈ rs ++ [(returnedOk (reconnect b { w with script := answers }).1, connections ev')],
          r.2 ≠ 0 → r = (true, 1)) → m + connections ev' = 1 := by
        intro h
        have h1 := h _ (List.mem_append_right _ (List.mem_singleton.2 rfl)) h0
        have h2 : connections ev' = 1 := congrArg Prod.snd h1
        have h3 := (i.whole (welcomed_of fun r hr => h r (List.mem_append_left _ hr))).2
        omega
      by_cases hok : returnedOk (reconnect b { w with script := answers }).1 = true
      · have hk := ok hok
        refine ⟨m + connections ev', 0, 0, _, [], hcfg, by rw [e.scratch hk]; rfl, htalk, l3 h0,
          fun _ => ⟨l4 hk, rfl⟩, .none, by omega, by rw [hsum]; omega, Nat.zero_le _, Nat.le_refl _, once⟩
      · have hg : welcomed (rs ++ [(returnedOk (reconnect b { w with script := answers }).1,
            connections ev')]) = true → False := by
          rw [welcomed_snoc, if_neg h0]
          exact hok
        rcases l5 with l5 | l5
        · exact ⟨m + connections ev', 0, 0, _, [], hcfg, by rw [l5]; rfl, htalk, l3 h0,
            fun h => absurd h hg, .none, by omega, by rw [hsum]; omega, Nat.zero_le _, Nat.le_refl _, once⟩
        · exact ⟨m + connections ev', m + connections ev', m + connections ev', _, [], hcfg, l5, htalk,
            l3 h0, fun h => absurd h hg, .none, by omega, by rw [hsum]; omega, by rw [hsum]; omega,
            Nat.le_refl _, once⟩

end Tmi.Proofs
