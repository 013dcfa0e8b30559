/-
Lemmas: what `reconnect` sends on its last connection and what it leaves in the buffer.
-/
import Verif.Proofs.Attempts

namespace Tmi.Proofs
open Tmi.Model Tmi.Spec

theorem connections_append (a b : List Effect) : connections (a ++ b) = connections a + connections b := by
  simp [connections]

theorem HandshakeEvents.connections {ev : List Effect} (h : HandshakeEvents ev) : connections ev = 0 := by
  unfold Spec.connections
  have : ev.filter (· == Effect.connected) = [] := by
    rw [List.filter_eq_nil_iff]
    intro e he
    rcases h e he with rfl | ⟨bs, rfl⟩ | ⟨s, rfl⟩ <;> simp
  rw [this]; rfl

theorem takeWhile_append_ne {α : Type} (p : α → Bool) (a b : List α) (x : α) (ha : ∀ y ∈ a, p y = true)
    (hx : p x = false) : (a ++ x :: b).takeWhile p = a := by
  induction a with
  | nil => simp [hx]
  | cons y a ih =>
    rw [List.cons_append, List.takeWhile_cons, if_pos (ha y (by simp)), ih fun z hz => ha z (by simp [hz])]

theorem lastConnection_eq {a b : List Effect} (h : connections b = 0) :
    lastConnection (a ++ .connected :: b) = b := by
  unfold lastConnection
  rw [List.reverse_append, List.reverse_cons, List.append_assoc]
  have : [Effect.connected] ++ a.reverse = .connected :: a.reverse := rfl
  rw [this, takeWhile_append_ne]
  · simp
  · intro y hy
    unfold connections at h
    have h := List.filter_eq_nil_iff.1 (List.length_eq_zero_iff.1 h) y (by simpa using hy)
    simpa using h
  · simp

theorem takeWhile_left {α : Type} (p : α → Bool) (a b : List α) (h : ∃ x ∈ a, p x = false) :
    (a ++ b).takeWhile p = a.takeWhile p := by
  induction a with
  | nil => simp at h
  | cons y a ih =>
    rw [List.cons_append, List.takeWhile_cons, List.takeWhile_cons]
    split
    · rename_i hy
      rw [ih]
      obtain ⟨x, hx, hx'⟩ := h
      rcases List.mem_cons.1 hx with rfl | hx
      · rw [hx'] at hy; simp at hy
      · exact ⟨x, hx, hx'⟩
    · rfl

theorem lastConnection_append {a b : List Effect} (h : connections b ≠ 0) :
    lastConnection (a ++ b) = lastConnection b := by
  unfold lastConnection
  rw [List.reverse_append, takeWhile_left]
  have hm : Effect.connected ∈ b := by
    unfold connections at h
    rcases hf : b.filter (· == Effect.connected) with _ | ⟨x, l⟩
    · rw [hf] at h; simp at h
    · have : x ∈ b.filter (· == Effect.connected) := by rw [hf]; simp
      rw [List.mem_filter] at this
      have e : x = .connected := by simpa using this.2
      rw [← e]; exact this.1
  exact ⟨.connected, by simpa using hm, by simp⟩

theorem written_took (ss : List Bytes) : written (ss.map Effect.took) = [] := by
  induction ss with
  | nil => rfl
  | cons s ss ih => exact ih

/-- What a run of `reconnect` leaves behind, whatever happens. -/
structure Leftover (w : World) (r : Except Stop (Except ConnectError Unit)) (w' : World) : Prop where
  log : ∃ ev, w'.log = w.log ++ ev ∧
    (r = .ok (.ok ()) → connections ev ≠ 0) ∧
    (connections ev = 0 → written ev = []) ∧
    (connections ev ≠ 0 → written (lastConnection ev) <+:
      w.client.scratch ++ copies (connections ev) (hello w.client.config.credentials)) ∧
    (r = .ok (.ok ()) → written (lastConnection ev) =
      w.client.scratch ++ copies (connections ev) (hello w.client.config.credentials)) ∧
    (w'.client.scratch = [] ∨ w'.client.scratch =
      w.client.scratch ++ copies (connections ev) (hello w.client.config.credentials))

theorem reconnectLoop_leftover (b : Build) (cfg : Config) : ∀ (fuel : Nat) (tries : Option Nat) (d : Nat)
    (cause : ConnectError) (w : World), 
    Leftover w (reconnectLoop b cfg fuel tries d cause w).1 (reconnectLoop b cfg fuel tries d cause w).2
  | 0, tries, d, cause, w =>
    ⟨⟨[], by simp [reconnectLoop, stop], by simp [reconnectLoop, stop], fun _ => rfl, by simp [connections],
      by simp [reconnectLoop, stop], .inr (by simp [connections, copies, reconnectLoop, stop])⟩⟩
  | fuel + 1, tries, d, cause, w => by
    have quiet : ∀ (ev : List Effect) (r : Except Stop (Except ConnectError Unit)) (w' : World),
        connections ev = 0 → written ev = [] → w'.log = w.log ++ ev → w'.client.scratch = w.client.scratch →
        r ≠ .ok (.ok ()) → Leftover w r w' := by
      intro ev r w' h1 h0 h2 h3 h4
      exact ⟨⟨ev, h2, fun h => absurd h h4, fun _ => h0, fun h => absurd h1 h, fun h => absurd h h4,
        .inr (by rw [h1, h3]; simp [copies])⟩⟩
    rw [reconnectLoop]
    by_cases ht : tries = some 0
    · rw [if_pos ht]; exact quiet [] _ _ rfl rfl (by simp [act_pure]) rfl (by simp [act_pure])
    rw [if_neg ht, act_bind, sleep_run]
    cases hs : w.script with
    | nil => exact quiet [.sleep d] _ _ rfl rfl rfl rfl (by simp)
    | cons a rest =>
      cases a with
      | slept =>
        simp only []
        rw [act_bind]
        cases hm : mulDuration d cfg.backoff.delayMultiplier with
        | error f => exact quiet [.sleep d] _ _ rfl rfl rfl rfl (by simp [lift, stop])
        | ok x =>
          simp only [lift, act_pure]
          rw [act_bind, open_run]
          simp only []
          have e2 : ∀ l : List Effect, l ++ [.sleep d] ++ [.open_] = l ++ [.sleep d, .open_] := by simp
          cases hr : rest with
          | nil => exact quiet [.sleep d, .open_] _ _ rfl rfl (e2 _) rfl (by simp)
          | cons a' rest' =>
            cases a' with
            | elapsed n =>
              cases n with
              | zero =>
                simp only [act_pure]
                exact quiet [.sleep d, .open_] _ _ rfl rfl (e2 _) rfl (by simp)
              | succ n => exact quiet [.sleep d, .open_] _ _ rfl rfl (e2 _) rfl (by simp)
            | openFailed e =>
              simp only []
              obtain ⟨ev, l1, l2, l0, l3, l4, l5⟩ := (reconnectLoop_leftover b cfg fuel
                (tries.map (· - 1)) (min cfg.backoff.maxDelay x) (.open_ e)
                { w with log := w.log ++ [.sleep d] ++ [.open_], script := rest' }).log
              have hcn : connections ([.sleep d, .open_] ++ ev) = connections ev := by
                rw [connections_append]; show 0 + _ = _; omega
              refine ⟨⟨[.sleep d, .open_] ++ ev, by rw [l1]; simp, ?_, ?_, ?_, ?_, ?_⟩⟩
              · rw [hcn]; exact l2
              · rw [hcn, written_append]; intro h; rw [l0 h]; rfl
              · rw [hcn]; intro h; rw [lastConnection_append h]; exact l3 h
              · rw [hcn]; intro h; rw [lastConnection_append (l2 h)]; exact l4 h
              · rw [hcn]; exact l5
            | opened =>
              simp only [useStream, act_bind, emit, setClosed]
              generalize hw1 : World.mk (Client.mk false w.client.scratch w.client.config)
                (w.log ++ [.sleep d] ++ [.open_] ++ [.connected]) rest' = w1
              have hlog : w1.log = w.log ++ [.sleep d, .open_, .connected] := by rw [← hw1]; simp
              have hcfg : w1.client.config = w.client.config := by rw [← hw1]
              have hscr : w1.client.scratch = w.client.scratch := by rw [← hw1]
              have hh := handshake_effect b w1
              unfold withTimeout
              cases hres : handshake b w1 with
              | mk r w2 =>
                rw [hres] at hh
                obtain ⟨ev, he, hev⟩ := hh.events
                obtain ⟨ws, ss, g1, g2, g3, g4⟩ := hh.log
                have hev' : ev = ws ++ ss.map Effect.took := by
                  rw [g1, List.append_assoc] at he
                  exact (List.append_cancel_left he).symm
                have hwr : written ev = written ws := by
                  rw [hev', written_append, written_took, List.append_nil]
                have hlog2 : w2.log = w.log ++ ([.sleep d, .open_] ++ .connected :: ev) := by
                  rw [he, hlog]; simp
                have hco : connections ([.sleep d, .open_] ++ .connected :: ev) = 1 := by
                  rw [connections_append]
                  have : connections (.connected :: ev) = 1 := by
                    have := connections_append [.connected] ev
                    rw [hev.connections] at this
                    exact this
                  rw [this]; rfl
                rw [hscr, hcfg] at g3 g4
                have hone : copies 1 (hello w.client.config.credentials)
                    = hello w.client.config.credentials := by simp [copies]
                have done : ∀ r' : Except Stop (Except ConnectError Unit),
                    (r' = .ok (.ok ()) → r = .ok (.ok ())) → Leftover w r' w2 := by
                  intro r' hr'
                  refine ⟨⟨_, hlog2, ?_, ?_, ?_, ?_, ?_⟩⟩
                  · rw [hco]; simp
                  · rw [hco]; simp
                  · rw [hco, lastConnection_eq hev.connections, hone, hwr]
                    intro _; exact g3
                  · rw [hco, lastConnection_eq hev.connections, hone, hwr]
                    intro h
                    rcases g4 with g4 | g4
                    · exact g4.2
                    · exact absurd (hr' h) g4.2.2.1
                  · rw [hco, hone]
                    rcases g4 with g4 | g4
                    · exact .inl g4.1
                    · exact .inr g4.1
                cases r with
                | error s =>
                  cases s with
                  | elapsed n => cases n <;> exact done _ (by simp [act_pure])
                  | dropped => exact done _ (by simp)
                  | panic f => exact done _ (by simp)
                | ok r =>
                  cases r with
                  | error e =>
                    simp only []
                    by_cases hsr : e.shouldRetry = true
                    · rw [if_pos hsr]
                      have hre := hh.retried e rfl hsr
                      rw [hscr, hcfg] at hre
                      have hc2 : w2.client.config = w.client.config := hh.config.trans hcfg
                      obtain ⟨ev', l1, l2, l0, l3, l4, l5⟩ := (reconnectLoop_leftover b cfg fuel
                        (tries.map (· - 1)) (min cfg.backoff.maxDelay x) e w2).log
                      rw [hre, hc2] at l3 l4 l5
                      have hcc : connections (([.sleep d, .open_] ++ .connected :: ev) ++ ev')
                          = connections ev' + 1 := by rw [connections_append, hco]; omega
                      have hcp : w.client.scratch ++ hello w.client.config.credentials ++
                          copies (connections ev') (hello w.client.config.credentials)
                          = w.client.scratch ++ copies (connections ev' + 1)
                            (hello w.client.config.credentials) := by
                        rw [List.append_assoc]
                        congr 1
                      rw [hcp] at l3 l4 l5
                      refine ⟨⟨_, by rw [l1, hlog2, List.append_assoc], ?_, ?_, ?_, ?_, ?_⟩⟩
                      · rw [hcc]; simp
                      · rw [hcc]; simp
                      · intro _
                        rw [hcc]
                        by_cases h0 : connections ev' = 0
                        · have e : ([.sleep d, .open_] ++ .connected :: ev) ++ ev'
                            = [.sleep d, .open_] ++ .connected :: (ev ++ ev') := by simp
                          rw [e, lastConnection_eq (by rw [connections_append, h0, hev.connections]),
                            written_append, l0 h0, List.append_nil, hwr, h0]
                          simpa [copies] using g3
                        · rw [lastConnection_append h0]; exact l3 h0
                      · rw [hcc]; intro h; rw [lastConnection_append (l2 h)]; exact l4 h
                      · rw [hcc]; exact l5
                    · rw [if_neg hsr]; exact done _ (by simp [act_pure])
                  | ok u => exact done _ (fun _ => rfl)
            | _ => exact quiet [.sleep d, .open_] _ _ rfl rfl (e2 _) rfl (by simp)
      | _ => exact quiet [.sleep d] _ _ rfl rfl rfl rfl (by simp)

end Tmi.Proofs
