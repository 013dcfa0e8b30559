/-
Lemmas: when the delays of `reconnect` overflow.
-/
import Verif.Proofs.Attempts

namespace Tmi.Proofs
open Tmi.Model Tmi.Spec

/-- What the waits of the loop of `reconnect` say about how it ends. -/
def Waits (m : Nat) (w : World) (r : Except Stop (Except ConnectError Unit)) (w' : World) : Prop :=
  ∃ ev, w'.log = w.log ++ ev ∧
    (∀ f, r = .error (.panic f) → ∃ x, (sleeps ev).getLast? = some x ∧ maxDuration < x * m) ∧
    ∀ x ∈ sleeps ev, maxDuration < x * m → (sleeps ev).getLast? = some x ∧
      (r = .error (.panic .overflow) ∨ r = .error .dropped ∨ ∃ n, r = .error (.elapsed n))

theorem loop_waits (b : Build) (cfg : Config) : ∀ (fuel : Nat) (tries : Option Nat) (d : Nat)
    (cause : ConnectError) (w : World), w.script.length < fuel → AllParse b w.script →
    Waits cfg.backoff.delayMultiplier w (reconnectLoop b cfg fuel tries d cause w).1
      (reconnectLoop b cfg fuel tries d cause w).2
  | 0, tries, d, cause, w, hf, hr => by omega
  | fuel + 1, tries, d, cause, w, hf, hr => by
    rw [reconnectLoop]
    by_cases ht : tries = some 0
    · rw [if_pos ht]
      exact ⟨[], by simp [act_pure], by simp [act_pure], by simp [sleeps]⟩
    rw [if_neg ht]
    -- the loop ends while it waits
    have asleep : ∀ (r : Except Stop (Except ConnectError Unit)) (w' : World),
        w'.log = w.log ++ [.sleep d] → r = .error .dropped ∨ (∃ n, r = .error (.elapsed n)) →
        Waits cfg.backoff.delayMultiplier w r w' := by
      intro r w' h1 h2
      refine ⟨_, h1, ?_, ?_⟩
      · intro f hf; rcases h2 with h | ⟨n, h⟩ <;> rw [h] at hf <;> simp at hf
      · intro x hx _
        simp [sleeps] at hx
        rw [hx]
        exact ⟨rfl, .inr h2⟩
    -- the iteration ends the loop after the multiplication
    have done : ∀ (ev : List Effect) (r : Except Stop (Except ConnectError Unit)) (w' : World),
        d * cfg.backoff.delayMultiplier ≤ maxDuration →
        sleeps ev = [d] → w'.log = w.log ++ ev → (∀ f, r ≠ .error (.panic f)) →
        Waits cfg.backoff.delayMultiplier w r w' := by
      intro ev r w' h0 h1 h2 h3
      refine ⟨_, h2, fun f hf => absurd hf (h3 f), ?_⟩
      intro x hx h
      rw [h1] at hx
      simp at hx
      rw [hx] at h
      omega
    -- the iteration is followed by others
    have more : ∀ (ev : List Effect) (tries' : Option Nat) (x : Nat) (cause' : ConnectError) (w1 : World),
        d * cfg.backoff.delayMultiplier ≤ maxDuration →
        sleeps ev = [d] → w1.log = w.log ++ ev → w1.script.length < fuel → AllParse b w1.script →
        Waits cfg.backoff.delayMultiplier w (reconnectLoop b cfg fuel tries' x cause' w1).1
          (reconnectLoop b cfg fuel tries' x cause' w1).2 := by
      intro ev tries' x cause' w1 h0 h1 h2 h3 h4
      obtain ⟨ev', l1, l2, l3⟩ := loop_waits b cfg fuel tries' x cause' w1 h3 h4
      refine ⟨ev ++ ev', by rw [l1, h2]; simp, ?_, ?_⟩
      · intro f hf
        obtain ⟨y, y1, y2⟩ := l2 f hf
        exact ⟨y, by rw [sleeps_append, h1, List.getLast?_append, y1]; rfl, y2⟩
      · intro y hy h
        rw [sleeps_append, h1] at hy
        rcases List.mem_append.1 hy with hy | hy
        · simp at hy; rw [hy] at h; omega
        · obtain ⟨y1, y2⟩ := l3 y hy h
          exact ⟨by rw [sleeps_append, h1, List.getLast?_append, y1]; rfl, y2⟩
    rw [act_bind, sleep_run]
    cases hs : w.script with
    | nil => exact asleep _ _ rfl (.inl rfl)
    | cons a rest =>
      rw [hs] at hr hf
      cases a with
      | elapsed n => exact asleep _ _ rfl (.inr ⟨n, rfl⟩)
      | slept =>
        simp only []
        rw [act_bind]
        by_cases hm : d * cfg.backoff.delayMultiplier ≤ maxDuration
        · have hmd : mulDuration d cfg.backoff.delayMultiplier = .ok (d * cfg.backoff.delayMultiplier) := by
            unfold mulDuration; rw [if_pos hm]
          rw [hmd]
          simp only [lift, act_pure]
          rw [act_bind, open_run]
          simp only []
          have e2 : ∀ l : List Effect, l ++ [.sleep d] ++ [.open_] = l ++ [.sleep d, .open_] := by simp
          cases hr' : rest with
          | nil => exact done [.sleep d, .open_] _ _ hm rfl (e2 _) (by simp)
          | cons a' rest' =>
            rw [hr'] at hr hf
            have hlen : rest'.length < fuel := by simp at hf; omega
            cases a' with
            | elapsed n =>
              cases n with
              | zero =>
                simp only [act_pure]
                exact done [.sleep d, .open_] _ _ hm rfl (e2 _) (by simp)
              | succ n => exact done [.sleep d, .open_] _ _ hm rfl (e2 _) (by simp)
            | openFailed e =>
              simp only []
              exact more [.sleep d, .open_] _ _ (.open_ e) _ hm rfl (e2 _) hlen hr.tail.tail
            | opened =>
              simp only [useStream, act_bind, emit, setClosed]
              generalize hw1 : World.mk (Client.mk false w.client.scratch w.client.config)
                (w.log ++ [.sleep d] ++ [.open_] ++ [.connected]) rest' = w1
              have hlog : w1.log = w.log ++ [.sleep d, .open_, .connected] := by rw [← hw1]; simp
              have hscr : w1.script = rest' := by rw [← hw1]
              have r1 : AllParse b w1.script := by rw [hscr]; exact hr.tail.tail
              have hh := handshake_effect b w1
              have np := fun f w' => handshake_no_panic (w := w1) (by rw [← hw1]) r1 f w'
              unfold withTimeout
              cases hres : handshake b w1 with
              | mk r w2 =>
                rw [hres] at hh
                obtain ⟨ev, he, hev⟩ := hh.events
                have hlog2 : w2.log = w.log ++ ([.sleep d, .open_, .connected] ++ ev) := by
                  rw [he, hlog]; simp
                have hsl : sleeps ([.sleep d, .open_, .connected] ++ ev) = [d] := by
                  rw [sleeps_append, hev.sleeps]; rfl
                have hsuf := hh.script
                have hlen2 : w2.script.length ≤ w1.script.length := hsuf.length_le
                rw [hscr] at hlen2
                cases r with
                | error s =>
                  cases s with
                  | elapsed n =>
                    cases n with
                    | zero =>
                      simp only [act_pure]
                      exact done _ _ _ hm hsl hlog2 (by simp)
                    | succ n => exact done _ _ _ hm hsl hlog2 (by simp)
                  | dropped => exact done _ _ _ hm hsl hlog2 (by simp)
                  | panic f => exact absurd hres (np f w2)
                | ok r =>
                  cases r with
                  | error e =>
                    simp only []
                    by_cases hsr : e.shouldRetry = true
                    · rw [if_pos hsr]
                      exact more _ _ _ e _ hm hsl hlog2 (by omega) (r1.suffix hsuf)
                    · rw [if_neg hsr]
                      simp only [act_pure]
                      exact done _ _ _ hm hsl hlog2 (by simp)
                  | ok _ =>
                    simp only [act_pure]
                    exact done _ _ _ hm hsl hlog2 (by simp)
            | _ => exact done [.sleep d, .open_] _ _ hm rfl (e2 _) (by simp)
        · have hmd : mulDuration d cfg.backoff.delayMultiplier = .error .overflow := by
            unfold mulDuration; rw [if_neg hm]
          rw [hmd]
          simp only [lift, stop]
          refine ⟨[.sleep d], rfl, ?_, ?_⟩
          · intro f _; exact ⟨d, rfl, by omega⟩
          · intro x hx _
            simp [sleeps] at hx
            rw [hx]
            exact ⟨rfl, .inl rfl⟩
      | _ => exact asleep _ _ rfl (.inl rfl)

end Tmi.Proofs
