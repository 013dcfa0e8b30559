/-
Lemmas about `reconnect`.
-/
import Verif.Proofs.Handshake

namespace Tmi.Proofs
open Tmi.Model Tmi.Spec

/-! ### Delays -/

/-- The delays from a given one on. -/
def delayFrom (c : Backoff) (d : Nat) : Nat → Nat
  | 0 => d
  | k + 1 => delayFrom c (min c.maxDelay (d * c.delayMultiplier)) k

theorem delayFrom_capped (c : Backoff) : ∀ (k x : Nat),
    delayFrom c (min c.maxDelay x) k = min c.maxDelay (x * c.delayMultiplier ^ k)
  | 0, x => by simp [delayFrom]
  | k + 1, x => by
    rw [delayFrom]
    have hm : min c.maxDelay (min c.maxDelay x * c.delayMultiplier)
        = min c.maxDelay (x * c.delayMultiplier) := by
      rcases Nat.eq_zero_or_pos c.delayMultiplier with h | h
      · simp [h]
      · rcases Nat.le_total c.maxDelay x with h' | h'
        · rw [Nat.min_eq_left h']
          have h1 : c.maxDelay ≤ c.maxDelay * c.delayMultiplier := Nat.le_mul_of_pos_right _ h
          have h2 : c.maxDelay * c.delayMultiplier ≤ x * c.delayMultiplier := Nat.mul_le_mul_right _ h'
          rw [Nat.min_eq_left h1, Nat.min_eq_left (Nat.le_trans h1 h2)]
        · rw [Nat.min_eq_right h']
    rw [hm, delayFrom_capped c k, Nat.mul_assoc, Nat.pow_succ, Nat.mul_comm c.delayMultiplier]

theorem delayFrom_eq (c : Backoff) (k : Nat) : delayFrom c c.initialDelay k = delay c k := by
  cases k with
  | zero => rfl
  | succ k =>
    rw [delayFrom, delayFrom_capped, delay, Nat.mul_assoc, Nat.pow_succ, Nat.mul_comm c.delayMultiplier]

/-! ### The steps of an attempt -/

theorem sleep_run (d : Nat) (w : World) : sleep d w =
    match w.script with
    | [] => (.error .dropped, { w with log := w.log ++ [.sleep d] })
    | .elapsed n :: rest =>
      (.error (.elapsed n), { w with log := w.log ++ [.sleep d], script := rest })
    | .slept :: rest => (.ok (), { w with log := w.log ++ [.sleep d], script := rest })
    | _ :: rest => (.error .dropped, { w with log := w.log ++ [.sleep d], script := rest }) := by
  unfold sleep
  simp only [act_bind, emit, next]
  cases hs : w.script with
  | nil => rfl
  | cons a rest => cases a <;> rfl

theorem open_run (t : Nat) (w : World) : withTimeout t openStream w =
    match w.script with
    | [] => (.error .dropped, { w with log := w.log ++ [.open_] })
    | .elapsed 0 :: rest => (.ok (.error ()), { w with log := w.log ++ [.open_], script := rest })
    | .elapsed (n + 1) :: rest =>
      (.error (.elapsed n), { w with log := w.log ++ [.open_], script := rest })
    | .opened :: rest => (.ok (.ok (.ok ())), { w with log := w.log ++ [.open_], script := rest })
    | .openFailed e :: rest =>
      (.ok (.ok (.error e)), { w with log := w.log ++ [.open_], script := rest })
    | _ :: rest => (.error .dropped, { w with log := w.log ++ [.open_], script := rest }) := by
  unfold withTimeout openStream
  simp only [act_bind, emit, next]
  cases hs : w.script with
  | nil => rfl
  | cons a rest =>
    cases a with
    | elapsed n => cases n <;> rfl
    | _ => rfl

/-- Events of a handshake. -/
def HandshakeEvents (ev : List Effect) : Prop :=
  ∀ e ∈ ev, e = .flush ∨ (∃ bs, e = .wrote bs) ∨ ∃ s, e = .took s

theorem HandshakeEvents.sleeps {ev : List Effect} (h : HandshakeEvents ev) : sleeps ev = [] := by
  induction ev with
  | nil => rfl
  | cons e ev ih =>
    have ih := ih fun x hx => h x (List.mem_cons_of_mem _ hx)
    rcases h e (by simp) with rfl | ⟨bs, rfl⟩ | ⟨s, rfl⟩ <;> exact ih

theorem HandshakeEvents.opens {ev : List Effect} (h : HandshakeEvents ev) : opens ev = 0 := by
  induction ev with
  | nil => rfl
  | cons e ev ih =>
    have ih := ih fun x hx => h x (List.mem_cons_of_mem _ hx)
    rcases h e (by simp) with rfl | ⟨bs, rfl⟩ | ⟨s, rfl⟩ <;> rw [opens_cons, ih] <;> simp

theorem HelloEffect.events {w w' : World} {r : Except Stop (Except ConnectError Unit)}
    (h : HelloEffect w r w') : ∃ ev, w'.log = w.log ++ ev ∧ HandshakeEvents ev := by
  obtain ⟨ws, ss, h1, h2, _⟩ := h.log
  refine ⟨ws ++ List.map Effect.took ss, by rw [h1]; simp, ?_⟩
  intro e he
  rcases List.mem_append.1 he with he | he
  · rcases h2 e he with h | h
    · exact .inl h
    · exact .inr (.inl h)
  · obtain ⟨s, _, rfl⟩ := List.mem_map.1 he
    exact .inr (.inr ⟨s, rfl⟩)

theorem HelloEffect.ok_scratch {w w' : World} (h : HelloEffect w (.ok (.ok ())) w') :
    w'.client.scratch = [] := by
  obtain ⟨ws, ss, h1, h2, h3, h4 | h4⟩ := h.log
  · exact h4.1
  · exact absurd rfl h4.2.2.1

/-- What the loop of `reconnect` may do, whatever happens. -/
structure LoopEffect (c : Backoff) (tries : Option Nat) (d : Nat) (cause : ConnectError) (w : World)
    (r : Except Stop (Except ConnectError Unit)) (w' : World) : Prop where
  log : ∃ ev, w'.log = w.log ++ ev ∧
    opens ev ≤ (sleeps ev).length ∧ (sleeps ev).length ≤ opens ev + 1 ∧
    (∀ n, tries = some n → (sleeps ev).length ≤ n) ∧
    (∀ i x, (sleeps ev)[i]? = some x → x = delayFrom c d i)
  config : w'.client.config = w.client.config
  script : w'.script <:+ w.script
  scratch : r = .ok (.ok ()) → w'.client.scratch = []

theorem reconnectLoop_effect (b : Build) (cfg : Config) : ∀ (fuel : Nat) (tries : Option Nat) (d : Nat)
    (cause : ConnectError) (w : World),
    LoopEffect cfg.backoff tries d cause w (reconnectLoop b cfg fuel tries d cause w).1
      (reconnectLoop b cfg fuel tries d cause w).2
  | 0, tries, d, cause, w =>
    ⟨⟨[], by simp [reconnectLoop, stop], by simp [opens], by simp [sleeps], by simp [sleeps],
      by simp [sleeps]⟩, rfl, List.suffix_refl _, by simp [reconnectLoop, stop]⟩
  | fuel + 1, tries, d, cause, w => by
    rw [reconnectLoop]
    by_cases ht : tries = some 0
    · rw [if_pos ht]
      exact ⟨⟨[], by simp [act_pure], by simp [opens], by simp [sleeps], by simp [sleeps],
        by simp [sleeps]⟩, rfl, List.suffix_refl _, by simp [act_pure]⟩
    rw [if_neg ht]
    -- an iteration that ends the loop
    have done : ∀ (ev : List Effect) (r : Except Stop (Except ConnectError Unit)) (w' : World),
        sleeps ev = [d] → opens ev ≤ 1 → w'.log = w.log ++ ev →
        w'.client.config = w.client.config → w'.script <:+ w.script →
        (r = .ok (.ok ()) → w'.client.scratch = []) →
        LoopEffect cfg.backoff tries d cause w r w' := by
      intro ev r w' h1 h2 h3 h4 h5 h6
      refine ⟨⟨ev, h3, by rw [h1]; simpa using h2, by rw [h1]; simp, ?_, ?_⟩, h4, h5, h6⟩
      · intro n hn
        rw [h1]
        have : n ≠ 0 := fun h => ht (by rw [hn, h])
        simp; omega
      · intro i x hx
        rw [h1] at hx
        cases i with
        | zero => simp at hx; rw [← hx]; rfl
        | succ i => simp at hx
    -- an iteration that is followed by others
    have more : ∀ (ev : List Effect) (x : Nat) (cause' : ConnectError) (w1 : World),
        sleeps ev = [d] → opens ev = 1 → w1.log = w.log ++ ev →
        w1.client.config = w.client.config → w1.script <:+ w.script →
        mulDuration d cfg.backoff.delayMultiplier = .ok x →
        LoopEffect cfg.backoff tries d cause w
          (reconnectLoop b cfg fuel (tries.map (· - 1)) (min cfg.backoff.maxDelay x) cause' w1).1
          (reconnectLoop b cfg fuel (tries.map (· - 1)) (min cfg.backoff.maxDelay x) cause' w1).2 := by
      intro ev x cause' w1 h1 h2 h3 h4 h5 hx
      have hx' : x = d * cfg.backoff.delayMultiplier := by
        unfold mulDuration at hx
        split at hx <;> simp at hx
        exact hx.symm
      obtain ⟨⟨ev', l1, l2, l3, l4, l5⟩, l6, l7, l8⟩ := reconnectLoop_effect b cfg fuel
        (tries.map (· - 1)) (min cfg.backoff.maxDelay x) cause' w1
      refine ⟨⟨ev ++ ev', by rw [l1, h3]; simp, ?_, ?_, ?_, ?_⟩, l6.trans h4, l7.trans h5, l8⟩
      · rw [opens_append, sleeps_append, h1, h2]; simp; omega
      · rw [opens_append, sleeps_append, h1, h2]; simp; omega
      · intro n hn
        have : n ≠ 0 := fun h => ht (by rw [hn, h])
        have := l4 (n - 1) (by rw [hn]; rfl)
        rw [sleeps_append, h1]; simp; omega
      · intro i y hy
        rw [sleeps_append, h1] at hy
        cases i with
        | zero => simp at hy; rw [← hy]; rfl
        | succ i =>
          simp at hy
          rw [l5 i y hy, delayFrom, hx']
    rw [act_bind, sleep_run]
    have suf : ∀ {a : Answer} {rest : List Answer}, w.script = a :: rest → rest <:+ w.script := by
      intro a rest h; rw [h]; exact List.suffix_cons _ _
    cases hs : w.script with
    | nil => exact done [.sleep d] _ _ rfl (by simp [opens]) rfl rfl (List.nil_suffix) (by simp)
    | cons a rest =>
      have hsuf := suf hs
      cases a with
      | elapsed n => exact done [.sleep d] _ _ rfl (by simp [opens]) rfl rfl hsuf (by simp)
      | slept =>
        simp only []
        rw [act_bind]
        cases hm : mulDuration d cfg.backoff.delayMultiplier with
        | error f => exact done [.sleep d] _ _ rfl (by simp [opens]) rfl rfl hsuf (by simp [lift, stop])
        | ok x =>
          simp only [lift, act_pure]
          rw [act_bind, open_run]
          simp only []
          have e2 : ∀ l : List Effect, l ++ [.sleep d] ++ [.open_] = l ++ [.sleep d, .open_] := by simp
          cases hr : rest with
          | nil =>
            exact done [.sleep d, .open_] _ _ rfl (by simp [opens]) (e2 _) rfl List.nil_suffix (by simp)
          | cons a' rest' =>
            have hsuf' : rest' <:+ w.script := by
              refine List.IsSuffix.trans ?_ hsuf; rw [hr]; exact List.suffix_cons _ _
            cases a' with
            | elapsed n =>
              cases n with
              | zero =>
                simp only [act_pure]
                exact done [.sleep d, .open_] _ _ rfl (by simp [opens]) (e2 _) rfl hsuf' (by simp)
              | succ n => exact done [.sleep d, .open_] _ _ rfl (by simp [opens]) (e2 _) rfl hsuf' (by simp)
            | openFailed e =>
              simp only []
              exact more [.sleep d, .open_] x (.open_ e) _ rfl (by rfl) (e2 _) rfl hsuf' hm
            | opened =>
              simp only [useStream, act_bind, emit, setClosed]
              generalize hw1 : World.mk (Client.mk false w.client.scratch w.client.config)
                (w.log ++ [.sleep d] ++ [.open_] ++ [.connected]) rest' = w1
              have hlog : w1.log = w.log ++ [.sleep d, .open_, .connected] := by rw [← hw1]; simp
              have hcfg : w1.client.config = w.client.config := by rw [← hw1]
              have hscr : w1.script = rest' := by rw [← hw1]
              have hh := handshake_effect b w1
              unfold withTimeout
              cases hres : handshake b w1 with
              | mk r w2 =>
                rw [hres] at hh
                obtain ⟨ev, he, hev⟩ := hh.events
                have hlog2 : w2.log = w.log ++ ([.sleep d, .open_, .connected] ++ ev) := by
                  rw [he, hlog]; simp
                have hsl : sleeps ([.sleep d, .open_, .connected] ++ ev) = [d] := by
                  rw [sleeps_append, hev.sleeps]; rfl
                have hop : opens ([.sleep d, .open_, .connected] ++ ev) = 1 := by
                  rw [opens_append, hev.opens]; rfl
                have hcfg2 : w2.client.config = w.client.config := hh.config.trans hcfg
                have hscr2 : w2.script <:+ w.script := by
                  refine hh.script.trans ?_
                  rw [hscr]; exact hsuf'
                cases r with
                | error s =>
                  cases s with
                  | elapsed n =>
                    cases n with
                    | zero =>
                      simp only [act_pure]
                      exact done _ _ _ hsl (by rw [hop]; exact Nat.le_refl _) hlog2 hcfg2 hscr2 (by simp)
                    | succ n =>
                      exact done _ _ _ hsl (by rw [hop]; exact Nat.le_refl _) hlog2 hcfg2 hscr2 (by simp)
                  | dropped =>
                    exact done _ _ _ hsl (by rw [hop]; exact Nat.le_refl _) hlog2 hcfg2 hscr2 (by simp)
                  | panic f =>
                    exact done _ _ _ hsl (by rw [hop]; exact Nat.le_refl _) hlog2 hcfg2 hscr2 (by simp)
                | ok r =>
                  cases r with
                  | error e =>
                    simp only []
                    by_cases hsr : e.shouldRetry = true
                    · rw [if_pos hsr]
                      exact more _ x e _ hsl hop hlog2 hcfg2 hscr2 hm
                    · rw [if_neg hsr]
                      simp only [act_pure]
                      exact done _ _ _ hsl (by rw [hop]; exact Nat.le_refl _) hlog2 hcfg2 hscr2 (by simp)
                  | ok u =>
                    simp only []
                    exact done _ _ _ hsl (by rw [hop]; exact Nat.le_refl _) hlog2 hcfg2 hscr2
                      (fun _ => hh.ok_scratch)
            | _ =>
              exact done [.sleep d, .open_] _ _ rfl (by simp [opens]) (e2 _) rfl hsuf' (by simp)
      | _ => exact done [.sleep d] _ _ rfl (by simp [opens]) rfl rfl hsuf (by simp)

end Tmi.Proofs
