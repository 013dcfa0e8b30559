/-
Lemmas: just before a new connection, `reconnect` is where it would be had it been dropped there; what the server has
got on every connection.
-/
import Verif.Proofs.Cut
import Verif.Proofs.Issued

namespace Tmi.Proofs
open Tmi.Model Tmi.Spec Tmi.Props

theorem connections_connected (l : List Effect) : connections (.connected :: l) = connections l + 1 := by
  unfold connections
  rw [List.filter_cons_of_pos (by rfl), List.length_cons]

/-- A log cut just before a connection, when what follows the first part has a known beginning without connections. -/
theorem split_after {x : List Effect} (hx : connections x = 0) {a c y : List Effect}
    (h : x ++ y = a ++ .connected :: c) : ∃ a', a = x ++ a' ∧ y = a' ++ .connected :: c := by
  rcases List.append_eq_append_iff.1 h with ⟨a', h1, h2⟩ | ⟨c', h1, h2⟩
  · exact ⟨a', h1, h2⟩
  · rcases c' with _ | ⟨e, c'⟩
    · exact ⟨[], by simpa using h1.symm, by simpa using h2.symm⟩
    · injection h2 with h2 h3
      subst h2
      rw [h1, connections_append, connections_connected] at hx
      omega

theorem loop_moment (b : Build) (cfg : Config) : ∀ (fuel : Nat) (tries : Option Nat) (d : Nat)
    (cause : ConnectError) (w : World) (a c : List Effect),
    (reconnectLoop b cfg fuel tries d cause w).2.log = w.log ++ (a ++ .connected :: c) →
    ∃ s, ∀ k, s.length < k → (reconnectLoop b cfg k tries d cause { w with script := s }).2.log = w.log ++ a ∧
      returnedOk (reconnectLoop b cfg k tries d cause { w with script := s }).1 = false
  | 0, tries, d, cause, w, a, c, h => by
    simp [reconnectLoop, stop] at h
  | fuel + 1, tries, d, cause, w, a, c, h => by
    rw [reconnectLoop] at h
    by_cases ht : tries = some 0
    · rw [if_pos ht] at h; simp [act_pure] at h
    rw [if_neg ht, act_bind, sleep_run] at h
    have no1 : ∀ {P : Prop}, w.log ++ [.sleep d] = w.log ++ (a ++ .connected :: c) → P := by
      intro P h
      have := congrArg connections (List.append_cancel_left h)
      rw [connections_append, connections_connected] at this
      have : connections [.sleep d] = 0 := rfl
      omega
    have no2 : ∀ {P : Prop}, w.log ++ [.sleep d] ++ [.open_] = w.log ++ (a ++ .connected :: c) → P := by
      intro P h
      rw [List.append_assoc] at h
      have := congrArg connections (List.append_cancel_left h)
      rw [connections_append, connections_append, connections_connected] at this
      have : connections [.sleep d] = 0 := rfl
      have : connections [.open_] = 0 := rfl
      omega
    cases hs : w.script with
    | nil => rw [hs] at h; exact no1 h
    | cons x rest =>
      rw [hs] at h
      cases x with
      | slept =>
        simp only [] at h
        rw [act_bind] at h
        cases hm : mulDuration d cfg.backoff.delayMultiplier with
        | error f => rw [hm] at h; exact no1 h
        | ok x =>
          rw [hm] at h
          simp only [lift, act_pure] at h
          rw [act_bind, open_run] at h
          simp only [] at h
          -- one round that opens nothing, or fails on what it opens, then the rest
          have step : ∀ k s', (reconnectLoop b cfg (k + 1) tries d cause { w with script := .slept :: s' }) =
              (withTimeout cfg.timeout openStream >>= fun r => match r with
                | .error () => (return .error .timeout : Act (Except ConnectError Unit))
                | .ok (.error e) => reconnectLoop b cfg k (tries.map (· - 1)) (min cfg.backoff.maxDelay x) (.open_ e)
                | .ok (.ok ()) => do
                  useStream
                  match ← withTimeout cfg.timeout (handshake b) with
                  | .error () => return .error .timeout
                  | .ok (.error e) =>
                    if e.shouldRetry then reconnectLoop b cfg k (tries.map (· - 1)) (min cfg.backoff.maxDelay x) e
                    else return .error e
                  | .ok (.ok ()) => return .ok ()) { w with log := w.log ++ [.sleep d], script := s' } := by
            intro k s'
            rw [reconnectLoop, if_neg ht, act_bind, sleep_run]
            simp only []
            rw [act_bind, hm]
            simp only [lift, act_pure]
            rfl
          cases hr : rest with
          | nil => rw [hr] at h; exact no2 h
          | cons y rest' =>
            rw [hr] at h
            cases y with
            | elapsed n =>
              cases n with
              | zero => exact no2 h
              | succ n => exact no2 h
            | openFailed e =>
              simp only [] at h
              have h' : (reconnectLoop b cfg fuel (tries.map (· - 1)) (min cfg.backoff.maxDelay x) (.open_ e)
                { w with log := w.log ++ [.sleep d] ++ [.open_], script := rest' }).2.log =
                  w.log ++ (a ++ .connected :: c) := h
              have hp : ∃ ev, (reconnectLoop b cfg fuel (tries.map (· - 1)) (min cfg.backoff.maxDelay x) (.open_ e)
                { w with log := w.log ++ [.sleep d] ++ [.open_], script := rest' }).2.log =
                  w.log ++ [.sleep d] ++ [.open_] ++ ev := by
                obtain ⟨ev, h, _⟩ := reconnectLoop_stays b cfg fuel (tries.map (· - 1)) (min cfg.backoff.maxDelay x)
                  (.open_ e) { w with log := w.log ++ [.sleep d] ++ [.open_], script := rest' }
                exact ⟨ev, h⟩
              obtain ⟨ev, hev⟩ := hp
              rw [hev] at h'
              have h'' : [.sleep d, .open_] ++ ev = a ++ .connected :: c := by
                apply List.append_cancel_left (as := w.log)
                rw [← h']; simp
              obtain ⟨a', e1, e2⟩ := split_after rfl h''
              obtain ⟨s, ih⟩ := loop_moment b cfg fuel _ _ _ _ a' c (by rw [hev, e2])
              refine ⟨.slept :: .openFailed e :: s, fun k hk => ?_⟩
              cases k with
              | zero => simp at hk
              | succ k =>
                rw [step, act_bind, open_run]
                simp only []
                obtain ⟨i1, i2⟩ := ih k (by simp at hk; omega)
                refine ⟨?_, i2⟩
                rw [e1]
                simpa using i1
            | opened =>
              simp only [useStream, act_bind, emit, setClosed] at h
              generalize hw1 : World.mk (Client.mk false w.client.scratch w.client.config)
                (w.log ++ [.sleep d] ++ [.open_] ++ [.connected]) rest' = w1 at h
              have hlog : w1.log = w.log ++ [.sleep d, .open_, .connected] := by rw [← hw1]; simp
              have hw1' : ∀ t, World.mk (Client.mk false w.client.scratch w.client.config)
                (w.log ++ [.sleep d] ++ [.open_] ++ [.connected]) t = { w1 with script := t } := by
                intro t; rw [← hw1]
              have hh := handshake_effect b w1
              obtain ⟨used, u1, -, -, u4⟩ := Cut.handshake b w1.client w1.log w1.script
              obtain ⟨ev, he, hev⟩ := hh.events
              -- the first connection of this run
              have first : a = [.sleep d, .open_] → ∃ s, ∀ k, s.length < k →
                  (reconnectLoop b cfg k tries d cause { w with script := s }).2.log = w.log ++ a ∧
                  returnedOk (reconnectLoop b cfg k tries d cause { w with script := s }).1 = false := by
                intro ha
                refine ⟨[.slept], fun k hk => ?_⟩
                cases k with
                | zero => simp at hk
                | succ k =>
                  rw [step, act_bind, open_run]
                  simp only []
                  exact ⟨by rw [ha]; simp, rfl⟩
              -- nothing after the handshake
              have last : (handshake b w1).2.log = w.log ++ (a ++ .connected :: c) → a = [.sleep d, .open_] := by
                intro h
                rw [he, hlog] at h
                have h' : [.sleep d, .open_] ++ (.connected :: ev) = a ++ .connected :: c := by
                  apply List.append_cancel_left (as := w.log)
                  rw [← h]; simp
                obtain ⟨a', e1, e2⟩ := split_after rfl h'
                cases a' with
                | nil => simpa using e1
                | cons z a' =>
                  injection e2 with e2 e3
                  have e3 : ev = a' ++ .connected :: c := e3
                  have := hev.connections
                  rw [e3, connections_append, connections_connected] at this
                  omega
              unfold withTimeout at h
              cases hres : handshake b w1 with
              | mk r w2 =>
                have hwe : World.mk w1.client w1.log w1.script = w1 := rfl
                rw [hwe, hres] at u1 u4
                rw [hres] at he last h
                cases r with
                | error s =>
                  cases s with
                  | elapsed n => cases n <;> exact first (last h)
                  | dropped => exact first (last h)
                  | panic f => exact first (last h)
                | ok r =>
                  cases r with
                  | ok u => exact first (last h)
                  | error e =>
                    simp only [] at h
                    by_cases hsr : e.shouldRetry = true
                    · rw [if_pos hsr] at h
                      obtain ⟨ev', l1, _⟩ := reconnectLoop_stays b cfg fuel
                        (tries.map (· - 1)) (min cfg.backoff.maxDelay x) e w2
                      have h'' : [.sleep d, .open_] ++ (.connected :: (ev ++ ev')) = a ++ .connected :: c := by
                        apply List.append_cancel_left (as := w.log)
                        rw [← h, l1, he, hlog]; simp
                      obtain ⟨a', e1, e2⟩ := split_after rfl h''
                      cases a' with
                      | nil => exact first (by simpa using e1)
                      | cons z a' =>
                        injection e2 with e2 e3
                        obtain ⟨a'', e4, e5⟩ := split_after hev.connections e3
                        obtain ⟨s, ih⟩ := loop_moment b cfg fuel _ _ _ _ a'' c (by rw [l1, e5])
                        refine ⟨.slept :: .opened :: (used ++ s), fun k hk => ?_⟩
                        cases k with
                        | zero => simp at hk
                        | succ k =>
                          rw [step, act_bind, open_run]
                          simp only [useStream, act_bind, emit, setClosed]
                          rw [hw1']
                          unfold withTimeout
                          have u4 := u4 (by simp) s
                          rw [show ({ w1 with script := used ++ s } : World) = ⟨w1.client, w1.log, used ++ s⟩ from rfl, u4]
                          simp only []
                          rw [if_pos hsr]
                          obtain ⟨i1, i2⟩ := ih k (by simp at hk; omega)
                          refine ⟨?_, i2⟩
                          rw [e1, e4, ← e2]
                          rw [show ({ w2 with script := s } : World) = ⟨w2.client, w2.log, s⟩ from rfl] at i1
                          rw [i1, he, hlog]
                          simp
                    · rw [if_neg hsr] at h; exact first (last h)
            | _ => exact no2 h
      | _ => exact no1 h

theorem reconnect_moment (b : Build) (w : World) (a c : List Effect)
    (h : (reconnect b w).2.log = w.log ++ (a ++ .connected :: c)) :
    ∃ s, (reconnect b { w with script := s }).2.log = w.log ++ a ∧
      returnedOk (reconnect b { w with script := s }).1 = false := by
  obtain ⟨s, hs⟩ := loop_moment b w.client.config _ _ _ _ w a c h
  exact ⟨s, hs _ (Nat.lt_succ_self _)⟩

/-! ### Every connection of a client -/

/-- A `connect` that succeeds opens one connection. -/
theorem connect_one {b : Build} {cfg : Config} {w : World} (hw : connections w.log = 0)
    (h : (connect b cfg w).1 = .ok (.ok ())) : connections (connect b cfg w).2.log = 1 := by
  revert h
  unfold connect
  rcases next_cases w with ⟨hs, hn⟩ | ⟨n, rest, hs, hn⟩ | ⟨a, rest, hs, hne, hn⟩
  · rw [act_bind_error hn]; simp
  · rw [act_bind_error hn]; simp
  rw [act_bind_ok hn]
  cases a with
  | elapsed n => exact absurd rfl (hne n)
  | tlsLoaded =>
    simp only []
    rw [act_bind, open_run]
    cases hr : rest with
    | nil => simp
    | cons a rest' =>
      cases a with
      | elapsed n => cases n <;> simp [act_pure]
      | openFailed e => simp [act_pure]
      | opened =>
        simp only [act_bind, emit, setClient]
        generalize hw1 : World.mk _ (w.log ++ [.open_] ++ [.connected]) rest' = w1
        have l1 : connections w1.log = 1 := by
          rw [← hw1]
          simp only [connections_append, hw]
          rfl
        obtain ⟨ev, he, hev⟩ := (handshake_effect b w1).events
        have l2 : connections (withTimeout cfg.timeout (handshake b) w1).2.log = 1 := by
          rw [timeout_snd, he, connections_append, l1, hev.connections]
        rcases hres : withTimeout cfg.timeout (handshake b) w1 with ⟨r, w2⟩
        rw [hres] at l2
        cases r with
        | error s => simp
        | ok r =>
          cases r with
          | error u => simp [act_pure]
          | ok r => intro _; exact l2
      | _ => simp
  | _ => simp [act_pure, stop]

/-- `l` is the log of `w` just before a new connection, or all of it. -/
def Moment (w : World) (l : List Effect) : Prop := w.log = l ∨ ∃ r, w.log = l ++ .connected :: r

/-- What is known about the connection number `j`, when it was replaced or now. -/
def Known (all : List (Bool × List (Cmd × Bool))) (j : Nat) (rs : List (Bool × Nat))
    (ok : Bool) : Prop :=
  (rs.map (·.2)).sum = j ∧ welcomed rs = ok ∧
    ((∀ x ∈ all.take (j + 1), x.1 = true) → ∀ r ∈ rs, r.2 ≠ 0 → r = (true, 1))

theorem lives_moment {cfg : Config} {all : List (Bool × List (Cmd × Bool))} {w : World} (s : Lives cfg all w) :
    connections w.log = all.length ∧
    (∀ old ok cs, all = old ++ [(ok, cs)] → ∃ rs, Since cfg rs cs w ∧ Known all old.length rs ok) ∧
    ∀ (l : List Effect) (j : Nat) (ok : Bool) (cs : List (Cmd × Bool)), Moment w l → connections l = j + 1 →
      all[j]? = some (ok, cs) → ∃ rs w', Since cfg rs cs w' ∧ w'.log = l ∧ Known all j rs ok := by
  -- a call that opens no connection
  have quiet : ∀ {all old : List (Bool × List (Cmd × Bool))} {ok : Bool} {cs cs' : List (Cmd × Bool)} {w w' : World}
      {ev : List Effect} {rs' : List (Bool × Nat)}, all = old ++ [(ok, cs)] →
      connections w.log = all.length → w'.log = w.log ++ ev → connections ev = 0 →
      (∀ (l : List Effect) (j : Nat) (ok : Bool) (cs : List (Cmd × Bool)), Moment w l → connections l = j + 1 →
        all[j]? = some (ok, cs) → ∃ rs w', Since cfg rs cs w' ∧ w'.log = l ∧ Known all j rs ok) →
      Since cfg rs' cs' w' → Known (old ++ [(ok, cs')]) old.length rs' ok →
      connections w'.log = (old ++ [(ok, cs')]).length ∧
      (∀ old' ok' cs'', old ++ [(ok, cs')] = old' ++ [(ok', cs'')] →
        ∃ rs, Since cfg rs cs'' w' ∧ Known (old ++ [(ok, cs')]) old'.length rs ok') ∧
      ∀ (l : List Effect) (j : Nat) (ok' : Bool) (cs'' : List (Cmd × Bool)), Moment w' l → connections l = j + 1 →
        (old ++ [(ok, cs')])[j]? = some (ok', cs'') →
        ∃ rs w'', Since cfg rs cs'' w'' ∧ w''.log = l ∧ Known (old ++ [(ok, cs')]) j rs ok' := by
    intro all old ok cs cs' w w' ev rs' hall hn hlog hev ih hs hk
    have hn' : connections w'.log = (old ++ [(ok, cs')]).length := by
      rw [hlog, connections_append, hev, hn, hall]; simp
    refine ⟨hn', ?_, ?_⟩
    · intro old' ok' cs'' h
      obtain ⟨h1, h2⟩ := List.append_inj' h rfl
      subst h1
      simp only [List.cons.injEq, Prod.mk.injEq, and_true] at h2
      obtain ⟨rfl, rfl⟩ := h2
      exact ⟨rs', hs, hk⟩
    · intro l j ok' cs'' hm hl hj
      by_cases hlast : j = old.length
      · subst hlast
        have : w'.log = l := by
          rcases hm with h | ⟨r, h⟩
          · exact h
          · rw [h, connections_append, connections_connected, hl] at hn'
            simp at hn'
        rw [List.getElem?_append_right (Nat.le_refl _), Nat.sub_self] at hj
        simp only [List.getElem?_cons_zero, Option.some.injEq, Prod.mk.injEq] at hj
        obtain ⟨rfl, rfl⟩ := hj
        exact ⟨rs', w', hs, this, hk⟩
      · have hjl : j < old.length := by
          have := (List.getElem?_eq_some_iff.1 hj).1
          simp at this
          omega
        have hj' : all[j]? = some (ok', cs'') := by
          rw [hall, List.getElem?_append_left hjl]
          rwa [List.getElem?_append_left hjl] at hj
        have hm' : Moment w l := by
          rcases hm with h | ⟨r, h⟩
          · rw [h, hl] at hn'
            simp at hn'
            omega
          · rw [hlog] at h
            rcases List.append_eq_append_iff.1 h with ⟨a', h1, h2⟩ | ⟨c', h1, h2⟩
            · rw [h2, connections_append, connections_connected] at hev
              omega
            · rcases c' with _ | ⟨e, c'⟩
              · exact .inl (by simpa using h1)
              · injection h2 with h2 h3
                subst h2
                exact .inr ⟨c', h1⟩
        obtain ⟨rs, w'', k1, k2, k3, k4, k5⟩ := ih l j ok' cs'' hm' hl hj'
        refine ⟨rs, w'', k1, k2, k3, k4, ?_⟩
        rw [List.take_append_of_le_length (by omega)]
        rw [hall, List.take_append_of_le_length (by omega)] at k5
        exact k5
  have known : ∀ {old : List (Bool × List (Cmd × Bool))} {ok : Bool} {cs cs' : List (Cmd × Bool)}
      {rs : List (Bool × Nat)}, Known (old ++ [(ok, cs)]) old.length rs ok →
      Known (old ++ [(ok, cs')]) old.length rs ok := by
    intro old ok cs cs' rs ⟨k1, k2, k3⟩
    refine ⟨k1, k2, fun h => k3 fun x hx => ?_⟩
    rw [List.take_of_length_le (by simp)] at h hx
    rcases List.mem_append.1 hx with hx | hx
    · exact h x (List.mem_append_left _ hx)
    · rw [List.mem_singleton.1 hx]
      exact h (ok, cs') (List.mem_append_right _ (List.mem_singleton.2 rfl))
  have nonempty : ∀ {all : List (Bool × List (Cmd × Bool))} {w : World}, Lives cfg all w →
      ∃ old ok cs, all = old ++ [(ok, cs)] := by
    intro all w s
    induction s with
    | connect => exact ⟨[], true, [], rfl⟩
    | send => exact ⟨_, _, _, rfl⟩
    | recv _ _ _ ih => exact ih
    | idle _ _ _ _ _ _ ih => exact ih
    | reconnect => exact ⟨_, _, _, rfl⟩
  induction s with
  | connect b w hw h =>
    have one := connect_one hw h
    refine ⟨one, ?_, ?_⟩
    · intro old ok cs h'
      have hl := congrArg List.length h'
      simp at hl
      subst hl
      simp only [List.nil_append, List.cons.injEq, Prod.mk.injEq, and_true] at h'
      obtain ⟨rfl, rfl⟩ := h'
      exact ⟨[], .connect b w h, rfl, rfl, by simp⟩
    · intro l j ok cs hm hl hj
      have : (connect b cfg w).2.log = l := by
        rcases hm with h | ⟨r, h⟩
        · exact h
        · rw [h, connections_append, connections_connected, hl] at one
          omega
      have hj0 : j = 0 := by
        rw [this, hl] at one
        omega
      subst hj0
      simp only [List.getElem?_cons_zero, Option.some.injEq, Prod.mk.injEq] at hj
      obtain ⟨rfl, rfl⟩ := hj
      exact ⟨[], _, .connect b w h, this, rfl, rfl, by simp⟩
  | @send old ok cs w s c answers ih =>
    obtain ⟨i1, i2, i3⟩ := ih
    obtain ⟨rs, s', hk⟩ := i2 old ok cs rfl
    obtain ⟨ev, l1, l2, -, -⟩ := send_piece c { w with script := answers }
    exact quiet rfl i1 l1 l2 i3 (.send s' c answers) (known hk)
  | @recv all w s b answers ih =>
    obtain ⟨i1, i2, i3⟩ := ih
    obtain ⟨old, ok, cs, rfl⟩ := nonempty s
    obtain ⟨rs, s', hk⟩ := i2 old ok cs rfl
    obtain ⟨ev, l1, l2, -⟩ := recv_log b { w with script := answers }
    exact quiet rfl i1 l1 l2 i3 (.recv s' b answers) hk
  | @idle all w s b answers ev hev h0 ih =>
    obtain ⟨i1, i2, i3⟩ := ih
    obtain ⟨old, ok, cs, rfl⟩ := nonempty s
    obtain ⟨rs, s', k1, k2, k3⟩ := i2 old ok cs rfl
    have s'' := Since.reconnect s' b answers ev hev
    rw [if_pos h0] at s''
    refine quiet rfl i1 hev h0 i3 s'' ⟨?_, ?_, ?_⟩
    · rw [List.map_append, List.sum_append, k1]; simp [h0]
    · rw [welcomed_snoc, if_pos h0]; exact k2
    · intro h r hr hr0
      rcases List.mem_append.1 hr with hr | hr
      · exact k3 h r hr hr0
      · rw [List.mem_singleton.1 hr] at hr0
        exact absurd h0 hr0
  | @reconnect all w s b answers ev n hev hn ih =>
    obtain ⟨i1, i2, i3⟩ := ih
    obtain ⟨old, ok, cs, rfl⟩ := nonempty s
    obtain ⟨rs, s', k1, k2, k3⟩ := i2 old ok cs rfl
    have s'' := Since.reconnect s' b answers ev hev
    rw [if_neg (by omega), hn] at s''
    have tot : connections (reconnect b { w with script := answers }).2.log = old.length + 1 + n + 1 := by
      rw [hev, connections_append, i1, hn]; simp; omega
    have hlen : (old ++ [(ok, cs)] ++ List.replicate n (false, ([] : List (Cmd × Bool)))).length
        = old.length + 1 + n := by simp; omega
    -- the newest connection
    have newest : Known (old ++ [(ok, cs)] ++ List.replicate n (false, []) ++
        [(returnedOk (reconnect b { w with script := answers }).1, [])]) (old.length + 1 + n)
        (rs ++ [(returnedOk (reconnect b { w with script := answers }).1, n + 1)])
        (returnedOk (reconnect b { w with script := answers }).1) := by
      refine ⟨?_, ?_, ?_⟩
      · rw [List.map_append, List.sum_append, k1]; simp; omega
      · rw [welcomed_snoc, if_neg (by simp)]
      · rw [List.take_of_length_le (by simp; omega)]
        intro h r hr hr0
        rcases List.mem_append.1 hr with hr | hr
        · refine k3 (fun x hx => h x ?_) r hr hr0
          rw [List.take_of_length_le (by simp)] at hx
          exact List.mem_append_left _ (List.mem_append_left _ hx)
        · rw [List.mem_singleton.1 hr]
          have h1 := h (returnedOk (reconnect b { w with script := answers }).1, [])
            (List.mem_append_right _ (List.mem_singleton.2 rfl))
          simp only [] at h1
          have h2 : n = 0 := by
            cases n with
            | zero => rfl
            | succ n =>
              have := h (false, []) (List.mem_append_left _ (List.mem_append_right _ (by simp)))
              simp at this
          rw [h1, h2]
    refine ⟨by rw [tot]; simp; omega, ?_, ?_⟩
    · intro old' ok' cs'' h
      obtain ⟨h1, h2⟩ := List.append_inj' h rfl
      subst h1
      simp only [List.cons.injEq, Prod.mk.injEq, and_true] at h2
      obtain ⟨rfl, rfl⟩ := h2
      rw [hlen]
      exact ⟨_, s'', newest⟩
    · intro l j ok' cs'' hm hl hj
      by_cases hlast : j = old.length + 1 + n
      · have hlog : (reconnect b { w with script := answers }).2.log = l := by
          rcases hm with h | ⟨r, h⟩
          · exact h
          · rw [h, connections_append, connections_connected, hl] at tot
            omega
        subst hlast
        rw [List.getElem?_append_right (by rw [hlen]; exact Nat.le_refl _), hlen, Nat.sub_self] at hj
        simp only [List.getElem?_cons_zero, Option.some.injEq, Prod.mk.injEq] at hj
        obtain ⟨rfl, rfl⟩ := hj
        exact ⟨_, _, s'', hlog, newest⟩
      · have hjn : j < old.length + 1 + n := by
          have := (List.getElem?_eq_some_iff.1 hj).1
          rw [List.length_append, hlen] at this
          simp at this
          omega
        have hr : ∃ r, (reconnect b { w with script := answers }).2.log = l ++ .connected :: r := by
          rcases hm with h | h
          · rw [h, hl] at tot
            omega
          · exact h
        obtain ⟨r, hr⟩ := hr
        rw [List.getElem?_append_left (by rw [hlen]; exact hjn)] at hj
        rw [hev] at hr
        by_cases hold : j < old.length
        · -- an older connection
          rw [List.append_assoc, List.getElem?_append_left hold] at hj
          have hm' : Moment w l := by
            rcases List.append_eq_append_iff.1 hr with ⟨a', h1, h2⟩ | ⟨c', h1, h2⟩
            · have : connections l ≥ connections w.log := by rw [h1, connections_append]; omega
              rw [i1, hl] at this
              simp at this
              omega
            · rcases c' with _ | ⟨e, c'⟩
              · exact .inl (by simpa using h1)
              · injection h2 with h2 h3
                subst h2
                exact .inr ⟨c', h1⟩
          obtain ⟨rs', w', e1, e2, e3, e4, e5⟩ := i3 l j ok' cs'' hm' hl (by rw [List.getElem?_append_left hold]; exact hj)
          refine ⟨rs', w', e1, e2, e3, e4, ?_⟩
          rw [List.append_assoc, List.append_assoc, List.take_append_of_le_length (by omega)]
          rw [List.take_append_of_le_length (by omega)] at e5
          exact e5
        · -- a connection that was the newest when this `reconnect` began, or one it gave up
          obtain ⟨a, h1, h2⟩ : ∃ a, l = w.log ++ a ∧ ev = a ++ .connected :: r := by
            rcases List.append_eq_append_iff.1 hr with ⟨a', h1, h2⟩ | ⟨c', h1, h2⟩
            · exact ⟨a', h1, h2⟩
            · rcases c' with _ | ⟨e, c'⟩
              · exact ⟨[], by simpa using h1.symm, by simpa using h2.symm⟩
              · injection h2 with h2 h3
                subst h2
                rw [h1, connections_append, connections_connected, hl] at i1
                simp at i1
                omega
          obtain ⟨answers', m1, m2⟩ := reconnect_moment b { w with script := answers } a r (by rw [hev, h2])
          have m1 : (reconnect b { w with script := answers' }).2.log = w.log ++ a := m1
          have m2 : returnedOk (reconnect b { w with script := answers' }).1 = false := m2
          have t := Since.reconnect s' b answers' a m1
          rw [m2] at t
          have ca : connections a = j - old.length := by
            rw [h1, connections_append, i1] at hl
            simp at hl
            omega
          by_cases hj0 : j = old.length
          · subst hj0
            rw [List.append_assoc, List.getElem?_append_right (Nat.le_refl _), Nat.sub_self] at hj
            simp only [List.cons_append, List.nil_append, List.getElem?_cons_zero, Option.some.injEq,
              Prod.mk.injEq] at hj
            obtain ⟨rfl, rfl⟩ := hj
            have ca : connections a = 0 := by omega
            rw [if_pos ca] at t
            refine ⟨_, _, t, by rw [m1, h1], ?_, ?_, ?_⟩
            · rw [List.map_append, List.sum_append, k1]; simp [ca]
            · rw [welcomed_snoc, if_pos ca]; exact k2
            · intro h r hr hr0
              rcases List.mem_append.1 hr with hr | hr
              · refine k3 (fun x hx => h x ?_) r hr hr0
                rw [List.append_assoc, List.take_append_of_le_length (by simp)]
                exact hx
              · rw [List.mem_singleton.1 hr] at hr0
                exact absurd ca hr0
          · rw [List.getElem?_append_right (by simp; omega)] at hj
            rw [List.getElem?_replicate, if_pos (by simp; omega)] at hj
            simp only [Option.some.injEq, Prod.mk.injEq] at hj
            obtain ⟨rfl, rfl⟩ := hj
            have ca' : connections a ≠ 0 := by omega
            rw [if_neg ca'] at t
            refine ⟨_, _, t, by rw [m1, h1], ?_, ?_, ?_⟩
            · rw [List.map_append, List.sum_append, k1, List.map_singleton, List.sum_singleton]
              simp only []
              omega
            · rw [welcomed_snoc, if_neg ca']
            · intro h
              have := h (false, []) ?_
              · simp at this
              · rw [List.mem_take_iff_getElem]
                refine ⟨old.length + 1, ?_, ?_⟩
                · simp; omega
                · rw [List.getElem_append_left (by simp; omega), List.getElem_append_right (by simp)]
                  simp

end Tmi.Proofs
