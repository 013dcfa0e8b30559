import Verif.Proofs.Tls

/-! A session in which connections are opened step by step is a session in which they are opened in one. -/

namespace Tmi.Proofs
open Model Spec

/-- What has happened on the connections is what the client's log says. -/
def Agrees (n : TlsWorld) : Prop := onClient n.deals = n.world.log

theorem onClient_append (a b : List Deal) : onClient (a ++ b) = onClient a ++ onClient b := by simp [onClient]

theorem onClient_map (es : List Effect) : onClient (es.map .client) = es := by
  induction es with
  | nil => rfl
  | cons e es ih => simp [onClient] at ih ⊢; exact ih

/-- Whatever `x'` does step by step, `x` does with some answers. -/
structure Mirrors {α : Type} (x : Act α) (x' : TlsAct α) (n : TlsWorld) : Prop where
  agrees : Agrees (x' n).2
  short : (x' n).2.world.script.length ≤ n.world.script.length
  lines : ∃ s, Gives x n.world s (x' n).1 (x' n).2.world

/-- The same for computations with fuel: if there is enough of it, the answers do not depend on how much. -/
structure MirrorsFuel {α : Type} (x : Nat → Act α) (x' : Nat → TlsAct α) (m : Nat) (n : TlsWorld) : Prop where
  agrees : ∀ k, m ≤ k → Agrees (x' k n).2
  lines : ∃ s, ∀ k, m ≤ k → Gives (x k) n.world s (x' k n).1 (x' k n).2.world

theorem Mirrors.pure {α : Type} (a : α) {n : TlsWorld} (hn : Agrees n) :
    Mirrors (Pure.pure a : Act α) (Pure.pure a) n :=
  ⟨hn, Nat.le_refl _, [], fun _ _ => rfl, fun h => by cases h⟩

theorem Mirrors.bind {α β : Type} {x : Act α} {x' : TlsAct α} {f : α → Act β} {f' : α → TlsAct β} {n : TlsWorld}
    (hx : Mirrors x x' n) (hf : ∀ a, (x' n).1 = .ok a → Agrees (x' n).2 → Mirrors (f a) (f' a) (x' n).2) :
    Mirrors (x >>= f) (x' >>= f') n := by
  obtain ⟨c1, l1, s1, g1, g2⟩ := hx
  cases h : (x' n).1 with
  | error e =>
    have e0 : (x' >>= f') n = (.error e, (x' n).2) := by
      rw [tls_bind]; rcases hx : x' n with ⟨r, w2⟩; rw [hx] at h; simp only [] at h; subst h; rfl
    refine ⟨by rw [e0]; exact c1, by rw [e0]; exact l1, s1, ?_, ?_⟩
    · intro hne t
      rw [e0] at hne ⊢
      have := g1 (by rw [h]; intro h'; cases h'; exact hne rfl) t
      rw [h] at this
      rw [act_bind, this]
    · intro heq
      rw [e0] at heq ⊢
      simp only [] at heq
      cases heq
      have := g2 h
      rw [h] at this
      rw [act_bind, this]
  | ok a =>
    have e0 : (x' >>= f') n = f' a (x' n).2 := by
      rw [tls_bind]; rcases hx : x' n with ⟨r, w2⟩; rw [hx] at h; simp only [] at h; subst h; rfl
    obtain ⟨c2, l2, s2, k1, k2⟩ := hf a h c1
    refine ⟨by rw [e0]; exact c2, by rw [e0]; exact Nat.le_trans l2 l1, s1 ++ s2, ?_, ?_⟩
    · intro hne t
      rw [e0] at hne ⊢
      have := g1 (by rw [h]; simp) (s2 ++ t)
      rw [h] at this
      rw [act_bind, List.append_assoc, this]
      exact k1 hne t
    · intro heq
      rw [e0] at heq ⊢
      have := g1 (by rw [h]; simp) s2
      rw [h] at this
      rw [act_bind, this]
      exact k2 heq

theorem Mirrors.timeout {α : Type} {x : Act α} {x' : TlsAct α} {n : TlsWorld} (d : Nat) (hx : Mirrors x x' n) :
    Mirrors (withTimeout d x) (tlsTimeout d x') n := by
  obtain ⟨c1, l1, s1, g1, g2⟩ := hx
  have e0 : tlsTimeout d x' n = match x' n with
    | (.ok a, n') => (.ok (.ok a), n')
    | (.error (.elapsed 0), n') => (.ok (.error ()), n')
    | (.error (.elapsed (k + 1)), n') => (.error (.elapsed k), n')
    | (.error e, n') => (.error e, n') := rfl
  have e1 : ∀ w, withTimeout d x w = match x w with
    | (.ok a, n') => (.ok (.ok a), n')
    | (.error (.elapsed 0), n') => (.ok (.error ()), n')
    | (.error (.elapsed (k + 1)), n') => (.error (.elapsed k), n')
    | (.error e, n') => (.error e, n') := fun _ => rfl
  generalize x' n = p at *
  obtain ⟨r, n2⟩ := p
  simp only [] at *
  rcases r with (_ | (_ | k) | f) | a
  · simp only [] at e0
    refine ⟨by rw [e0]; exact c1, by rw [e0]; exact l1, s1, ?_, ?_⟩
    · intro hne; rw [e0] at hne; exact absurd rfl hne
    · intro _; rw [e0, e1, g2 rfl]
  all_goals
    simp only [] at e0
    refine ⟨by rw [e0]; exact c1, by rw [e0]; exact l1, s1, ?_, ?_⟩
    · intro _ t; rw [e0, e1, g1 (by simp)]
    · intro h; rw [e0] at h; cases h

theorem Mirrors.const {α : Type} {x : Act α} {x' : TlsAct α} {n : TlsWorld} (m : Nat) (h : Mirrors x x' n) :
    MirrorsFuel (fun _ => x) (fun _ => x') m n :=
  ⟨fun _ _ => h.agrees, let ⟨s, g⟩ := h.lines; ⟨s, fun _ _ => g⟩⟩

theorem MirrorsFuel.bind {α β : Type} {x : Act α} {x' : TlsAct α} {f : Nat → α → Act β} {f' : Nat → α → TlsAct β}
    {n : TlsWorld} {m : Nat} (hx : Mirrors x x' n)
    (hf : ∀ a, (x' n).1 = .ok a → Agrees (x' n).2 →
      MirrorsFuel (fun k => f k a) (fun k => f' k a) m (x' n).2) :
    MirrorsFuel (fun k => x >>= f k) (fun k => x' >>= f' k) m n := by
  obtain ⟨c1, l1, s1, g1, g2⟩ := hx
  cases h : (x' n).1 with
  | error e =>
    have e0 : ∀ k, (x' >>= f' k) n = (.error e, (x' n).2) := by
      intro k
      rw [tls_bind]; rcases hx : x' n with ⟨r, w2⟩; rw [hx] at h; simp only [] at h; subst h; rfl
    refine ⟨fun k _ => by rw [e0]; exact c1, s1, fun k _ => ⟨?_, ?_⟩⟩
    · intro hne t
      rw [e0] at hne ⊢
      have := g1 (by rw [h]; intro h'; cases h'; exact hne rfl) t
      rw [h] at this
      rw [act_bind, this]
    · intro heq
      rw [e0] at heq ⊢
      simp only [] at heq
      cases heq
      have := g2 h
      rw [h] at this
      rw [act_bind, this]
  | ok a =>
    have e0 : ∀ k, (x' >>= f' k) n = f' k a (x' n).2 := by
      intro k
      rw [tls_bind]; rcases hx : x' n with ⟨r, w2⟩; rw [hx] at h; simp only [] at h; subst h; rfl
    obtain ⟨c2, s2, g⟩ := hf a h c1
    refine ⟨fun k hk => by rw [e0]; exact c2 k hk, s1 ++ s2, fun k hk => ⟨?_, ?_⟩⟩
    · intro hne t
      rw [e0] at hne ⊢
      have := g1 (by rw [h]; simp) (s2 ++ t)
      rw [h] at this
      rw [act_bind, List.append_assoc, this]
      exact (g k hk).1 hne t
    · intro heq
      rw [e0] at heq ⊢
      have := g1 (by rw [h]; simp) s2
      rw [h] at this
      rw [act_bind, this]
      exact (g k hk).2 heq

theorem MirrorsFuel.shift {α : Type} {x : Nat → Act α} {x' : Nat → TlsAct α} {m : Nat} {n : TlsWorld}
    (h : MirrorsFuel (fun k => x (k + 1)) (fun k => x' (k + 1)) m n) : MirrorsFuel x x' (m + 1) n := by
  obtain ⟨c, s, g⟩ := h
  refine ⟨fun k hk => ?_, s, fun k hk => ?_⟩
  · obtain ⟨k, rfl⟩ : ∃ j, k = j + 1 := ⟨k - 1, by omega⟩
    exact c k (by omega)
  · obtain ⟨k, rfl⟩ : ∃ j, k = j + 1 := ⟨k - 1, by omega⟩
    exact g k (by omega)


theorem MirrorsFuel.getTls {α : Type} {x : Nat → Act α} {f' : Nat → TlsConfig → TlsAct α} {m : Nat} {n : TlsWorld}
    (h : MirrorsFuel x (fun k => f' k n.tls) m n) : MirrorsFuel x (fun k => Model.getTls >>= f' k) m n :=
  ⟨h.agrees, h.lines⟩

/-- A call that takes its answers from the front of the script. -/
theorem Mirrors.front {α : Type} {x : Act α} {n : TlsWorld} (hn : Agrees n)
    (hl : ∃ ev, (x n.world).2.log = n.world.log ++ ev)
    (hf : ∃ s, n.world.script = s ++ (x n.world).2.script ∧ Gives x n.world s (x n.world).1 (x n.world).2) :
    Mirrors x (onStream x) n := by
  obtain ⟨ev, e⟩ := hl
  obtain ⟨s, es, g⟩ := hf
  refine ⟨?_, ?_, s, g⟩
  · show onClient (n.deals ++ ((x n.world).2.log.drop n.world.log.length).map .client) = (x n.world).2.log
    rw [onClient_append, onClient_map, hn, e]; simp
  · show (x n.world).2.script.length ≤ n.world.script.length
    rw [es]; simp

theorem Mirrors.onStream {α : Type} {x : Act α} {n : TlsWorld} (hn : Agrees n) (hx : Onward x n.world) :
    Mirrors x (onStream x) n :=
  .front hn (let ⟨ev, e, _⟩ := hx.log; ⟨ev, e⟩) hx.front

theorem Mirrors.connected {n : TlsWorld} (hn : Agrees n) : Mirrors (emit .connected) (Model.onStream (emit .connected)) n :=
  .front hn ⟨[.connected], rfl⟩ ⟨[], rfl, fun _ _ => rfl, fun h => by cases h⟩

theorem Mirrors.useStream {n : TlsWorld} (hn : Agrees n) : Mirrors useStream (Model.onStream useStream) n :=
  .front hn ⟨[.connected], rfl⟩ ⟨[], rfl, fun _ _ => rfl, fun h => by cases h⟩

theorem Mirrors.setClient (c : Client) {n : TlsWorld} (hn : Agrees n) :
    Mirrors (setClient c) (Model.onStream (setClient c)) n :=
  .front hn ⟨[], by simp [Model.setClient]⟩ ⟨[], rfl, fun _ _ => rfl, fun h => by cases h⟩

/-- Opening a connection step by step is opening it in one. -/
theorem Mirrors.open_ (config : TlsConfig) {n : TlsWorld} (hn : Agrees n) : Mirrors openStream (tlsOpen config) n := by
  obtain ⟨w, t, ds, as⟩ := n
  have hds : onClient ds = w.log := hn
  unfold onClient at hds
  clear hn
  rcases as with _ | ⟨_ | e | _, as⟩
  · exact ⟨by simp [Agrees, tlsOpen, tls_bind, onStream_run, emit, deal, openAnswer, onClient, hds], Nat.le_refl _, [],
      fun h => absurd rfl h, fun _ => rfl⟩
  · rcases as with _ | ⟨_ | e | _, as⟩
    · exact ⟨by simp [Agrees, tlsOpen, tls_bind, onStream_run, emit, deal, openAnswer, onClient, hds], Nat.le_refl _, [],
        fun h => absurd rfl h, fun _ => rfl⟩
    · refine ⟨?_, Nat.le_refl _, [.opened], fun _ _ => rfl, fun h => by cases h⟩
      show onClient (((ds ++ ((w.log ++ [Effect.open_]).drop w.log.length).map .client ++ [.tcp HOST PORT]) ++
        [.tls config.serverName config.roots]) ++ [.secured]) = w.log ++ [.open_]
      simp [onClient, hds]
    · exact ⟨by simp [Agrees, tlsOpen, tls_bind, onStream_run, emit, deal, openAnswer, onClient, hds, Pure.pure], Nat.le_refl _, [.openFailed e],
        fun _ _ => rfl, fun h => by cases h⟩
    · exact ⟨by simp [Agrees, tlsOpen, tls_bind, onStream_run, emit, deal, openAnswer, onClient, hds], Nat.le_refl _, [.elapsed 0],
        fun _ _ => rfl, fun h => by cases h⟩
  · exact ⟨by simp [Agrees, tlsOpen, tls_bind, onStream_run, emit, deal, openAnswer, onClient, hds, Pure.pure], Nat.le_refl _, [.openFailed e],
      fun _ _ => rfl, fun h => by cases h⟩
  · exact ⟨by simp [Agrees, tlsOpen, tls_bind, onStream_run, emit, deal, openAnswer, onClient, hds], Nat.le_refl _, [.elapsed 0],
      fun _ _ => rfl, fun h => by cases h⟩

theorem tlsBind_congr {α β : Type} {x : TlsAct α} {f g : α → TlsAct β} {n : TlsWorld}
    (h : ∀ a, (x n).1 = .ok a → f a (x n).2 = g a (x n).2) : (x >>= f) n = (x >>= g) n := by
  rw [tls_bind, tls_bind]
  rcases hx : x n with ⟨_ | a, n2⟩
  · rfl
  · have := h a (by rw [hx]); rw [hx] at this; exact this

/-- More fuel than answers makes no difference. -/
theorem tlsLoop_fuel (b : Build) (cfg : Config) : ∀ (k m : Nat) (tries : Option Nat) (d : Nat) (cause : ConnectError)
    (n : TlsWorld), Agrees n → n.world.script.length < k → n.world.script.length < m →
    tlsReconnectLoop b cfg k tries d cause n = tlsReconnectLoop b cfg m tries d cause n
  | 0, _, _, _, _, _, _, h, _ => absurd h (Nat.not_lt_zero _)
  | _ + 1, 0, _, _, _, _, _, _, h => absurd h (Nat.not_lt_zero _)
  | k + 1, m + 1, tries, d, cause, w, hc, hk, hm => by
    rw [tlsReconnectLoop, tlsReconnectLoop]
    by_cases ht : tries = some 0
    · rw [if_pos ht, if_pos ht]
    rw [if_neg ht, if_neg ht]
    refine tlsBind_congr fun _ h1 => ?_
    have l1 : (Model.onStream (Model.sleep d) w).2.world.script.length < w.world.script.length := sleep_short d w.world h1
    have c1 := (Mirrors.onStream hc (.of (Local.sleep d w.world))).agrees
    generalize (Model.onStream (Model.sleep d) w).2 = w1 at *
    refine tlsBind_congr fun d' _ => ?_
    have f2 := Mirrors.onStream c1 (.of (Local.lift (mulDuration d cfg.backoff.delayMultiplier) w1.world))
    have l2 := f2.short
    have c2 := f2.agrees
    generalize (Model.onStream (Model.lift (mulDuration d cfg.backoff.delayMultiplier)) w1).2 = w2 at *
    refine tlsBind_congr (x := Model.getTls) fun tls _ => ?_
    simp only [Model.getTls]
    refine tlsBind_congr fun r _ => ?_
    have f3 := Mirrors.open_ tls c2
    have l3 := f3.short
    have c3 := f3.agrees
    rw [tlsTimeout_snd]
    generalize (tlsOpen tls w2).2 = w3 at *
    rcases r with ⟨⟩ | (e | ⟨⟩)
    · rfl
    · exact tlsLoop_fuel b cfg k m _ _ _ _ c3 (by omega) (by omega)
    refine tlsBind_congr fun _ _ => ?_
    have f4 := Mirrors.useStream c3
    have l4 := f4.short
    have c4 := f4.agrees
    generalize (Model.onStream Model.useStream w3).2 = w4 at *
    refine tlsBind_congr fun r _ => ?_
    have f5 := Mirrors.onStream c4 (.timeout cfg.timeout (.handshake b w4.world))
    have l5 := f5.short
    have c5 := f5.agrees
    generalize (Model.onStream (withTimeout cfg.timeout (Model.handshake b)) w4).2 = w5 at *
    rcases r with ⟨⟩ | (e | ⟨⟩)
    · rfl
    · by_cases hr : e.shouldRetry = true
      · simp only []
        rw [if_pos hr, if_pos hr]
        exact tlsLoop_fuel b cfg k m _ _ _ _ c5 (by omega) (by omega)
      · simp only []
        rw [if_neg hr, if_neg hr]
    · rfl

theorem MirrorsFuel.loop (b : Build) (cfg : Config) : ∀ (m : Nat) (tries : Option Nat) (d : Nat) (cause : ConnectError)
    (n : TlsWorld), Agrees n → n.world.script.length < m →
    MirrorsFuel (fun k => reconnectLoop b cfg k tries d cause) (fun k => tlsReconnectLoop b cfg k tries d cause) m n
  | 0, _, _, _, _, _, h => absurd h (Nat.not_lt_zero _)
  | m + 1, tries, d, cause, n, hc, hm => by
    refine .shift ?_
    simp only [reconnectLoop, tlsReconnectLoop]
    by_cases ht : tries = some 0
    · simp only [if_pos ht]; exact (Mirrors.pure _ hc).const m
    simp only [if_neg ht]
    have f1 := Mirrors.onStream hc (.of (Local.sleep d n.world))
    refine .bind f1 fun _ h1 c1 => ?_
    have l1 : (Model.onStream (Model.sleep d) n).2.world.script.length < n.world.script.length := sleep_short d n.world h1
    generalize (Model.onStream (Model.sleep d) n).2 = n1 at *
    have f2 := Mirrors.onStream c1 (.of (Local.lift (mulDuration d cfg.backoff.delayMultiplier) n1.world))
    refine .bind f2 fun d' _ c2 => ?_
    have l2 := f2.short
    generalize (Model.onStream (Model.lift (mulDuration d cfg.backoff.delayMultiplier)) n1).2 = n2 at *
    refine .getTls ?_
    have f3 := Mirrors.timeout cfg.timeout (Mirrors.open_ n2.tls c2)
    refine .bind f3 fun r _ c3 => ?_
    have l3 := f3.short
    generalize (tlsTimeout cfg.timeout (tlsOpen n2.tls) n2).2 = n3 at *
    rcases r with ⟨⟩ | (e | ⟨⟩)
    · exact (Mirrors.pure _ c3).const m
    · exact MirrorsFuel.loop b cfg m _ _ _ _ c3 (by omega)
    have f4 := Mirrors.useStream c3
    refine .bind f4 fun _ _ c4 => ?_
    have l4 := f4.short
    generalize (Model.onStream Model.useStream n3).2 = n4 at *
    have f5 := Mirrors.onStream c4 (.timeout cfg.timeout (.handshake b n4.world))
    refine .bind f5 fun r _ c5 => ?_
    have l5 := f5.short
    generalize (Model.onStream (withTimeout cfg.timeout (Model.handshake b)) n4).2 = n5 at *
    rcases r with ⟨⟩ | (e | ⟨⟩)
    · exact (Mirrors.pure _ c5).const m
    · by_cases hr : e.shouldRetry = true
      · simp only [if_pos hr]
        exact MirrorsFuel.loop b cfg m _ _ _ _ c5 (by omega)
      · simp only [if_neg hr]
        exact (Mirrors.pure _ c5).const m
    · exact (Mirrors.pure _ c5).const m

/-- Whatever `x'` does step by step, `x` does with some answers, then nothing happens any more. -/
structure SameAs {α : Type} (x : Act α) (x' : TlsAct α) (n : TlsWorld) : Prop where
  agrees : Agrees (x' n).2
  lines : ∃ s, x (n.world.at s) = ((x' n).1, (x' n).2.world.at [])

theorem Mirrors.same {α : Type} {x : Act α} {x' : TlsAct α} {n : TlsWorld} (h : Mirrors x x' n) : SameAs x x' n := by
  obtain ⟨c, _, s, g1, g2⟩ := h
  refine ⟨c, s, ?_⟩
  by_cases hr : (x' n).1 = .error .dropped
  · exact g2 hr
  · have := g1 hr []
    rwa [List.append_nil] at this

theorem SameAs.reconnect (b : Build) {n : TlsWorld} (hn : Agrees n) : SameAs (reconnect b) (tlsReconnect b) n := by
  have h := MirrorsFuel.loop b n.world.client.config (n.world.script.length + 1) n.world.client.config.backoff.maxTries
    n.world.client.config.backoff.initialDelay .timeout n hn (Nat.lt_succ_self _)
  obtain ⟨c, s, g⟩ := h
  refine ⟨c _ (Nat.le_refl _), s, ?_⟩
  have hk := g (n.world.script.length + 1 + s.length) (by omega)
  have e : tlsReconnectLoop b n.world.client.config (n.world.script.length + 1 + s.length)
      n.world.client.config.backoff.maxTries n.world.client.config.backoff.initialDelay .timeout n = tlsReconnect b n :=
    tlsLoop_fuel b _ _ _ _ _ _ n hn (by omega) (by omega)
  have e2 : reconnectLoop b n.world.client.config (n.world.script.length + 1 + s.length)
      n.world.client.config.backoff.maxTries n.world.client.config.backoff.initialDelay .timeout (n.world.at s) =
      Model.reconnect b (n.world.at s) :=
    loop_fuel b _ _ _ _ _ _ _ (by simp) (by simp)
  rw [e] at hk
  rw [← e2]
  by_cases hr : (tlsReconnect b n).1 = .error .dropped
  · exact hk.2 hr
  · have := hk.1 hr []
    rwa [List.append_nil] at this

/-- A call step by step is a call. -/
theorem tlsOp_same (op : Op) {n : TlsWorld} (hn : Agrees n) :
    Agrees (op.tls n).2 ∧ ∃ s, op.outcome (n.world.at s) = ((op.tls n).1, (op.tls n).2.world.at []) := by
  cases op with
  | send c =>
    obtain ⟨h, s, e⟩ := (Mirrors.onStream hn (.of (Local.send c n.world))).same
    exact ⟨h, s, by simp only [Op.outcome, Op.tls, e]⟩
  | recv b =>
    obtain ⟨h, s, e⟩ := (Mirrors.onStream hn (.recv b n.world)).same
    exact ⟨h, s, by simp only [Op.outcome, Op.tls, e]⟩
  | reconnect b =>
    obtain ⟨h, s, e⟩ := SameAs.reconnect b hn
    exact ⟨h, s, by simp only [Op.outcome, Op.tls, e]⟩

/-- `connect` with certificates that can be used. -/
theorem Mirrors.connect (b : Build) (certs : Except IoError (List Cert)) (cfg : Config) {n : TlsWorld} (hn : Agrees n) :
    Mirrors (connect b cfg) (tlsConnect b certs cfg) n := by
  unfold Model.connect Model.tlsConnect
  cases hl : TlsConfig.load certs HOST with
  | error e => exact ⟨hn, Nat.le_refl _, [.tlsFailed], fun _ _ => rfl, fun h => by cases h⟩
  | ok tls =>
    simp only []
    have key : Mirrors (do
        match ← withTimeout cfg.timeout openStream with
        | .error () => return .error .timeout
        | .ok (.error e) => return .error (.open_ e)
        | .ok (.ok ()) => do
          emit .connected
          Model.setClient ⟨false, [], cfg⟩
          match ← withTimeout cfg.timeout (handshake b) with
          | .error () => return .error .timeout
          | .ok r => return r)
        (do
        match ← tlsTimeout cfg.timeout (tlsOpen tls) with
        | .error () => return .error .timeout
        | .ok (.error e) => return .error (.open_ e)
        | .ok (.ok ()) => do
          Model.onStream (emit .connected)
          Model.onStream (Model.setClient ⟨false, [], cfg⟩)
          setTls tls
          match ← Model.onStream (withTimeout cfg.timeout (handshake b)) with
          | .error () => return .error .timeout
          | .ok r => return r) n := by
      refine .bind (.timeout cfg.timeout (.open_ tls hn)) fun r _ c1 => ?_
      rcases r with ⟨⟩ | (e | ⟨⟩)
      · exact .pure _ c1
      · exact .pure _ c1
      refine .bind (.connected c1) fun _ _ c2 => .bind (.setClient _ c2) fun _ _ c3 => ?_
      generalize (Model.onStream (Model.setClient ⟨false, [], cfg⟩) _).2 = n3 at *
      have c4 : Agrees (setTls tls n3).2 := c3
      have f := Mirrors.bind (f := fun r => match r with
          | .error () => (return .error .timeout : Act (Except ConnectError Unit))
          | .ok r => return r)
        (f' := fun r => match r with
          | .error () => (return .error .timeout : TlsAct (Except ConnectError Unit))
          | .ok r => return r)
        (Mirrors.onStream c4 (.timeout cfg.timeout (.handshake b (setTls tls n3).2.world))) fun r _ c5 => by
          rcases r with ⟨⟩ | r <;> exact .pure _ c5
      exact ⟨f.agrees, f.short, f.lines⟩
    obtain ⟨c, l, s, g1, g2⟩ := key
    exact ⟨c, l, .tlsLoaded :: s, fun h t => g1 h t, fun h => g2 h⟩

theorem tlsOutcomes_same (calls : List TlsCall) {n : TlsWorld} (hn : Agrees n) :
    Agrees (tlsOutcomes calls n).2 ∧ ∃ scripts, scripts.length = calls.length ∧ ∀ t, ∃ t',
      outcomes ((calls.map (·.op)).zip scripts) (n.world.at t) =
        ((tlsOutcomes calls n).1, (tlsOutcomes calls n).2.world.at t') := by
  induction calls generalizing n with
  | nil => exact ⟨hn, [], rfl, fun t => ⟨t, rfl⟩⟩
  | cons c rest ih =>
    have h1 := tlsOp_same c.op (n := { n with world := { n.world with script := c.answers }, answers := c.opening }) hn
    obtain ⟨h1, s, e1⟩ := h1
    obtain ⟨h2, ss, hl, e2⟩ := ih h1
    refine ⟨h2, s :: ss, by simp [hl], fun t => ?_⟩
    obtain ⟨t', e2⟩ := e2 []
    refine ⟨t', ?_⟩
    rw [tlsOutcomes, List.map_cons, List.zip_cons_cons, outcomes]
    have e3 : c.op.outcome { n.world.at t with script := s } = ((c.op.tls { n with world := { n.world with script := c.answers }, answers := c.opening }).1, ((c.op.tls { n with world := { n.world with script := c.answers }, answers := c.opening }).2.world.at [])) := e1
    rw [e3]
    simp only [e2]

end Tmi.Proofs
