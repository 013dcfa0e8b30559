import Verif.Spec.Tls
import Verif.Proofs.Net

/-! Opening connections step by step. -/

namespace Tmi.Proofs
open Model Spec

/-! ### Calls on an open connection -/

/-- `x` takes its answers from the front of the script, and takes no connection into use. -/
structure Onward {α : Type} (x : Act α) (w : World) : Prop where
  log : ∃ ev, (x w).2.log = w.log ++ ev ∧ .connected ∉ ev
  front : ∃ s, w.script = s ++ (x w).2.script ∧ Gives x w s (x w).1 (x w).2

theorem Onward.of {α : Type} {x : Act α} {w : World} (h : Local x w) : Onward x w :=
  let ⟨ev, e, q⟩ := h.quiet
  ⟨⟨ev, e, fun hm => (q _ hm).1 rfl⟩, h.front⟩

theorem Onward.pure {α : Type} (a : α) (w : World) : Onward (Pure.pure a : Act α) w := .of (.pure a w)

theorem Onward.bind {α β : Type} {x : Act α} {f : α → Act β} {w : World} (hx : Onward x w)
    (hf : ∀ a, (x w).1 = .ok a → Onward (f a) (x w).2) : Onward (x >>= f) w := by
  obtain ⟨⟨ev1, v1, v2⟩, s1, e1, g1, g2⟩ := hx
  cases h : (x w).1 with
  | error e =>
    have e0 : (x >>= f) w = (.error e, (x w).2) := by
      rw [act_bind]; rcases hx : x w with ⟨r, w2⟩; rw [hx] at h; simp only [] at h; subst h; rfl
    refine ⟨⟨ev1, by rw [e0]; exact v1, v2⟩, s1, by rw [e0]; exact e1, ?_, ?_⟩
    · intro hne t
      rw [e0] at hne ⊢
      have := g1 (by rw [h]; intro h'; cases h'; exact hne rfl) t
      rw [h] at this
      rw [act_bind, this]
    · intro heq
      rw [e0] at heq ⊢
      simp only [] at heq
      cases heq
      have := g2 h
      rw [h] at this
      rw [act_bind, this]
  | ok a =>
    have e0 : (x >>= f) w = f a (x w).2 := by
      rw [act_bind]; rcases hx : x w with ⟨r, w2⟩; rw [hx] at h; simp only [] at h; subst h; rfl
    obtain ⟨⟨ev2, v3, v4⟩, s2, e2, k1, k2⟩ := hf a h
    refine ⟨⟨ev1 ++ ev2, by rw [e0, v3, v1, List.append_assoc], fun he => (List.mem_append.1 he).elim v2 v4⟩, s1 ++ s2,
      by rw [e0, e1, e2, List.append_assoc], ?_, ?_⟩
    · intro hne t
      rw [e0] at hne ⊢
      have := g1 (by rw [h]; simp) (s2 ++ t)
      rw [h] at this
      rw [act_bind, List.append_assoc, this]
      exact k1 hne t
    · intro heq
      rw [e0] at heq ⊢
      have := g1 (by rw [h]; simp) s2
      rw [h] at this
      rw [act_bind, this]
      exact k2 heq

theorem Onward.timeout {α : Type} {x : Act α} {w : World} (d : Nat) (hx : Onward x w) : Onward (withTimeout d x) w := by
  obtain ⟨l, s1, e, g1, g2⟩ := hx
  have e1 : ∀ w, withTimeout d x w = match x w with
    | (.ok a, n') => (.ok (.ok a), n')
    | (.error (.elapsed 0), n') => (.ok (.error ()), n')
    | (.error (.elapsed (k + 1)), n') => (.error (.elapsed k), n')
    | (.error e, n') => (.error e, n') := fun _ => rfl
  have e0 := e1 w
  generalize x w = p at *
  obtain ⟨r, n2⟩ := p
  simp only [] at *
  rcases r with (_ | (_ | k) | f) | a
  · simp only [] at e0
    refine ⟨by rw [e0]; exact l, s1, by rw [e0]; exact e, ?_, ?_⟩
    · intro hne; rw [e0] at hne; exact absurd rfl hne
    · intro _; rw [e0, e1, g2 rfl]
  all_goals
    simp only [] at e0
    refine ⟨by rw [e0]; exact l, s1, by rw [e0]; exact e, ?_, ?_⟩
    · intro _ t; rw [e0, e1, g1 (by simp)]
    · intro h; rw [e0] at h; cases h

theorem Onward.took (s : Bytes) (w : World) : Onward (emit (.took s)) w :=
  ⟨⟨[.took s], rfl, by simp⟩, [], rfl, fun _ _ => rfl, fun h => by cases h⟩

theorem Onward.setClosed (c : Bool) (w : World) : Onward (setClosed c) w :=
  ⟨⟨[], by simp [Model.setClosed], by simp⟩, [], rfl, fun _ _ => rfl, fun h => by cases h⟩

theorem Onward.readerNext (w : World) : Onward readerNext w := by
  unfold Model.readerNext
  refine .bind (.of (.getClient _)) fun c _ => ?_
  by_cases hc : c.closed = true
  · rw [if_pos hc]; exact .pure _ _
  · rw [if_neg hc]
    refine .bind (.of (.next _)) fun a _ => ?_
    cases a with
    | line s => exact .bind (.took s _) fun _ _ => .pure _ _
    | readFailed e => exact .pure _ _
    | eof => exact .bind (.setClosed _ _) fun _ _ => .pure _ _
    | _ => exact .of (.stop _ _)

theorem Onward.recv (b : Build) (w : World) : Onward (recv b) w := by
  unfold Model.recv
  refine .bind (.readerNext _) fun r _ => ?_
  rcases r with _ | (e | s)
  · exact .pure _ _
  · exact .pure _ _
  · refine .bind (.of (.lift _ _)) fun m _ => ?_
    cases m <;> exact .pure _ _

theorem Onward.recvReply (b : Build) (w : World) : Onward (recvReply b) w := by
  unfold Model.recvReply
  refine .bind (.timeout _ (.recv b _)) fun r _ => ?_
  rcases r with ⟨⟩ | (e | m) <;> exact .pure _ _

theorem Onward.awaitWelcome (b : Build) (w : World) : Onward (awaitWelcome b) w := by
  unfold Model.awaitWelcome
  refine .bind (.recvReply b _) fun r _ => ?_
  rcases r with e | m
  · exact .pure _ _
  refine .bind (.of (.lift _ _)) fun r _ => ?_
  rcases r with _ | e
  · refine .bind (.recvReply b _) fun r _ => ?_
    rcases r with e | m
    · exact .pure _ _
    refine .bind (.of (.lift _ _)) fun r _ => ?_
    rcases r with _ | e <;> exact .pure _ _
  · exact .pure _ _

theorem Onward.handshake (b : Build) (w : World) : Onward (handshake b) w := by
  unfold Model.handshake
  refine .bind (.of (.getClient _)) fun c _ => .bind (.of (.setScratch _ _)) fun _ _ => .bind (.of (.writeAll _ _)) fun r _ => ?_
  rcases r with e | ⟨⟩
  · exact .pure _ _
  refine .bind (.of (.flush _)) fun r _ => ?_
  rcases r with e | ⟨⟩
  · exact .pure _ _
  exact .bind (.of (.setScratch _ _)) fun _ _ => .awaitWelcome b _

/-! ### What has happened -/

theorem tls_bind {α β : Type} (x : TlsAct α) (f : α → TlsAct β) (n : TlsWorld) :
    (x >>= f) n = match x n with
      | (.ok a, n') => f a n'
      | (.error e, n') => (.error e, n') := rfl

theorem onStream_run {α : Type} (x : Act α) (n : TlsWorld) :
    onStream x n = ((x n.world).1, { n with
      world := (x n.world).2, deals := n.deals ++ ((x n.world).2.log.drop n.world.log.length).map .client }) := rfl

theorem tlsTimeout_snd {α : Type} (d : Nat) (x : TlsAct α) (w : TlsWorld) : (tlsTimeout d x w).2 = (x w).2 := by
  have e1 : tlsTimeout d x w = match x w with
    | (.ok a, n') => (.ok (.ok a), n')
    | (.error (.elapsed 0), n') => (.ok (.error ()), n')
    | (.error (.elapsed (k + 1)), n') => (.error (.elapsed k), n')
    | (.error e, n') => (.error e, n') := rfl
  rw [e1]
  generalize x w = p
  obtain ⟨(_ | (_ | k) | f) | a, w2⟩ := p <;> rfl

theorem tlsTimeout_ok {α : Type} {d : Nat} {x : TlsAct α} {w : TlsWorld} {a : α}
    (h : (tlsTimeout d x w).1 = .ok (.ok a)) : (x w).1 = .ok a := by
  have e1 : tlsTimeout d x w = match x w with
    | (.ok a, n') => (.ok (.ok a), n')
    | (.error (.elapsed 0), n') => (.ok (.error ()), n')
    | (.error (.elapsed (k + 1)), n') => (.error (.elapsed k), n')
    | (.error e, n') => (.error e, n') := rfl
  rw [e1] at h
  generalize x w = p at *
  obtain ⟨(_ | (_ | k) | f) | a', w2⟩ := p <;> simp at h ⊢
  exact h

/-- There is a connection in use, made as it has to be. -/
def InUse (roots : List Bytes) (deals : List Deal) : Prop :=
  ∃ p q, deals = p ++ made roots ++ q ∧ .client .connected ∉ q

theorem InUse.append {roots : List Bytes} {deals ds : List Deal} (h : InUse roots deals) (hd : .client .connected ∉ ds) :
    InUse roots (deals ++ ds) := by
  obtain ⟨p, q, e, hq⟩ := h
  exact ⟨p, q ++ ds, by rw [e]; simp, by simp [hq, hd]⟩

/-- Splitting a list at an element: it is in the first or in the second part. -/
theorem split_at {α : Type} {a b p q : List α} {x : α} (h : a ++ b = p ++ x :: q) :
    (∃ t, a = p ++ x :: t ∧ q = t ++ b) ∨ (∃ t, p = a ++ t ∧ b = t ++ x :: q) := by
  rcases List.append_eq_append_iff.1 h with ⟨t, h1, h2⟩ | ⟨t, h1, h2⟩
  · exact .inr ⟨t, h1, h2⟩
  · cases t with
    | nil => exact .inr ⟨[], by simpa using h1.symm, by simpa using h2.symm⟩
    | cons y t =>
      simp only [List.cons_append, List.cons.injEq] at h2
      exact .inl ⟨t, by rw [h1, h2.1], h2.2⟩

/-- What happens on the connection in use is fine. -/
theorem secure_append {roots : List Bytes} {deals ds : List Deal} (hs : Secure roots deals) (hu : InUse roots deals)
    (hd : .client .connected ∉ ds) : Secure roots (deals ++ ds) := by
  intro before e after he hon
  rcases split_at he with ⟨t, h1, -⟩ | ⟨t, h1, h2⟩
  · exact hs _ _ _ h1 hon
  · rw [h1]
    have : .client .connected ∉ t := fun hm => hd (by rw [h2]; exact List.mem_append_left _ hm)
    exact hu.append this

/-- What does not happen on a connection is fine. -/
theorem secure_other {roots : List Bytes} {deals ds : List Deal} (hs : Secure roots deals)
    (hd : ∀ e, .client e ∈ ds → ¬ OnConnection e) : Secure roots (deals ++ ds) := by
  intro before e after he hon
  rcases split_at he with ⟨t, h1, -⟩ | ⟨t, h1, h2⟩
  · exact hs _ _ _ h1 hon
  · exact absurd hon (hd e (by rw [h2]; simp))

theorem only_append {roots : List Bytes} {a b : List Deal} (ha : ∀ d ∈ a, OnlyTwitch roots d)
    (hb : ∀ d ∈ b, OnlyTwitch roots d) : ∀ d ∈ a ++ b, OnlyTwitch roots d :=
  fun d hd => (List.mem_append.1 hd).elim (ha d) (hb d)

/-- Everything so far was fine, and there is a connection in use. -/
structure Safe (roots : List Bytes) (n : TlsWorld) : Prop where
  only : ∀ d ∈ n.deals, OnlyTwitch roots d
  tls : n.tls = ⟨roots, b!"irc.chat.twitch.tv"⟩
  secure : Secure roots n.deals
  inUse : InUse roots n.deals

theorem Safe.onStream {α : Type} {roots : List Bytes} {x : Act α} {n : TlsWorld} (h : Safe roots n)
    (hx : Onward x n.world) : Safe roots (Model.onStream x n).2 := by
  obtain ⟨ev, e, hev⟩ := hx.log
  have e1 : (Model.onStream x n).2.deals = n.deals ++ ev.map .client := by
    rw [onStream_run, e]; simp
  have hn : Deal.client .connected ∉ ev.map Deal.client := by
    intro hm
    obtain ⟨y, hy, hy2⟩ := List.mem_map.1 hm
    cases hy2
    exact hev hy
  refine ⟨?_, h.tls, by rw [e1]; exact secure_append h.secure h.inUse hn, by rw [e1]; exact h.inUse.append hn⟩
  rw [e1]
  exact only_append h.only fun d hd => by obtain ⟨y, -, rfl⟩ := List.mem_map.1 hd; trivial

/-- What opening a connection does: when it succeeds, all the steps, and nothing on a connection. -/
theorem tlsOpen_deals (config : TlsConfig) (n : TlsWorld) :
    ∃ ds, (tlsOpen config n).2.deals = n.deals ++ ds ∧ (tlsOpen config n).2.tls = n.tls ∧
      (∀ d ∈ ds, d ∈ [.client .open_, .tcp HOST PORT, .tls config.serverName config.roots, .secured]) ∧
      ((tlsOpen config n).1 = .ok (.ok ()) →
        ds = [.client .open_, .tcp HOST PORT, .tls config.serverName config.roots, .secured]) := by
  obtain ⟨w, t, ds, as⟩ := n
  have e0 : (w.log ++ [Effect.open_]).drop w.log.length = [.open_] := by simp
  rcases as with _ | ⟨_ | e | _, as⟩
  · exact ⟨[.client .open_, .tcp HOST PORT], by simp [tlsOpen, tls_bind, onStream_run, emit, deal, openAnswer], rfl, by simp,
      fun h => by simp [tlsOpen, tls_bind, onStream_run, emit, deal, openAnswer] at h⟩
  · rcases as with _ | ⟨_ | e | _, as⟩
    · exact ⟨[.client .open_, .tcp HOST PORT, .tls config.serverName config.roots],
        by simp [tlsOpen, tls_bind, onStream_run, emit, deal, openAnswer], rfl, by simp,
        fun h => by simp [tlsOpen, tls_bind, onStream_run, emit, deal, openAnswer] at h⟩
    · exact ⟨[.client .open_, .tcp HOST PORT, .tls config.serverName config.roots, .secured],
        by simp [tlsOpen, tls_bind, onStream_run, emit, deal, openAnswer]; rfl, rfl, by simp, fun _ => rfl⟩
    · exact ⟨[.client .open_, .tcp HOST PORT, .tls config.serverName config.roots],
        by simp [tlsOpen, tls_bind, onStream_run, emit, deal, openAnswer, Pure.pure], rfl, by simp,
        fun h => by simp [tlsOpen, tls_bind, onStream_run, emit, deal, openAnswer, Pure.pure] at h⟩
    · exact ⟨[.client .open_, .tcp HOST PORT, .tls config.serverName config.roots],
        by simp [tlsOpen, tls_bind, onStream_run, emit, deal, openAnswer], rfl, by simp,
        fun h => by simp [tlsOpen, tls_bind, onStream_run, emit, deal, openAnswer] at h⟩
  · exact ⟨[.client .open_, .tcp HOST PORT], by simp [tlsOpen, tls_bind, onStream_run, emit, deal, openAnswer, Pure.pure], rfl, by simp,
      fun h => by simp [tlsOpen, tls_bind, onStream_run, emit, deal, openAnswer, Pure.pure] at h⟩
  · exact ⟨[.client .open_, .tcp HOST PORT], by simp [tlsOpen, tls_bind, onStream_run, emit, deal, openAnswer], rfl, by simp,
      fun h => by simp [tlsOpen, tls_bind, onStream_run, emit, deal, openAnswer] at h⟩

theorem opens (config : TlsConfig) (n : TlsWorld) : .client .open_ ∈ (tlsOpen config n).2.deals := by
  obtain ⟨w, t, ds, as⟩ := n
  rcases as with _ | ⟨_ | e | _, as⟩
  · simp [tlsOpen, tls_bind, onStream_run, emit, deal, openAnswer]
  · rcases as with _ | ⟨_ | e | _, as⟩
    · simp [tlsOpen, tls_bind, onStream_run, emit, deal, openAnswer]
    · show Deal.client .open_ ∈ ((ds ++ ((w.log ++ [Effect.open_]).drop w.log.length).map .client ++ [.tcp HOST PORT]) ++
        [.tls config.serverName config.roots]) ++ [.secured]
      simp
    · simp [tlsOpen, tls_bind, onStream_run, emit, deal, openAnswer, Pure.pure]
    · simp [tlsOpen, tls_bind, onStream_run, emit, deal, openAnswer]
  · simp [tlsOpen, tls_bind, onStream_run, emit, deal, openAnswer, Pure.pure]
  · simp [tlsOpen, tls_bind, onStream_run, emit, deal, openAnswer]

theorem opened_client {config : TlsConfig} {e : Effect}
    (h : Deal.client e ∈ [.client .open_, .tcp HOST PORT, .tls config.serverName config.roots, .secured]) : e = .open_ := by
  simpa using h

theorem opened_only {roots : List Bytes} {config : TlsConfig} (hc : config = ⟨roots, b!"irc.chat.twitch.tv"⟩) {d : Deal}
    (h : d ∈ [.client .open_, .tcp HOST PORT, .tls config.serverName config.roots, .secured]) : OnlyTwitch roots d := by
  subst hc
  simp at h
  rcases h with rfl | rfl | rfl | rfl
  all_goals first | exact trivial | exact ⟨rfl, rfl⟩

theorem Safe.open_ {roots : List Bytes} {n : TlsWorld} (h : Safe roots n) {config : TlsConfig}
    (hc : config = ⟨roots, b!"irc.chat.twitch.tv"⟩) : Safe roots (tlsOpen config n).2 := by
  obtain ⟨ds, e, ht, hd, -⟩ := tlsOpen_deals config n
  have hn : Deal.client .connected ∉ ds := fun hm => by cases opened_client (hd _ hm)
  exact ⟨by rw [e]; exact only_append h.only fun d hm => opened_only hc (hd d hm), by rw [ht]; exact h.tls,
    by rw [e]; exact secure_append h.secure h.inUse hn, by rw [e]; exact h.inUse.append hn⟩

/-- Taking a connection into use that has just been opened. -/
theorem Safe.use {roots : List Bytes} {n : TlsWorld} {config : TlsConfig} (hc : config = ⟨roots, b!"irc.chat.twitch.tv"⟩)
    (hl : ∀ d ∈ n.deals, OnlyTwitch roots d) (hs : Secure roots n.deals) (ho : (tlsOpen config n).1 = .ok (.ok ()))
    (n' : TlsWorld) (hd : n'.deals = (tlsOpen config n).2.deals ++ [.client .connected]) (ht : n'.tls = config) :
    Safe roots n' := by
  obtain ⟨ds, e, -, -, h⟩ := tlsOpen_deals config n
  have e2 : n'.deals = n.deals ++ made roots := by
    rw [hd, e, h ho, hc, List.append_assoc]; rfl
  refine ⟨?_, ht.trans hc, ?_, ⟨n.deals, [], by rw [e2]; simp, by simp⟩⟩
  · rw [e2]
    refine only_append hl fun d hd => ?_
    simp [made] at hd
    rcases hd with rfl | rfl | rfl | rfl | rfl
    all_goals first | exact trivial | exact ⟨rfl, rfl⟩
  · rw [e2]
    refine secure_other hs fun e he => ?_
    simp [made] at he
    rcases he with rfl | rfl <;> simp [OnConnection]

theorem bind_safe {α β : Type} {roots : List Bytes} {x : TlsAct α} {f : α → TlsAct β} {n : TlsWorld}
    (hx : Safe roots (x n).2) (hf : ∀ a, (x n).1 = .ok a → Safe roots (f a (x n).2).2) : Safe roots ((x >>= f) n).2 := by
  rw [tls_bind]
  rcases h : x n with ⟨_ | a, n2⟩
  · rw [h] at hx; exact hx
  · have := hf a (by rw [h]); rw [h] at this; exact this

theorem pure_safe {α : Type} {roots : List Bytes} {n : TlsWorld} (h : Safe roots n) (a : α) :
    Safe roots ((Pure.pure a : TlsAct α) n).2 := h

theorem Safe.loop (b : Build) (cfg : Config) {roots : List Bytes} : ∀ (m : Nat) (tries : Option Nat) (d : Nat)
    (cause : ConnectError) (n : TlsWorld), Safe roots n → Safe roots (tlsReconnectLoop b cfg m tries d cause n).2
  | 0, _, _, _, _, h => h.onStream (.of (.stop _ _))
  | m + 1, tries, d, cause, n, h => by
    rw [tlsReconnectLoop]
    by_cases ht : tries = some 0
    · rw [if_pos ht]; exact h
    rw [if_neg ht]
    refine bind_safe (h.onStream (.of (.sleep _ _))) fun _ _ => ?_
    have h1 := h.onStream (.of (.sleep d n.world))
    generalize (Model.onStream (Model.sleep d) n).2 = n1 at *
    refine bind_safe (h1.onStream (.of (.lift _ _))) fun d' _ => ?_
    have h2 := h1.onStream (.of (.lift (mulDuration d cfg.backoff.delayMultiplier) n1.world))
    generalize (Model.onStream (Model.lift (mulDuration d cfg.backoff.delayMultiplier)) n1).2 = n2 at *
    refine bind_safe (x := getTls) h2 fun tls htls => ?_
    obtain rfl : n2.tls = tls := by
      simp only [getTls, Except.ok.injEq] at htls; exact htls
    simp only [getTls]
    refine bind_safe (by rw [tlsTimeout_snd]; exact h2.open_ h2.tls) fun r hr => ?_
    have h3 := h2.open_ h2.tls
    rw [tlsTimeout_snd]
    rcases r with ⟨⟩ | (e | ⟨⟩)
    · exact h3
    · exact Safe.loop b cfg m _ _ _ _ h3
    have h4 : Safe roots (Model.onStream useStream (tlsOpen n2.tls n2).2).2 := by
      refine Safe.use h2.tls h2.only h2.secure (tlsTimeout_ok hr) _ ?_ ?_
      · simp [onStream_run, useStream, act_bind, emit, Model.setClosed]
      · obtain ⟨ds, e, ht, -, -⟩ := tlsOpen_deals n2.tls n2
        exact ht
    refine bind_safe h4 fun _ _ => ?_
    generalize (Model.onStream useStream (tlsOpen n2.tls n2).2).2 = n4 at *
    refine bind_safe (h4.onStream (.timeout _ (.handshake b _))) fun r _ => ?_
    have h5 := h4.onStream (.timeout cfg.timeout (.handshake b n4.world))
    generalize (Model.onStream (withTimeout cfg.timeout (Model.handshake b)) n4).2 = n5 at *
    rcases r with ⟨⟩ | (e | ⟨⟩)
    · exact h5
    · simp only []
      by_cases hr : e.shouldRetry = true
      · rw [if_pos hr]; exact Safe.loop b cfg m _ _ _ _ h5
      · rw [if_neg hr]; exact h5
    · exact h5

theorem Safe.op {roots : List Bytes} {n : TlsWorld} (h : Safe roots n) (op : Op) : Safe roots (op.tls n).2 := by
  cases op with
  | send c => exact h.onStream (.of (.send c _))
  | recv b => exact h.onStream (.recv b _)
  | reconnect b => exact Safe.loop b _ _ _ _ _ _ h

theorem Safe.outcomes {roots : List Bytes} (calls : List TlsCall) : ∀ {n : TlsWorld}, Safe roots n →
    Safe roots (tlsOutcomes calls n).2 := by
  induction calls with
  | nil => exact fun h => h
  | cons c rest ih =>
    intro n h
    have h1 : Safe roots { n with world := { n.world with script := c.answers }, answers := c.opening } := ⟨h.1, h.2, h.3, h.4⟩
    exact ih (h1.op c.op)

/-! ### Certificates -/

theorem addAll_ok {certs : List Cert} (h : AllUsable certs) (roots : List Bytes) :
    addAll roots certs = .ok (roots ++ certs.map (·.der)) := by
  induction certs generalizing roots with
  | nil => simp [addAll]
  | cons c rest ih =>
    rw [addAll, h c List.mem_cons_self]
    rw [ih (fun c hc => h c (List.mem_cons_of_mem _ hc))]
    simp

theorem addAll_error {good : List Cert} {bad : Cert} {rest : List Cert} {e : Nat} (h : AllUsable good)
    (hb : bad.refused = some e) (roots : List Bytes) : addAll roots (good ++ bad :: rest) = .error e := by
  induction good generalizing roots with
  | nil => simp [addAll, hb]
  | cons c good ih =>
    rw [List.cons_append, addAll, h c List.mem_cons_self]
    exact ih (fun c hc => h c (List.mem_cons_of_mem _ hc)) _

/-- A list of certificates can all be used, or there is a first that cannot. -/
theorem usable_or (certs : List Cert) : AllUsable certs ∨
    ∃ good bad rest e, certs = good ++ bad :: rest ∧ AllUsable good ∧ bad.refused = some e := by
  induction certs with
  | nil => exact .inl (fun _ h => by cases h)
  | cons c certs ih =>
    cases hc : c.refused with
    | some e => exact .inr ⟨[], c, certs, e, rfl, (fun _ h => by cases h), hc⟩
    | none =>
      rcases ih with h | ⟨good, bad, rest, e, h1, h2, h3⟩
      · exact .inl (fun x hx => (List.mem_cons.1 hx).elim (fun e => e ▸ hc) (h x))
      · exact .inr ⟨c :: good, bad, rest, e, by rw [h1]; rfl,
          (fun x hx => (List.mem_cons.1 hx).elim (fun e => e ▸ hc) (h2 x)), h3⟩

end Tmi.Proofs
