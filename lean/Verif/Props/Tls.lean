/-
Properties C107 and C108: to whom a client talks, and the certificates by which it knows.
-/
import Verif.Proofs.TlsSteps
import Verif.Props.Send

namespace Tmi.Props
open Tmi.Model Tmi.Spec Tmi.Proofs

/-! ## C107: nothing is said before TLS with Twitch's server is up -/

/-- `connect` leaves the client on a connection that was made as it has to be. -/
theorem connect_safe (b : Build) (certs : List Cert) (hc : AllUsable certs) (cfg : Config) (answers : List Answer)
    (opening : List OpenAnswer) :
    (∀ d ∈ (tlsConnect b (.ok certs) cfg (beforeConnect cfg answers opening)).2.deals, OnlyTwitch (certs.map (·.der)) d) ∧
    Secure (certs.map (·.der)) (tlsConnect b (.ok certs) cfg (beforeConnect cfg answers opening)).2.deals ∧
    ((tlsConnect b (.ok certs) cfg (beforeConnect cfg answers opening)).1 = .ok (.ok ()) →
      Safe (certs.map (·.der)) (tlsConnect b (.ok certs) cfg (beforeConnect cfg answers opening)).2) := by
  have hl : TlsConfig.load (.ok certs) HOST = .ok ⟨certs.map (·.der), HOST⟩ := by
    simp [TlsConfig.load, addAll_ok hc]
  unfold tlsConnect
  rw [hl]
  simp only []
  rw [tls_bind]
  generalize hn : beforeConnect cfg answers opening = n
  have hd : n.deals = [] := by rw [← hn]; rfl
  have ho := tlsOpen_deals ⟨certs.map (·.der), HOST⟩ n
  have hs := tlsTimeout_snd cfg.timeout (tlsOpen ⟨certs.map (·.der), HOST⟩) n
  have hk := @tlsTimeout_ok _ cfg.timeout (tlsOpen ⟨certs.map (·.der), HOST⟩) n (.ok ())
  rcases ht : tlsTimeout cfg.timeout (tlsOpen ⟨certs.map (·.der), HOST⟩) n with ⟨r, n1⟩
  rw [ht] at hs hk
  rw [ht]
  simp only [] at hs hk
  obtain ⟨ds, e, -, hds, -⟩ := ho
  rw [← hs, hd, List.nil_append] at e
  have h1 : (∀ d ∈ n1.deals, OnlyTwitch (certs.map (·.der)) d) ∧ Secure (certs.map (·.der)) n1.deals := by
    rw [e]
    refine ⟨fun d hm => opened_only rfl (hds d hm), ?_⟩
    have := secure_other (roots := certs.map (·.der)) (deals := []) (ds := ds) (fun b e a h => by simp at h)
      fun e he => by rw [opened_client (hds _ he)]; exact fun h => h
    rwa [List.nil_append] at this
  rcases r with e | (⟨⟩ | (e | ⟨⟩))
  · exact ⟨h1.1, h1.2, fun h => by cases h⟩
  · exact ⟨h1.1, h1.2, fun h => by cases h⟩
  · exact ⟨h1.1, h1.2, fun h => by cases h⟩
  have h2 : Safe (certs.map (·.der)) (setTls ⟨certs.map (·.der), HOST⟩ (onStream (setClient ⟨false, [], cfg⟩)
      (onStream (emit .connected) n1).2).2).2 := by
    refine Safe.use (config := ⟨certs.map (·.der), HOST⟩) (n := n) rfl (by rw [hd]; simp) (by rw [hd]; exact fun b e a h => by simp at h) (hk rfl) _ ?_ ?_
    · rw [← hs]
      simp [onStream_run, emit, setClient, setTls]
    · rfl
  have h3 := h2.onStream (.timeout cfg.timeout (.handshake b _))
  have h4 : Safe (certs.map (·.der)) ((do
      onStream (emit .connected)
      onStream (setClient ⟨false, [], cfg⟩)
      setTls ⟨certs.map (·.der), HOST⟩
      match ← onStream (withTimeout cfg.timeout (handshake b)) with
      | .error () => return .error .timeout
      | .ok r => return r : TlsAct (Except ConnectError Unit)) n1).2 := by
    show Safe _ ((onStream (withTimeout cfg.timeout (handshake b)) >>= _) _).2
    refine bind_safe h3 fun r _ => ?_
    rcases r with ⟨⟩ | r <;> exact h3
  exact ⟨h4.only, h4.secure, fun _ => h4⟩

theorem session_safe (b : Build) (certs : List Cert) (cfg : Config) (answers : List Answer) (opening : List OpenAnswer)
    (calls : List TlsCall) :
    (∀ d ∈ (tlsSession b (.ok certs) cfg answers opening calls).2.2.deals, OnlyTwitch (certs.map (·.der)) d) ∧
    Secure (certs.map (·.der)) (tlsSession b (.ok certs) cfg answers opening calls).2.2.deals := by
  unfold tlsSession
  rcases usable_or certs with hc | ⟨good, bad, rest, e, hc, hg, hb⟩
  · obtain ⟨h0, h1, h2⟩ := connect_safe b certs hc cfg answers opening
    rcases ht : tlsConnect b (.ok certs) cfg (beforeConnect cfg answers opening) with ⟨r, n⟩
    rw [ht] at h0 h1 h2
    rcases r with e | (e | ⟨⟩)
    · exact ⟨h0, h1⟩
    · exact ⟨h0, h1⟩
    · have := Safe.outcomes calls (h2 rfl)
      exact ⟨this.only, this.secure⟩
  · have hl : TlsConfig.load (.ok certs) HOST = .error (.tls e) := by simp [TlsConfig.load, hc, addAll_error hg hb]
    unfold tlsConnect
    rw [hl]
    exact ⟨fun d hd => by simp [beforeConnect, Pure.pure] at hd, fun b e a h => by simp [beforeConnect, Pure.pure] at h⟩

/-- C107: whatever the calls of a program are, whatever happens at their awaits and wherever they are dropped: whenever
bytes are sent or a line is received, the connection in use is a TCP connection to irc.chat.twitch.tv:6697 on which TLS
had been set up before, verified for that name with the certificates of the system. -/
theorem C107_secure (b : Build) (certs : List Cert) (cfg : Config) (answers : List Answer) (opening : List OpenAnswer)
    (calls : List TlsCall) :
    Secure (certs.map (·.der)) (tlsSession b (.ok certs) cfg answers opening calls).2.2.deals :=
  (session_safe b certs cfg answers opening calls).2

/-- C107: no connection is opened to anyone else, and TLS is never asked to accept another name or other certificates. -/
theorem C107_only (b : Build) (certs : List Cert) (cfg : Config) (answers : List Answer) (opening : List OpenAnswer)
    (calls : List TlsCall) :
    ∀ d ∈ (tlsSession b (.ok certs) cfg answers opening calls).2.2.deals, OnlyTwitch (certs.map (·.der)) d :=
  (session_safe b certs cfg answers opening calls).1

/-- C107: a session in which connections are opened step by step is a session of the client that all other properties
are about: for some answers it has the same results, does the same on its connections and leaves the same client. -/
theorem C107_session (b : Build) (certs : Except IoError (List Cert)) (cfg : Config) (answers : List Answer)
    (opening : List OpenAnswer) (calls : List TlsCall) :
    ∃ answers' scripts, scripts.length = calls.length ∧
      (lineSession b cfg answers' ((calls.map (·.op)).zip scripts)).1 = (tlsSession b certs cfg answers opening calls).1 ∧
      (lineSession b cfg answers' ((calls.map (·.op)).zip scripts)).2.1 =
        (tlsSession b certs cfg answers opening calls).2.1 ∧
      (lineSession b cfg answers' ((calls.map (·.op)).zip scripts)).2.2.log =
        onClient (tlsSession b certs cfg answers opening calls).2.2.deals ∧
      (lineSession b cfg answers' ((calls.map (·.op)).zip scripts)).2.2.client =
        (tlsSession b certs cfg answers opening calls).2.2.world.client := by
  obtain ⟨hc, s, hs⟩ := (Mirrors.connect b certs cfg (n := beforeConnect cfg answers opening) rfl).same
  unfold lineSession tlsSession
  have hs : connect b cfg ⟨⟨false, [], cfg⟩, [], s⟩ = _ := hs
  generalize tlsConnect b certs cfg (beforeConnect cfg answers opening) = p at hc hs
  obtain ⟨r, n⟩ := p
  simp only [] at hc hs
  obtain ⟨ha, ss, hl, h2⟩ := tlsOutcomes_same calls hc
  refine ⟨s, ss, hl, ?_⟩
  rw [hs]
  rcases r with e | (e | ⟨⟩)
  · exact ⟨rfl, rfl, hc.symm, rfl⟩
  · exact ⟨rfl, rfl, hc.symm, rfl⟩
  · obtain ⟨t', h2⟩ := h2 []
    simp only []
    rw [h2]
    exact ⟨trivial, rfl, ha.symm, rfl⟩

/-- Certificates of a system. -/
def sampleCerts : List Cert := [⟨b!"one", none⟩, ⟨b!"two", none⟩]

/-- Calls: a message, a `reconnect` whose first attempt fails while TLS is set up, and a message. -/
def sampleTlsCalls : List TlsCall :=
  [⟨.send (.raw (b!"A\r\n")), [.accept 10], []⟩,
   ⟨.reconnect ⟨.scalar, true⟩, [.slept, .slept, .accept 1000, .flushed, .line (b!":tmi CAP * ACK :x"), .line (b!":tmi 001 a :hi")],
    [.done, .failed ⟨.other 1, 0⟩, .done, .done]⟩,
   ⟨.send (.raw (b!"B\r\n")), [.accept 10], []⟩]

/-- A session with these calls. -/
def sampleTlsSession := tlsSession ⟨.scalar, true⟩ (.ok sampleCerts) sampleConfig
  [.accept 1000, .flushed, .line (b!":tmi CAP * ACK :x"), .line (b!":tmi 001 a :hi")] [.done, .done] sampleTlsCalls

/-- Non-vacuity: all the calls succeed, and what happens is this. -/
example : sampleTlsSession.1 = .ok (.ok ()) ∧
    sampleTlsSession.2.1 = [.sent (.ok (.ok ())), .reconnected (.ok (.ok ())), .sent (.ok (.ok ()))] := by decide +kernel
example : sampleTlsSession.2.2.deals.map (fun d => match d with
      | .client (.wrote bs) => .client (.wrote (bs.take 3)) | d => d) =
    made [b!"one", b!"two"] ++ [.client (.wrote (b!"CAP")), .client .flush, .client (.took (b!":tmi CAP * ACK :x")),
      .client (.took (b!":tmi 001 a :hi")), .client (.wrote (b!"A\r\n")), .client (.sleep 10),
      .client .open_, .tcp (b!"irc.chat.twitch.tv") 6697, .tls (b!"irc.chat.twitch.tv") [b!"one", b!"two"], .client (.sleep 30)] ++
    made [b!"one", b!"two"] ++ [.client (.wrote (b!"CAP")), .client .flush, .client (.took (b!":tmi CAP * ACK :x")),
      .client (.took (b!":tmi 001 a :hi")), .client (.wrote (b!"B\r\n"))] := by decide +kernel

/-! ## C108: the certificates of the system -/

/-- C108: what loading the certificates gives: when the system can list them and all can be used, exactly these, in
order, with the given name; otherwise the error of the system, or that of the first certificate that cannot be used. -/
theorem C108_load (name : Bytes) :
    (∀ e, TlsConfig.load (.error e) name = .error (.io e)) ∧
    (∀ certs, AllUsable certs → TlsConfig.load (.ok certs) name = .ok ⟨certs.map (·.der), name⟩) ∧
    (∀ good bad rest e, AllUsable good → bad.refused = some e →
      TlsConfig.load (.ok (good ++ bad :: rest)) name = .error (.tls e)) ∧
    ∀ certs, AllUsable certs ∨ ∃ good bad rest e, certs = good ++ bad :: rest ∧ AllUsable good ∧ bad.refused = some e := by
  refine ⟨fun e => rfl, fun certs h => ?_, fun good bad rest e hg hb => ?_, usable_or⟩
  · simp [TlsConfig.load, addAll_ok h]
  · simp [TlsConfig.load, addAll_error hg hb]

/-- Non-vacuity: all certificates can be used; the second cannot. -/
example : AllUsable sampleCerts ∧ sampleCerts ≠ [] := by unfold AllUsable; decide +kernel
example : TlsConfig.load (.ok [⟨b!"one", none⟩, ⟨b!"two", some 7⟩, ⟨b!"three", some 8⟩]) HOST = .error (.tls 7) := by
  decide +kernel

/-- C108, exactly: `connect` starts to open a connection exactly when the system can list its certificates and every one
of them can be used; otherwise it fails at once with the error for certificates, and nothing at all has happened. -/
theorem C108_exact (b : Build) (certs : Except IoError (List Cert)) (cfg : Config) (answers : List Answer)
    (opening : List OpenAnswer) :
    ((∃ cs, certs = .ok cs ∧ AllUsable cs) →
      .client .open_ ∈ (tlsConnect b certs cfg (beforeConnect cfg answers opening)).2.deals) ∧
    ((¬ ∃ cs, certs = .ok cs ∧ AllUsable cs) →
      tlsConnect b certs cfg (beforeConnect cfg answers opening) = (.ok (.error .tls), beforeConnect cfg answers opening)) := by
  constructor
  · rintro ⟨cs, rfl, hc⟩
    have hl : TlsConfig.load (.ok cs) HOST = .ok ⟨cs.map (·.der), HOST⟩ := by simp [TlsConfig.load, addAll_ok hc]
    unfold tlsConnect
    rw [hl]
    simp only []
    generalize hn : beforeConnect cfg answers opening = n
    have ho : .client .open_ ∈ (tlsTimeout cfg.timeout (tlsOpen ⟨cs.map (·.der), HOST⟩) n).2.deals := by
      rw [tlsTimeout_snd]
      exact opens _ n
    rw [tls_bind]
    generalize tlsTimeout cfg.timeout (tlsOpen ⟨cs.map (·.der), HOST⟩) n = p at ho
    obtain ⟨r, n1⟩ := p
    rcases r with e | (⟨⟩ | (e | ⟨⟩))
    · exact ho
    · exact ho
    · exact ho
    have h3 : .client .open_ ∈ (onStream (withTimeout cfg.timeout (handshake b)) (setTls ⟨cs.map (·.der), HOST⟩
        (onStream (setClient ⟨false, [], cfg⟩) (onStream (emit .connected) n1).2).2).2).2.deals :=
      List.mem_append_left _ (List.mem_append_left _ (List.mem_append_left _ ho))
    have key : ∀ m, .client .open_ ∈ (onStream (withTimeout cfg.timeout (handshake b)) m).2.deals →
        .client .open_ ∈ ((do
          match ← onStream (withTimeout cfg.timeout (handshake b)) with
          | .error () => return .error .timeout
          | .ok r => return r : TlsAct (Except ConnectError Unit)) m).2.deals := by
      intro m h
      rw [tls_bind]
      generalize onStream (withTimeout cfg.timeout (handshake b)) m = p at h
      obtain ⟨r, n2⟩ := p
      rcases r with e | (⟨⟩ | r) <;> exact h
    exact key _ h3
  · intro h
    have hl : ∃ e, TlsConfig.load certs HOST = .error e := by
      cases certs with
      | error e => exact ⟨.io e, rfl⟩
      | ok cs =>
        rcases usable_or cs with hc | ⟨good, bad, rest, e, hc, hg, hb⟩
        · exact absurd ⟨cs, rfl, hc⟩ h
        · exact ⟨.tls e, by simp [TlsConfig.load, hc, addAll_error hg hb]⟩
    obtain ⟨e, hl⟩ := hl
    unfold tlsConnect
    rw [hl]
    rfl

/-- C108, the part that holds of "`connect` works wherever there are certificates that can be used": on a system all of
whose certificates can be used, it starts to open a connection. -/
theorem C108_partial (b : Build) (cs : List Cert) (hc : AllUsable cs) (cfg : Config) (answers : List Answer)
    (opening : List OpenAnswer) :
    .client .open_ ∈ (tlsConnect b (.ok cs) cfg (beforeConnect cfg answers opening)).2.deals :=
  (C108_exact b (.ok cs) cfg answers opening).1 ⟨cs, rfl, hc⟩

example := C108_partial ⟨.scalar, true⟩ sampleCerts (by unfold AllUsable; decide +kernel) sampleConfig [] []

/-- C108 is false as stated: one certificate that cannot be used, among any number that can, keeps a client from
connecting, whatever the network does. -/
theorem C108_negation : ∃ certs : List Cert, (∃ c ∈ certs, c.refused = none) ∧
    ∀ b cfg answers opening, (tlsConnect b (.ok certs) cfg (beforeConnect cfg answers opening)).1 = .ok (.error .tls) ∧
      .client .open_ ∉ (tlsConnect b (.ok certs) cfg (beforeConnect cfg answers opening)).2.deals := by
  refine ⟨[⟨b!"one", none⟩, ⟨b!"expired", some 7⟩], by decide, fun b cfg answers opening => ?_⟩
  have := (C108_exact b (.ok [⟨b!"one", none⟩, ⟨b!"expired", some 7⟩]) cfg answers opening).2 (by
    rintro ⟨cs, h, hc⟩
    cases h
    cases hc ⟨b!"expired", some 7⟩ (by simp))
  rw [this]
  exact ⟨rfl, by simp [beforeConnect]⟩

end Tmi.Props
