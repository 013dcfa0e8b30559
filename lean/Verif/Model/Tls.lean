/-
Model of src/client/conn.rs: loading the certificates of the system, and opening a connection in its two steps.  In
Verif/Model/Client.lean loading and opening are one answer each; here a connection is a TCP connection on which TLS is
then set up.  Everything that happens on an open connection is taken over from Verif/Model/Client.lean.

Not modelled: what `rustls` does with the certificates when it sets up TLS.  The model records which name and which
roots it is given, and that it said that TLS is up.
-/
import Verif.Model.Client

namespace Tmi.Model

/-- `conn::HOST` (src/client/conn.rs:9). -/
def HOST : Bytes := b!"irc.chat.twitch.tv"
/-- `conn::PORT` (src/client/conn.rs:10). -/
def PORT : Nat := 6697

/-- A certificate that `load_native_certs` found (src/client/conn.rs:59-62): its bytes, and the error of
`RootCertStore::add` if it is not accepted. -/
structure Cert where
  der : Bytes
  refused : Option Nat
deriving DecidableEq, Repr

/-- `TlsConfigError` (src/client/conn.rs:83-89); an error of `rustls` is given by a number. -/
inductive TlsConfigError where
  | io (e : IoError)
  | tls (e : Nat)
deriving DecidableEq, Repr

/-- `TlsConfig` (src/client/conn.rs:49-53): the root certificates of its `ClientConfig`, and the server name. -/
structure TlsConfig where
  roots : List Bytes
  serverName : Bytes
deriving DecidableEq, Repr

/-- The loop over the certificates in `TlsConfig::load` (src/client/conn.rs:60-62). -/
def addAll : (roots : List Bytes) → List Cert → Except Nat (List Bytes)
  | roots, [] => .ok roots
  | roots, cert :: certs =>
    match cert.refused with
    | some e => .error e
    | none => addAll (roots ++ [cert.der]) certs

/-- `TlsConfig::load` (src/client/conn.rs:56-71), given what `load_native_certs` returns. -/
def TlsConfig.load (nativeCerts : Except IoError (List Cert)) (serverName : Bytes) : Except TlsConfigError TlsConfig :=
  match nativeCerts with
  | .error e => .error (.io e)
  | .ok certs =>
    match addAll [] certs with
    | .error e => .error (.tls e)
    | .ok roots => .ok ⟨roots, serverName⟩

/-- What happens while a connection is opened.  The two awaits of src/client/conn.rs:18-22. -/
inductive OpenAnswer where
  | done
  | failed (e : IoError)
  /-- the deadline of the enclosing `timeout` passed (src/client.rs:267, 297) -/
  | elapsed
deriving DecidableEq, Repr

/-- What the world sees of the client: in addition to `Effect`, what src/client/conn.rs:14-24 does. -/
inductive Deal where
  | client (e : Effect)
  /-- started to open a TCP connection -/
  | tcp (host : Bytes) (port : Nat)
  /-- started to set up TLS on it, to be verified for that name with those roots -/
  | tls (name : Bytes) (roots : List Bytes)
  /-- TLS is up -/
  | secured
deriving DecidableEq, Repr

/-- The environment of the calls of src/client.rs:262-319, with the steps of opening a connection; no code of its own. -/
structure TlsWorld where
  /-- the client, what has happened on its connections, and the answers at the awaits on an open connection -/
  world : World
  /-- `Client::tls` (src/client.rs:244) -/
  tls : TlsConfig
  /-- everything that has happened, oldest first -/
  deals : List Deal
  /-- the answers at the awaits while opening; when there are no more, the future is dropped -/
  answers : List OpenAnswer
deriving DecidableEq, Repr

/-- The `async fn`s of src/client.rs:262-319 and src/client/conn.rs:14-24. -/
def TlsAct (α : Type) := TlsWorld → Except Stop α × TlsWorld

/-- `;` and `.await` in the `async fn`s of src/client.rs:262-319. -/
instance : Monad TlsAct where
  pure a := fun n => (.ok a, n)
  bind x f := fun n =>
    match x n with
    | (.ok a, n') => f a n'
    | (.error e, n') => (.error e, n')

/-- The parts of the `async fn`s of src/client.rs:262-392 that do not open a connection; what they add to the log is
added to what has happened. -/
def onStream {α : Type} (x : Act α) : TlsAct α := fun n =>
  match x n.world with
  | (r, w) => (r, { n with world := w, deals := n.deals ++ (w.log.drop n.world.log.length).map .client })

/-- A visible step of src/client/conn.rs:14-24. -/
def deal (d : Deal) : TlsAct Unit := fun n => (.ok (), { n with deals := n.deals ++ [d] })

/-- An await of src/client/conn.rs:18-22; the result is that of the awaited operation. -/
def openAnswer : TlsAct (Except IoError Unit) := fun n =>
  match n.answers with
  | [] => (.error .dropped, n)
  | .elapsed :: rest => (.error (.elapsed 0), { n with answers := rest })
  | .done :: rest => (.ok (.ok ()), { n with answers := rest })
  | .failed e :: rest => (.ok (.error e), { n with answers := rest })

/-- `fut.timeout(duration)` (src/client/util.rs:8-15), as `withTimeout`. -/
def tlsTimeout {α : Type} (_duration : Nat) (fut : TlsAct α) : TlsAct (Except Unit α) := fun n =>
  match fut n with
  | (.ok a, n') => (.ok (.ok a), n')
  | (.error (.elapsed 0), n') => (.ok (.error ()), n')
  | (.error (.elapsed (k + 1)), n') => (.error (.elapsed k), n')
  | (.error e, n') => (.error e, n')

/-- `conn::open` (src/client/conn.rs:14-24). -/
def tlsOpen (config : TlsConfig) : TlsAct (Except IoError Unit) := do
  onStream (emit .open_)
  deal (.tcp HOST PORT)
  match ← openAnswer with
  | .error e => return .error e
  | .ok () => do
    deal (.tls config.serverName config.roots)
    match ← openAnswer with
    | .error e => return .error e
    | .ok () => do
      deal .secured
      return .ok ()

/-- `tls,` in `Client { .. }` (src/client.rs:273). -/
def setTls (config : TlsConfig) : TlsAct Unit := fun n => (.ok (), { n with tls := config })
/-- `self.tls.clone()` (src/client.rs:297). -/
def getTls : TlsAct TlsConfig := fun n => (.ok n.tls, n)

/-- `Client::connect` (src/client.rs:262-278), given what `load_native_certs` returns.  `ServerName::try_from`, which
accepts the constant host name, is left out.  As in Verif/Model/Client.lean the result does not hold the
`TlsConfigError`, which is that of `TlsConfig.load`. -/
def tlsConnect (b : Build) (nativeCerts : Except IoError (List Cert)) (config : Config) :
    TlsAct (Except ConnectError Unit) := do
  match TlsConfig.load nativeCerts HOST with
  | .error _ => return .error .tls
  | .ok tls =>
    match ← tlsTimeout config.timeout (tlsOpen tls) with
    | .error () => return .error .timeout
    | .ok (.error e) => return .error (.open_ e)
    | .ok (.ok ()) => do
      onStream (emit .connected)
      onStream (setClient ⟨false, [], config⟩)
      setTls tls
      match ← onStream (withTimeout config.timeout (handshake b)) with
      | .error () => return .error .timeout
      | .ok r => return r

/-- The loop of `Client::reconnect` (src/client.rs:289-318), with `fuel` as in `reconnectLoop`. -/
def tlsReconnectLoop (b : Build) (config : Config) :
    (fuel : Nat) → (tries : Option Nat) → (delay : Nat) → (cause : ConnectError) →
    TlsAct (Except ConnectError Unit)
  | 0, _, _, _ => onStream (stop (.panic .diverge))
  | fuel + 1, tries, delay, cause =>
    if tries = some 0 then pure (.error cause)
    else do
      onStream (sleep delay)
      let delay' ← onStream (lift (mulDuration delay config.backoff.delayMultiplier))
      let delay' := min config.backoff.maxDelay delay'
      let tries' := tries.map (· - 1)
      let tls ← getTls
      match ← tlsTimeout config.timeout (tlsOpen tls) with
      | .error () => return .error .timeout
      | .ok (.error e) => tlsReconnectLoop b config fuel tries' delay' (.open_ e)
      | .ok (.ok ()) => do
        onStream useStream
        match ← onStream (withTimeout config.timeout (handshake b)) with
        | .error () => return .error .timeout
        | .ok (.error e) =>
          if e.shouldRetry then tlsReconnectLoop b config fuel tries' delay' e
          else return .error e
        | .ok (.ok ()) => return .ok ()

/-- `Client::reconnect` (src/client.rs:281-319); the `ReconnectError` is given by its cause. -/
def tlsReconnect (b : Build) : TlsAct (Except ConnectError Unit) := fun n =>
  let config := n.world.client.config
  tlsReconnectLoop b config (n.world.script.length + 1) config.backoff.maxTries config.backoff.initialDelay
    .timeout n

end Tmi.Model
