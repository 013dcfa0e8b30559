/-
The client again, with a `tracing` subscriber that prints every record: the `trace!` statements are run, so a
message that is received while connecting is printed, and printing it can panic.

Not in the records: the TLS configuration (the field of src/client/conn.rs:15, which holds certificates only) and
whatever the subscriber adds (time, target, level).
-/
import Verif.Model.Debug
import Verif.Model.Trace

namespace Tmi.Model

/-- A record of one of the `trace!` statements of src/client.rs, src/client/write.rs and src/client/conn.rs: its text,
and its field, if it has one. -/
structure Record where
  text : Bytes
  field : Option Bytes
deriving DecidableEq, Repr

namespace Logged

/-- An `async` computation with a subscriber, which keeps the records (oldest first).
The `async fn`s of src/client.rs:262-392 and src/client/write.rs:42-175. -/
def LAct (α : Type) := World × List Record → Except Stop α × (World × List Record)

/-- `;` and `.await` in the `async fn`s of src/client.rs:262-392. -/
instance : Monad LAct where
  pure a := fun w => (.ok a, w)
  bind x f := fun w =>
    match x w with
    | (.ok a, w') => f a w'
    | (.error e, w') => (.error e, w')

/-- A step in which nothing is logged (src/client.rs:262-392). -/
def act {α : Type} (x : Act α) : LAct α := fun w => ((x w.1).1, ((x w.1).2, w.2))

/-- A `trace!` statement whose fields cannot panic (src/client.rs:263-386, src/client/write.rs:86). -/
def trace (r : Record) : LAct Unit := fun w => (.ok (), (w.1, w.2 ++ [r]))

/-- `trace!` of a fixed text.  src/client.rs:263-386. -/
def note (s : Bytes) : LAct Unit := trace ⟨s, none⟩

/-- `trace!(?message, "received message")`: `Debug` of the message is run.  src/client.rs:348 and 366. -/
def traceReceived (esc : Nat → Bool) (m : MsgOwned) : LAct Unit := do
  let shown ← act (lift (m.print esc false))
  trace ⟨b!"received message", some shown⟩

/-- `fut.timeout(duration)` (src/client/util.rs:8-15), see `Model.withTimeout`. -/
def withTimeout {α : Type} (_duration : Nat) (fut : LAct α) : LAct (Except Unit α) := fun w =>
  match fut w with
  | (.ok a, w') => (.ok (.ok a), w')
  | (.error (.elapsed 0), w') => (.ok (.error ()), w')
  | (.error (.elapsed (n + 1)), w') => (.error (.elapsed n), w')
  | (.error e, w') => (.error e, w')

/-! ### Sending -/

/-- `Client::send_raw` (src/client/write.rs:80-89). -/
def sendRaw (s : Bytes) : LAct (Except SendError Unit) := do
  match rawMessage s with
  | none => return .error .invalidMessage
  | some data => do
    trace ⟨b!"sending message", some data⟩
    match ← act (writeAll data) with
    | .error e => return .error (.io e)
    | .ok () => return .ok ()

/-- The macro `with_scratch!` (src/client/macros.rs:1-11), see `Model.withScratch`. -/
def withScratch {α : Type} (body : Bytes → LAct α) : LAct α := do
  let scratch ← act takeScratch
  let result ← body scratch
  act (setScratch [])
  return result

/-- `Client::join` (src/client/write.rs:144-150), see `Model.joinChannel`. -/
def joinChannel (channel : Bytes) : LAct (Except SendError Unit) := do
  let f ← act takeScratch
  match ← sendRaw (f ++ (b!"JOIN " ++ displayChannel channel ++ [CR, LF])) with
  | .error e => return .error e
  | .ok () => do
    act (setScratch [])
    return .ok ()

/-- The sending methods (src/client/write.rs:42-175), see `Cmd.send`. -/
def send : Cmd → LAct (Except SendError Unit)
  | .privmsg channel text replyTo nonce => withScratch fun f => sendRaw (f ++ privmsgText channel text replyTo nonce)
  | .ping nonce => withScratch fun f => sendRaw (f ++ (b!"PING :" ++ nonce ++ [CR, LF]))
  | .pong nonce => withScratch fun f => sendRaw (f ++
      (match nonce with
      | some nonce => b!"PONG :" ++ nonce ++ [CR, LF]
      | none => b!"PONG" ++ [CR, LF]))
  | .join channel => joinChannel channel
  | .joinAll channels => withScratch fun f => sendRaw (f ++ joinAllText channels)
  | .raw s => sendRaw s

/-! ### Connecting -/

/-- `conn::open` (src/client/conn.rs:14-24); the field `config` is left out. -/
def openStream : LAct (Except IoError Unit) := do
  note (b!"opening tls stream to twitch")
  act Model.openStream

/-- The first `match` of `handshake` (src/client.rs:350-362): `none` is success. -/
def checkCap (m : MsgOwned) : LAct (Option ConnectError) := do
  match ← act (lift m.command) with
  | .capability =>
    match ← act (lift m.params) with
    | some v =>
      if hasPrefix (b!"* ACK") v then do
        note (b!"received CAP * ACK")
        return none
      else return some .auth
    | none => return some .auth
  | _ => do
    note (b!"unexpected message")
    return some (.welcome m)

/-- The second `match` of `handshake` (src/client.rs:368-389): `none` is success. -/
def checkWelcome (m : MsgOwned) : LAct (Option ConnectError) := do
  match ← act (lift m.command) with
  | .rplWelcome => do
    note (b!"connected")
    return none
  | .notice =>
    match ← act (lift m.params) with
    | some v =>
      if containsStr (b!"authentication failed") v then do
        note (b!"invalid credentials")
        return some .auth
      else do
        note (b!"unrecognized error")
        return some (.notice m)
    | none => do
      note (b!"unrecognized error")
      return some (.notice m)
  | _ => do
    note (b!"first message not recognized")
    return some (.welcome m)

/-- The part of `handshake` after the flush (src/client.rs:346-391). -/
def awaitWelcome (esc : Nat → Bool) (b : Build) : LAct (Except ConnectError Unit) := do
  note (b!"waiting for CAP * ACK")
  match ← act (recvReply b) with
  | .error e => return .error e
  | .ok m => do
    traceReceived esc m
    match ← checkCap m with
    | some e => return .error e
    | none => do
      note (b!"waiting for NOTICE 001")
      match ← act (recvReply b) with
      | .error e => return .error e
      | .ok m => do
        traceReceived esc m
        match ← checkWelcome m with
        | some e => return .error e
        | none => return .ok ()

/-- `Client::handshake` (src/client.rs:321-392). -/
def handshake (esc : Nat → Bool) (b : Build) : LAct (Except ConnectError Unit) := do
  note (b!"performing handshake")
  let c ← act getClient
  note (helloTrace (debugStr esc) c.config.credentials)
  let scratch := c.scratch ++ helloText c.config.credentials
  act (setScratch scratch)
  match ← act (writeAll scratch) with
  | .error e => return .error (.io e)
  | .ok () =>
    match ← act flush with
    | .error e => return .error (.io e)
    | .ok () => do
      act (setScratch [])
      awaitWelcome esc b

/-- `Client::connect` (src/client.rs:262-278), with `TlsConfig::load` (src/client/conn.rs:56-71). -/
def connect (esc : Nat → Bool) (b : Build) (config : Config) : LAct (Except ConnectError Unit) := do
  note (b!"connecting")
  note (b!"loading native certificates")
  match ← act next with
  | .tlsLoaded => do
    note (b!"opening connection to twitch")
    match ← withTimeout config.timeout openStream with
    | .error () => return .error .timeout
    | .ok (.error e) => return .error (.open_ e)
    | .ok (.ok ()) => do
      act (emit .connected)
      act (setClient ⟨false, [], config⟩)
      match ← withTimeout config.timeout (handshake esc b) with
      | .error () => return .error .timeout
      | .ok r => return r
  | .tlsFailed => return .error .tls
  | _ => act (stop .dropped)

/-- The loop of `Client::reconnect` (src/client.rs:289-318), see `Model.reconnectLoop`. -/
def reconnectLoop (esc : Nat → Bool) (b : Build) (config : Config) :
    (fuel : Nat) → (tries : Option Nat) → (delay : Nat) → (cause : ConnectError) →
    LAct (Except ConnectError Unit)
  | 0, _, _, _ => act (stop (.panic .diverge))
  | fuel + 1, tries, delay, cause =>
    if tries = some 0 then pure (.error cause)
    else do
      act (sleep delay)
      let delay' ← act (lift (mulDuration delay config.backoff.delayMultiplier))
      let delay' := min config.backoff.maxDelay delay'
      let tries' := tries.map (· - 1)
      note (b!"opening connection to twitch")
      match ← withTimeout config.timeout openStream with
      | .error () => return .error .timeout
      | .ok (.error e) => reconnectLoop esc b config fuel tries' delay' (.open_ e)
      | .ok (.ok ()) => do
        act useStream
        match ← withTimeout config.timeout (handshake esc b) with
        | .error () => return .error .timeout
        | .ok (.error e) =>
          if e.shouldRetry then reconnectLoop esc b config fuel tries' delay' e
          else return .error e
        | .ok (.ok ()) => return .ok ()

/-- `Client::reconnect` (src/client.rs:281-319), see `Model.reconnect`. -/
def reconnect (esc : Nat → Bool) (b : Build) : LAct (Except ConnectError Unit) := do
  note (b!"reconnecting")
  fun w =>
    let config := w.1.client.config
    reconnectLoop esc b config (w.1.script.length + 1) config.backoff.maxTries config.backoff.initialDelay .timeout w

end Logged

end Tmi.Model
