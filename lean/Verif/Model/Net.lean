/-
Model of the client on connections that deliver bytes.  In Verif/Model/Client.lean a read yields a line; here it
is a loop of polls of the reader of Verif/Model/Lines.lean, each of which may find part of a line, several lines,
or nothing, and in between the future may be dropped or a timer run out.  Everything that does not read is taken
over from Verif/Model/Client.lean.
-/
import Verif.Model.Lines

namespace Tmi.Model

/-- What happens when a read has to wait, i.e. when the poll of `next()` at src/client/read.rs:15 returns
`Pending`. -/
inductive Wait where
  /-- the future is polled again -/
  | again
  /-- the `timeout` that many layers up (src/client.rs:307, 347, 365) runs out -/
  | elapsed (layer : Nat)
  /-- the caller drops the future -/
  | dropped
deriving DecidableEq, Repr

/-- The environment of the calls of src/client.rs:262-392, with the connections as streams of bytes; no code of
its own. -/
structure NetWorld where
  /-- the client, what has happened, and the answers at the awaits that are not reads -/
  world : World
  /-- the reader of the connection in use (src/client.rs:240) -/
  reader : Reader
  /-- what that connection will do -/
  net : List Net
  /-- what the connections that will be opened next will do -/
  conns : List (List Net)
  /-- what will happen whenever a read has to wait -/
  waits : List Wait
deriving DecidableEq, Repr

/-- An `async` computation.
The `async fn`s of src/client.rs:262-392 and src/client/read.rs:14-21. -/
def NetAct (α : Type) := NetWorld → Except Stop α × NetWorld

/-- `;` and `.await` in the `async fn`s of src/client.rs:262-392. -/
instance : Monad NetAct where
  pure a := fun n => (.ok a, n)
  bind x f := fun n =>
    match x n with
    | (.ok a, n') => f a n'
    | (.error e, n') => (.error e, n')

/-- The parts of the `async fn`s of src/client.rs:262-392 that do not read. -/
def io {α : Type} (x : Act α) : NetAct α := fun n =>
  match x n.world with
  | (r, w) => (r, { n with world := w })

/-- `fut.timeout(duration)` (src/client/util.rs:8-15), as `withTimeout`. -/
def netTimeout {α : Type} (_duration : Nat) (fut : NetAct α) : NetAct (Except Unit α) := fun n =>
  match fut n with
  | (.ok a, n') => (.ok (.ok a), n')
  | (.error (.elapsed 0), n') => (.ok (.error ()), n')
  | (.error (.elapsed (k + 1)), n') => (.error (.elapsed k), n')
  | (.error e, n') => (.error e, n')

/-- `self.reader.next().await` (src/client/read.rs:15): poll until there is an item. -/
def pollLoop : List Wait → Reader → List Net →
    Except Stop (Option (Except IoError Bytes)) × Reader × List Net × List Wait
  | [], r, net =>
    match r.poll net with
    | ⟨.ready i, r, net⟩ => (.ok i, r, net, [])
    | ⟨.pending, r, net⟩ => (.error .dropped, r, net, [])
  | w :: waits, r, net =>
    match r.poll net with
    | ⟨.ready i, r, net⟩ => (.ok i, r, net, w :: waits)
    | ⟨.pending, r, net⟩ =>
      match w with
      | .again => pollLoop waits r net
      | .elapsed k => (.error (.elapsed k), r, net, waits)
      | .dropped => (.error .dropped, r, net, waits)

/-- `self.reader.next().await` (src/client/read.rs:15). -/
def netPoll : NetAct (Option (Except IoError Bytes)) := fun n =>
  match pollLoop n.waits n.reader n.net with
  | (i, r, net, waits) => (i, { n with reader := r, net := net, waits := waits })

/-- `self.reader.next().await` (src/client/read.rs:15), with the bookkeeping of `readerNext`. -/
def netReaderNext : NetAct (Option (Except IoError Bytes)) := do
  match ← netPoll with
  | some (.ok s) => do
    io (emit (.took s))
    return some (.ok s)
  | some (.error e) => return some (.error e)
  | none => do
    io (setClosed true)
    return none

/-- `split(stream)` (src/client.rs:268, 305, 407-414): a new reader, on the connection that was opened last. -/
def newReader : NetAct Unit := fun n =>
  (.ok (), { n with reader := .new, net := n.conns.head?.getD [], conns := n.conns.tail })

/-- `(self.reader, self.writer) = split(stream)` (src/client.rs:305, 407-414). -/
def netUseStream : NetAct Unit := do
  io (emit .connected)
  newReader
  io (setClosed false)

/-- `Client::recv` (src/client/read.rs:14-21). -/
def netRecv (b : Build) : NetAct (Except RecvError MsgOwned) := do
  match ← netReaderNext with
  | some (.ok message) =>
    match ← io (lift (MsgOwned.parse b message)) with
    | some m => return .ok m
    | none => return .error (.parse message)
  | some (.error e) => return .error (.io e)
  | none => return .error .streamClosed

/-- `self.recv().timeout(Duration::from_secs(5)).await??` in `handshake`.  src/client.rs:347 and 365. -/
def netRecvReply (b : Build) : NetAct (Except ConnectError MsgOwned) := do
  match ← netTimeout 5000000000 (netRecv b) with
  | .error () => return .error .timeout
  | .ok (.error e) => return .error (.read e)
  | .ok (.ok m) => return .ok m

/-- The part of `handshake` after the flush (src/client.rs:346-391). -/
def netAwaitWelcome (b : Build) : NetAct (Except ConnectError Unit) := do
  match ← netRecvReply b with
  | .error e => return .error e
  | .ok m =>
    match ← io (lift (checkCap m)) with
    | some e => return .error e
    | none =>
      match ← netRecvReply b with
      | .error e => return .error e
      | .ok m =>
        match ← io (lift (checkWelcome m)) with
        | some e => return .error e
        | none => return .ok ()

/-- `Client::handshake` (src/client.rs:321-392). -/
def netHandshake (b : Build) : NetAct (Except ConnectError Unit) := do
  let c ← io getClient
  let scratch := c.scratch ++ helloText c.config.credentials
  io (setScratch scratch)
  match ← io (writeAll scratch) with
  | .error e => return .error (.io e)
  | .ok () =>
    match ← io flush with
    | .error e => return .error (.io e)
    | .ok () => do
      io (setScratch [])
      netAwaitWelcome b

/-- `Client::connect` (src/client.rs:262-278). -/
def netConnect (b : Build) (config : Config) : NetAct (Except ConnectError Unit) := do
  match ← io next with
  | .tlsLoaded =>
    match ← netTimeout config.timeout (io openStream) with
    | .error () => return .error .timeout
    | .ok (.error e) => return .error (.open_ e)
    | .ok (.ok ()) => do
      io (emit .connected)
      newReader
      io (setClient ⟨false, [], config⟩)
      match ← netTimeout config.timeout (netHandshake b) with
      | .error () => return .error .timeout
      | .ok r => return r
  | .tlsFailed => return .error .tls
  | _ => io (stop .dropped)

/-- The loop of `Client::reconnect` (src/client.rs:289-318), with `fuel` as in `reconnectLoop`. -/
def netReconnectLoop (b : Build) (config : Config) :
    (fuel : Nat) → (tries : Option Nat) → (delay : Nat) → (cause : ConnectError) →
    NetAct (Except ConnectError Unit)
  | 0, _, _, _ => io (stop (.panic .diverge))
  | fuel + 1, tries, delay, cause =>
    if tries = some 0 then pure (.error cause)
    else do
      io (sleep delay)
      let delay' ← io (lift (mulDuration delay config.backoff.delayMultiplier))
      let delay' := min config.backoff.maxDelay delay'
      let tries' := tries.map (· - 1)
      match ← netTimeout config.timeout (io openStream) with
      | .error () => return .error .timeout
      | .ok (.error e) => netReconnectLoop b config fuel tries' delay' (.open_ e)
      | .ok (.ok ()) => do
        netUseStream
        match ← netTimeout config.timeout (netHandshake b) with
        | .error () => return .error .timeout
        | .ok (.error e) =>
          if e.shouldRetry then netReconnectLoop b config fuel tries' delay' e
          else return .error e
        | .ok (.ok ()) => return .ok ()

/-- `Client::reconnect` (src/client.rs:281-319); the `ReconnectError` is given by its cause. -/
def netReconnect (b : Build) : NetAct (Except ConnectError Unit) := fun n =>
  let config := n.world.client.config
  netReconnectLoop b config (n.world.script.length + 1) config.backoff.maxTries config.backoff.initialDelay
    .timeout n

end Tmi.Model
