/-
The functions of src/client.rs that have deadlines, with a clock.

`Model/Client.lean` lets a deadline pass at any await point (`Answer.elapsed`).  Here it passes when its time
has come: a wait is given how long it would take and how it would end, and the timers of the enclosing
`timeout`s decide whether it comes to that.  Proofs/Timed.lean shows that every run of these functions is a run
of the functions of `Model/Client.lean`.

Simplifications: computing takes no time, times are natural numbers of nanoseconds, timers are exact and never
overflow (tokio rounds to milliseconds and caps deadlines at 30 years).
-/
import Verif.Model.Client

namespace Tmi.Model

/-- How a wait would end, if no timer fires before.  The await points of src/client.rs:262-392. -/
inductive WaitEnd where
  /-- the awaited operation ends -/
  | answer (a : Answer)
  /-- the caller drops the future -/
  | drop
deriving DecidableEq, Repr

/-- The environment of the calls of src/client.rs:262-392, with a clock. -/
structure TWorld where
  client : Client
  /-- what the world has seen so far, oldest first -/
  log : List Effect
  /-- the present time -/
  now : Nat
  /-- the deadlines of the enclosing `timeout`s, innermost first -/
  deadlines : List Nat
  /-- for each of the waits to come, how long it takes and how it ends; after them nothing ever happens -/
  waits : List (Nat × WaitEnd)
deriving DecidableEq, Repr

/-- Why a future stopped without a result.
The ends of the futures of src/client.rs:262-392 other than by returning. -/
inductive TStop where
  /-- dropped by the caller -/
  | dropped
  /-- it waits for ever -/
  | pending
  /-- dropped by the `timeout` that many layers up -/
  | elapsed (layer : Nat)
  | panic (f : Fault)
deriving DecidableEq, Repr

/-- The `async fn`s of src/client.rs:262-392, with a clock. -/
def TAct (α : Type) := TWorld → Except TStop α × TWorld

/-- `;` and `.await` in the `async fn`s of src/client.rs:262-392. -/
instance : Monad TAct where
  pure a := fun w => (.ok a, w)
  bind x f := fun w =>
    match x w with
    | (.ok a, w') => f a w'
    | (.error e, w') => (.error e, w')

namespace Timed

/-- See `Model.stop` (src/client.rs:262-392). -/
def stop {α : Type} (e : TStop) : TAct α := fun w => (.error e, w)

/-- See `Model.emit` (src/client.rs:262-392). -/
def emit (e : Effect) : TAct Unit := fun w => (.ok (), { w with log := w.log ++ [e] })

/-- See `Model.getClient` (src/client.rs:324). -/
def getClient : TAct Client := fun w => (.ok w.client, w)
/-- See `Model.setClient` (src/client.rs:269-275). -/
def setClient (c : Client) : TAct Unit := fun w => (.ok (), { w with client := c })
/-- See `Model.setScratch` (src/client.rs:327-344). -/
def setScratch (s : Bytes) : TAct Unit := fun w =>
  (.ok (), { w with client := { w.client with scratch := s } })
/-- See `Model.setClosed` (src/client/read.rs:10). -/
def setClosed (c : Bool) : TAct Unit := fun w =>
  (.ok (), { w with client := { w.client with closed := c } })

/-- Lift a computation that may panic.  See `Model.lift` (src/client/read.rs:17, src/client.rs:350-389). -/
def lift {α : Type} : R α → TAct α
  | .ok a => pure a
  | .error f => stop (.panic f)

/-- The earliest deadline, with its layer; of equal ones the innermost.
For the nested `timeout`s of src/client.rs:267, 276, 297, 307, 347, 365. -/
def earliest : List Nat → Option (Nat × Nat)
  | [] => none
  | d :: ds =>
    match earliest ds with
    | none => some (0, d)
    | some (k, e) => if d ≤ e then some (0, d) else some (k + 1, e)

/-- The timer that fires before time `t`.  At the same time the awaited operation wins, because
`tokio::time::Timeout` polls it first.  For the nested `timeout`s of src/client.rs:267, 276, 297, 307, 347, 365. -/
def fires (deadlines : List Nat) (t : Nat) : Option (Nat × Nat) :=
  match earliest deadlines with
  | some (k, d) => if d < t then some (k, d) else none
  | none => none

/-- Wait for the next answer.  Every `.await` of src/client.rs:262-392 and src/client/read.rs:15. -/
def next : TAct Answer := fun w =>
  match w.waits with
  | [] =>
    match earliest w.deadlines with
    | some (k, d) => (.error (.elapsed k), { w with now := max w.now d })
    | none => (.error .pending, w)
  | (dt, ev) :: rest =>
    match fires w.deadlines (w.now + dt) with
    | some (k, d) => (.error (.elapsed k), { w with now := max w.now d, waits := rest })
    | none =>
      match ev with
      | .drop | .answer (.elapsed _) => (.error .dropped, { w with now := w.now + dt, waits := rest })
      | .answer a => (.ok a, { w with now := w.now + dt, waits := rest })

/-- `fut.timeout(duration)` (src/client/util.rs:8-15). -/
def withTimeout {α : Type} (duration : Nat) (fut : TAct α) : TAct (Except Unit α) := fun w =>
  let (r, w') := fut { w with deadlines := (w.now + duration) :: w.deadlines }
  let w' := { w' with deadlines := w.deadlines }
  match r with
  | .ok a => (.ok (.ok a), w')
  | .error (.elapsed 0) => (.ok (.error ()), w')
  | .error (.elapsed (n + 1)) => (.error (.elapsed n), w')
  | .error e => (.error e, w')

/-- `write_all`; see `Model.writeLoop`.  src/client.rs:342. -/
def writeLoop : (rounds : Nat) → (data : Bytes) → TAct (Except IoError Unit)
  | 0, _ => pure (.ok ())
  | rounds + 1, data =>
    if data = [] then pure (.ok ())
    else do
      match ← next with
      | .accept n =>
        if n = 0 then return .error ⟨.writeZero, 0⟩
        else do
          emit (.wrote (data.take n))
          writeLoop rounds (data.drop n)
      | .writeFailed e => return .error e
      | _ => stop .dropped

/-- `write_all`; see `Model.writeAll` (src/client.rs:342). -/
def writeAll (data : Bytes) : TAct (Except IoError Unit) := writeLoop data.length data

/-- `flush`.  src/client.rs:343. -/
def flush : TAct (Except IoError Unit) := do
  match ← next with
  | .flushed => do
    emit .flush
    return .ok ()
  | .flushFailed e => return .error e
  | _ => stop .dropped

/-- `self.reader.next()`; see `Model.readerNext`.  src/client/read.rs:15. -/
def readerNext : TAct (Option (Except IoError Bytes)) := do
  let c ← getClient
  if c.closed then return none
  else do
    match ← next with
    | .line s => do
      emit (.took s)
      return some (.ok s)
    | .readFailed e => return some (.error e)
    | .eof => do
      setClosed true
      return none
    | _ => stop .dropped

/-- When the caller drops a `sleep` before its end.  For src/client.rs:290. -/
def dropsAt (nanos : Nat) : List (Nat × WaitEnd) → Option Nat
  | (dt, .drop) :: _ => if dt < nanos then some dt else none
  | _ => none

/-- `tokio::time::sleep`: ends after exactly that time, unless the caller drops the future or an enclosing
timer fires before.  src/client.rs:290. -/
def sleep (nanos : Nat) : TAct Unit := fun w =>
  let w := { w with log := w.log ++ [Effect.sleep nanos] }
  match fires w.deadlines (w.now + (dropsAt nanos w.waits).getD nanos) with
  | some (k, d) => (.error (.elapsed k), { w with now := max w.now d, waits := w.waits.tail })
  | none =>
    match dropsAt nanos w.waits with
    | some dt => (.error .dropped, { w with now := w.now + dt, waits := w.waits.tail })
    | none => (.ok (), { w with now := w.now + nanos, waits := w.waits.tail })

/-- `conn::open` (src/client/conn.rs:14-24). -/
def openStream : TAct (Except IoError Unit) := do
  emit .open_
  match ← next with
  | .opened => return .ok ()
  | .openFailed e => return .error e
  | _ => stop .dropped

/-- `(self.reader, self.writer) = split(stream)` (src/client.rs:305). -/
def useStream : TAct Unit := do
  emit .connected
  setClosed false

/-- `Client::recv` (src/client/read.rs:14-21). -/
def recv (b : Build) : TAct (Except RecvError MsgOwned) := do
  match ← readerNext with
  | some (.ok message) =>
    match ← lift (MsgOwned.parse b message) with
    | some m => return .ok m
    | none => return .error (.parse message)
  | some (.error e) => return .error (.io e)
  | none => return .error .streamClosed

/-- `self.recv().timeout(Duration::from_secs(5)).await??` (src/client.rs:347, 365). -/
def recvReply (b : Build) : TAct (Except ConnectError MsgOwned) := do
  match ← withTimeout 5000000000 (recv b) with
  | .error () => return .error .timeout
  | .ok (.error e) => return .error (.read e)
  | .ok (.ok m) => return .ok m

/-- The part of `handshake` after the flush (src/client.rs:346-391). -/
def awaitWelcome (b : Build) : TAct (Except ConnectError Unit) := do
  match ← recvReply b with
  | .error e => return .error e
  | .ok m =>
    match ← lift (checkCap m) with
    | some e => return .error e
    | none =>
      match ← recvReply b with
      | .error e => return .error e
      | .ok m =>
        match ← lift (checkWelcome m) with
        | some e => return .error e
        | none => return .ok ()

/-- `Client::handshake` (src/client.rs:321-392). -/
def handshake (b : Build) : TAct (Except ConnectError Unit) := do
  let c ← getClient
  let scratch := c.scratch ++ helloText c.config.credentials
  setScratch scratch
  match ← writeAll scratch with
  | .error e => return .error (.io e)
  | .ok () =>
    match ← flush with
    | .error e => return .error (.io e)
    | .ok () => do
      setScratch []
      awaitWelcome b

/-- `Client::connect` (src/client.rs:262-278).  Loading the TLS configuration is not under a deadline. -/
def connect (b : Build) (config : Config) : TAct (Except ConnectError Unit) := do
  match ← next with
  | .tlsLoaded =>
    match ← withTimeout config.timeout openStream with
    | .error () => return .error .timeout
    | .ok (.error e) => return .error (.open_ e)
    | .ok (.ok ()) => do
      emit .connected
      setClient ⟨false, [], config⟩
      match ← withTimeout config.timeout (handshake b) with
      | .error () => return .error .timeout
      | .ok r => return r
  | .tlsFailed => return .error .tls
  | _ => stop .dropped

/-- The loop of `Client::reconnect` (src/client.rs:289-318).  `fuel` bounds the number of iterations. -/
def reconnectLoop (b : Build) (config : Config) :
    (fuel : Nat) → (tries : Option Nat) → (delay : Nat) → (cause : ConnectError) →
    TAct (Except ConnectError Unit)
  | 0, _, _, _ => stop (.panic .diverge)
  | fuel + 1, tries, delay, cause =>
    if tries = some 0 then pure (.error cause)
    else do
      sleep delay
      let delay' ← lift (mulDuration delay config.backoff.delayMultiplier)
      let delay' := min config.backoff.maxDelay delay'
      let tries' := tries.map (· - 1)
      match ← withTimeout config.timeout openStream with
      | .error () => return .error .timeout
      | .ok (.error e) => reconnectLoop b config fuel tries' delay' (.open_ e)
      | .ok (.ok ()) => do
        useStream
        match ← withTimeout config.timeout (handshake b) with
        | .error () => return .error .timeout
        | .ok (.error e) =>
          if e.shouldRetry then reconnectLoop b config fuel tries' delay' e
          else return .error e
        | .ok (.ok ()) => return .ok ()

/-- `Client::reconnect` (src/client.rs:281-319).  Every iteration but the last takes at least one of the waits
to come, so that is enough fuel. -/
def reconnect (b : Build) : TAct (Except ConnectError Unit) := fun w =>
  let config := w.client.config
  reconnectLoop b config (w.waits.length + 1) config.backoff.maxTries config.backoff.initialDelay
    .timeout w

end Timed

end Tmi.Model
