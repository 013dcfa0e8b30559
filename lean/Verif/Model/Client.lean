/-
Model of src/client.rs, src/client/{read,write,macros,conn,util}.rs and src/common.rs (`Join`).

An `async` function is modelled together with the executor and the network: a *script* lists what
happens at its await points, in order.  Running out of script means that the future is dropped while it
waits.  A theorem about all scripts is a theorem about all outcomes of all I/O operations, all
deadlines and all points at which the caller may cancel the call.
-/
import Verif.Model.Msg

namespace Tmi.Model

/-! ### The world outside -/

/-- `io::ErrorKind`: the kinds that the client distinguishes and those that say that a connection is lost.
Used by src/client/read.rs:39-52. -/
inductive IoKind where
  | unexpectedEof | connectionAborted | timedOut | writeZero | invalidData
  | connectionReset | brokenPipe | notConnected
  | other (code : Nat)
deriving DecidableEq, Repr

/-- `io::Error`, by its kind and an opaque identity.
The `io::Error` of src/client.rs:458, src/client/read.rs:26-35 and src/client/write.rs:192-201. -/
structure IoError where
  kind : IoKind
  id : Nat
deriving DecidableEq, Repr

/-- What happens at an await point (or, for `tls*`, at a system call).
The await points of src/client.rs:262-392, src/client/read.rs:14-21 and src/client/write.rs:80-89. -/
inductive Answer where
  /-- `rustls_native_certs` etc. succeeded or failed -/
  | tlsLoaded | tlsFailed
  /-- the timer of `sleep` fired -/
  | slept
  /-- the TCP and TLS connection was established, or not -/
  | opened | openFailed (e : IoError)
  /-- the socket accepted `n` more bytes, or failed -/
  | accept (n : Nat) | writeFailed (e : IoError)
  /-- the socket was flushed, or failed -/
  | flushed | flushFailed (e : IoError)
  /-- the reader produced a line (without its terminator), failed, or reached the end -/
  | line (s : Bytes) | readFailed (e : IoError) | eof
  /-- nothing happened before the deadline of an enclosing `timeout`; layer 0 is the innermost -/
  | elapsed (layer : Nat)
deriving DecidableEq, Repr

/-- What the world sees of the client.
What src/client.rs:262-392, src/client/read.rs:14-21 and src/client/write.rs:80-89 do to the outside. -/
inductive Effect where
  /-- started to wait for that many nanoseconds -/
  | sleep (nanos : Nat)
  /-- started to open a connection -/
  | open_
  /-- a new connection became the current one -/
  | connected
  /-- these bytes were accepted by the socket of the current connection -/
  | wrote (bs : Bytes)
  /-- the socket was flushed -/
  | flush
  /-- a line was taken from the current connection -/
  | took (s : Bytes)
deriving DecidableEq, Repr

/-! ### The client's data -/

/-- `Credentials` (src/client.rs:79-82). -/
structure Credentials where
  login : Bytes
  token : Option Bytes
deriving DecidableEq, Repr

/-- `Backoff` (src/client.rs:146-159).  Durations are in nanoseconds. -/
structure Backoff where
  maxTries : Option Nat
  initialDelay : Nat
  delayMultiplier : Nat
  maxDelay : Nat
deriving DecidableEq, Repr

/-- `Config` (src/client.rs:174-183). -/
structure Config where
  credentials : Credentials
  timeout : Nat
  backoff : Backoff
deriving DecidableEq, Repr

/-- `Client` (src/client.rs:239-246).  `reader` and `writer` always belong to the connection opened
last; of the reader the model keeps whether its `Fuse` has seen the end of the stream.  The TLS
configuration is left out. -/
structure Client where
  closed : Bool
  scratch : Bytes
  config : Config
deriving DecidableEq, Repr

/-- The environment of the calls of src/client.rs:262-392; no code of its own. -/
structure World where
  client : Client
  /-- what the world has seen so far, oldest first -/
  log : List Effect
  /-- what will happen -/
  script : List Answer
deriving DecidableEq, Repr

/-- Why a future stopped without a result.
The ends of the futures of src/client.rs:262-392 other than by returning. -/
inductive Stop where
  /-- dropped by the caller -/
  | dropped
  /-- dropped by the `timeout` that many layers up -/
  | elapsed (layer : Nat)
  | panic (f : Fault)
deriving DecidableEq, Repr

/-- An `async` computation.
The `async fn`s of src/client.rs:262-392, src/client/read.rs:14-21 and src/client/write.rs:80-175. -/
def Act (α : Type) := World → Except Stop α × World

/-- `;` and `.await` in the `async fn`s of src/client.rs:262-392. -/
instance : Monad Act where
  pure a := fun w => (.ok a, w)
  bind x f := fun w =>
    match x w with
    | (.ok a, w') => f a w'
    | (.error e, w') => (.error e, w')

/-- A future that ends without returning (src/client.rs:262-392). -/
def stop {α : Type} (e : Stop) : Act α := fun w => (.error e, w)

/-- A visible step of the `async fn`s of src/client.rs:262-392. -/
def emit (e : Effect) : Act Unit := fun w => (.ok (), { w with log := w.log ++ [e] })

/-- Wait for the next answer.
Every `.await` of src/client.rs:262-392, src/client/read.rs:15 and src/client/write.rs:87. -/
def next : Act Answer := fun w =>
  match w.script with
  | [] => (.error .dropped, w)
  | .elapsed n :: rest => (.error (.elapsed n), { w with script := rest })
  | a :: rest => (.ok a, { w with script := rest })

/-- Reading `self` (src/client.rs:324). -/
def getClient : Act Client := fun w => (.ok w.client, w)
/-- Writing `self.scratch` (src/client.rs:327-344, src/client/macros.rs:7-8). -/
def setScratch (s : Bytes) : Act Unit := fun w =>
  (.ok (), { w with client := { w.client with scratch := s } })
/-- The state inside the `Fuse` (src/client/read.rs:10). -/
def setClosed (c : Bool) : Act Unit := fun w =>
  (.ok (), { w with client := { w.client with closed := c } })

/-- `let mut client = Client { .. }` (src/client.rs:269-275). -/
def setClient (c : Client) : Act Unit := fun w => (.ok (), { w with client := c })

/-- Lift a computation that may panic.
Calls of `IrcMessage::parse` and of accessors (src/client/read.rs:17, src/client.rs:350-389). -/
def lift {α : Type} : R α → Act α
  | .ok a => pure a
  | .error f => stop (.panic f)

/-- `fut.timeout(duration)` (src/client/util.rs:8-15), i.e. `tokio::time::timeout`: drops `fut` and
returns `Elapsed` when the deadline passes while it waits. -/
def withTimeout {α : Type} (_duration : Nat) (fut : Act α) : Act (Except Unit α) := fun w =>
  match fut w with
  | (.ok a, w') => (.ok (.ok a), w')
  | (.error (.elapsed 0), w') => (.ok (.error ()), w')
  | (.error (.elapsed (n + 1)), w') => (.error (.elapsed n), w')
  | (.error e, w') => (.error e, w')

/-! ### I/O primitives of tokio -/

/-- The loop of `write_all`.  Every round writes at least one byte, so `data.length` rounds suffice.
Called at src/client.rs:342 and src/client/write.rs:87. -/
def writeLoop : (rounds : Nat) → (data : Bytes) → Act (Except IoError Unit)
  | 0, _ => pure (.ok ())
  | rounds + 1, data =>
    if data = [] then pure (.ok ())
    else do
      match ← next with
      | .accept n =>
        if n = 0 then return .error ⟨.writeZero, 0⟩
        else do
          emit (.wrote (data.take n))
          writeLoop rounds (data.drop n)
      | .writeFailed e => return .error e
      | _ => stop .dropped

/-- `AsyncWriteExt::write_all`: write until everything is accepted; a write of zero bytes is an
error.  Called at src/client.rs:342 and src/client/write.rs:87. -/
def writeAll (data : Bytes) : Act (Except IoError Unit) := writeLoop data.length data

/-- `AsyncWriteExt::flush`.  Called at src/client.rs:343. -/
def flush : Act (Except IoError Unit) := do
  match ← next with
  | .flushed => do
    emit .flush
    return .ok ()
  | .flushFailed e => return .error e
  | _ => stop .dropped

/-- `self.reader.next()`, a `Fuse<LinesStream<..>>` (src/client/read.rs:10, src/client.rs:407-414):
after the end of the stream it is not polled again. -/
def readerNext : Act (Option (Except IoError Bytes)) := do
  let c ← getClient
  if c.closed then return none
  else do
    match ← next with
    | .line s => do
      emit (.took s)
      return some (.ok s)
    | .readFailed e => return some (.error e)
    | .eof => do
      setClosed true
      return none
    | _ => stop .dropped

/-- `tokio::time::sleep`.  Called at src/client.rs:290. -/
def sleep (nanos : Nat) : Act Unit := do
  emit (.sleep nanos)
  match ← next with
  | .slept => return ()
  | _ => stop .dropped

/-- `conn::open` (src/client/conn.rs:14-24). -/
def openStream : Act (Except IoError Unit) := do
  emit .open_
  match ← next with
  | .opened => return .ok ()
  | .openFailed e => return .error e
  | _ => stop .dropped

/-- `(self.reader, self.writer) = split(stream)` (src/client.rs:305, 407-414). -/
def useStream : Act Unit := do
  emit .connected
  setClosed false

/-! ### Receiving (src/client/read.rs) -/

/-- `RecvError` (src/client/read.rs:26-35). -/
inductive RecvError where
  | io (e : IoError)
  | parse (s : Bytes)
  | streamClosed
deriving DecidableEq, Repr

/-- `RecvError::is_disconnect` (src/client/read.rs:39-52). -/
def RecvError.isDisconnect : RecvError → Bool
  | .streamClosed => true
  | .io e =>
    match e.kind with
    | .unexpectedEof | .connectionAborted | .timedOut => true
    | _ => false
  | .parse _ => false

/-- `Client::recv` (src/client/read.rs:14-21).  The build `b` carries the address at which the line is
copied, which may differ from call to call; by C15 the result does not depend on it. -/
def recv (b : Build) : Act (Except RecvError MsgOwned) := do
  match ← readerNext with
  | some (.ok message) =>
    match ← lift (MsgOwned.parse b message) with
    | some m => return .ok m
    | none => return .error (.parse message)
  | some (.error e) => return .error (.io e)
  | none => return .error .streamClosed

/-! ### Sending (src/client/write.rs) -/

/-- `SendError` (src/client/write.rs:192-201). -/
inductive SendError where
  | io (e : IoError)
  | streamClosed
  | invalidMessage
deriving DecidableEq, Repr

/-- `str::ends_with`.  Called at src/client/write.rs:283. -/
def endsWith (suffix s : Bytes) : Bool := suffix.isSuffixOf s

/-- `TryFrom<&str> for RawMessage` (src/client/write.rs:279-288). -/
def rawMessage (data : Bytes) : Option Bytes :=
  if endsWith [CR, LF] data then some data else none

/-- `Client::send_raw` (src/client/write.rs:80-89). -/
def sendRaw (s : Bytes) : Act (Except SendError Unit) := do
  match rawMessage s with
  | none => return .error .invalidMessage
  | some data =>
    match ← writeAll data with
    | .error e => return .error (.io e)
    | .ok () => return .ok ()

/-- `std::mem::take(&mut client.scratch)`.  src/client/macros.rs:4. -/
def takeScratch : Act Bytes := fun w =>
  (.ok w.client.scratch, { w with client := { w.client with scratch := [] } })

/-- The macro `with_scratch!` (src/client/macros.rs:1-11).  When the future is dropped inside the body
the local buffer is lost and `client.scratch` stays empty. -/
def withScratch {α : Type} (body : Bytes → Act α) : Act α := do
  let scratch ← takeScratch
  let result ← body scratch
  setScratch []
  return result

/-- `Display for Channel` (src/client/write.rs:180-188). -/
def displayChannel (channel : Bytes) : Bytes :=
  if !startsWith HASH channel then HASH :: channel else channel

/-- `Join` (src/common.rs:53): the cell that holds the iterator, and the separator.  Iterators are
lists, items and separators are the strings their (infallible) `Display` writes. -/
structure JoinCell where
  iter : Option (List Bytes)
  sep : Bytes
deriving DecidableEq, Repr

/-- The loop of `Display for Join` (src/common.rs:69-76). -/
def joinLoop (sep : Bytes) : List Bytes → Bytes
  | [] => []
  | item :: rest => item ++ (if !rest.isEmpty then sep else []) ++ joinLoop sep rest

/-- `Display for Join` (src/common.rs:55-78): the written text (`none`: `fmt::Error`), and the cell
afterwards. -/
def JoinCell.fmt (j : JoinCell) : Option Bytes × JoinCell :=
  match j.iter with
  | none => (none, j)
  | some iter => (some (joinLoop j.sep iter), { j with iter := none })

/-- `JoinIter::join` (src/common.rs:81-92). -/
def joinIter (iter : List Bytes) (sep : Bytes) : JoinCell := ⟨some iter, sep⟩

/-- `Display for Tag` (src/client/write.rs:23-29). -/
def displayTag (key value : Bytes) : Bytes := key ++ [EQS] ++ value

/-- The text that `Privmsg::send` appends to the buffer (src/client/write.rs:52-68).  `write!` stops at
the first error, after the text written before it. -/
def privmsgText (channel text : Bytes) (replyTo nonce : Option Bytes) : Bytes :=
  (if replyTo.isSome || nonce.isSome then
    let replyTo := replyTo.map (displayTag (b!"reply-parent-msg-id"))
    let nonce := nonce.map (displayTag (b!"client-nonce"))
    match (joinIter (replyTo.toList ++ nonce.toList) [SEMI]).fmt.1 with
    | some tags => [AT] ++ tags ++ [SP]
    | none => [AT]
  else [])
  ++ (b!"PRIVMSG " ++ channel ++ b!" :" ++ text ++ [CR, LF])

/-- `Privmsg::send` (src/client/write.rs:42-71). -/
def privmsg (channel text : Bytes) (replyTo nonce : Option Bytes) : Act (Except SendError Unit) :=
  withScratch fun f => sendRaw (f ++ privmsgText channel text replyTo nonce)

/-- `Client::ping` (src/client/write.rs:120-125). -/
def ping (nonce : Bytes) : Act (Except SendError Unit) :=
  withScratch fun f => sendRaw (f ++ (b!"PING :" ++ nonce ++ [CR, LF]))

/-- `Client::pong` (src/client/write.rs:128-137). -/
def pong (p : Ping) : Act (Except SendError Unit) :=
  withScratch fun f => sendRaw (f ++
    (match p.nonce with
    | some nonce => b!"PONG :" ++ nonce ++ [CR, LF]
    | none => b!"PONG" ++ [CR, LF]))

/-- `Client::join` (src/client/write.rs:144-150).  The `?` leaves the function before the buffer is put
back; it then stays empty. -/
def joinChannel (channel : Bytes) : Act (Except SendError Unit) := do
  let f ← takeScratch
  match ← sendRaw (f ++ (b!"JOIN " ++ displayChannel channel ++ [CR, LF])) with
  | .error e => return .error e
  | .ok () => do
    setScratch []
    return .ok ()

/-- The text that `join_all` appends to the buffer (src/client/write.rs:163-172). -/
def joinAllText (channels : List Bytes) : Bytes :=
  b!"JOIN " ++
  (match channels.map displayChannel with
   | [] => []
   | channel :: rest => channel ++ rest.flatMap fun c => COMMA :: c) ++ [CR, LF]

/-- `Client::join_all` (src/client/write.rs:158-175). -/
def joinAll (channels : List Bytes) : Act (Except SendError Unit) :=
  withScratch fun f => sendRaw (f ++ joinAllText channels)

/-- `SameMessageBypass` (src/client/write.rs:236-240). -/
structure SameMessageBypass where
  append : Bool
deriving DecidableEq, Repr

/-- `SameMessageBypass::default` (src/client/write.rs:258-263). -/
def SameMessageBypass.default : SameMessageBypass := ⟨false⟩

/-- `SameMessageBypass::get` (src/client/write.rs:246-255): the string, and the new state. -/
def SameMessageBypass.get (s : SameMessageBypass) : Bytes × SameMessageBypass :=
  (match s.append with
   | false => []
   | true => b!" " ++ b!"⠀", ⟨!s.append⟩)

/-! ### Connecting (src/client.rs) -/

/-- `ConnectError` (src/client.rs:453-480); `Dns`, which cannot occur for the constant host name, is
left out. -/
inductive ConnectError where
  | read (e : RecvError)
  | io (e : IoError)
  | tls
  | open_ (e : IoError)
  | timeout
  | welcome (m : MsgOwned)
  | auth
  | notice (m : MsgOwned)
deriving DecidableEq, Repr

/-- `ConnectError::should_retry` (src/client.rs:483-485). -/
def ConnectError.shouldRetry : ConnectError → Bool
  | .open_ _ => true
  | .io _ => true
  | _ => false

/-- `str::starts_with` for a string.  Called at src/client.rs:334 and 352. -/
def hasPrefix (pre s : Bytes) : Bool := pre.isPrefixOf s

/-- `str::contains` for a string.  Called at src/client.rs:375. -/
def containsStr (needle : Bytes) : Bytes → Bool
  | [] => needle.isEmpty
  | c :: t => hasPrefix needle (c :: t) || containsStr needle t

/-- The text that `handshake` appends to the buffer (src/client.rs:324-340). -/
def helloText (credentials : Credentials) : Bytes :=
  let login := credentials.login
  let token := match credentials.token with
    | some token => token
    | none => b!"just_a_lil_guy"
  let oauth := if hasPrefix (b!"oauth:") token then [] else b!"oauth:"
  (b!"CAP REQ :" ++ b!"twitch.tv/commands twitch.tv/tags twitch.tv/membership" ++ [CR, LF])
    ++ (b!"PASS " ++ oauth ++ token ++ [CR, LF])
    ++ (b!"NICK " ++ login ++ [CR, LF])

/-- `self.recv().timeout(Duration::from_secs(5)).await??` in `handshake`.  src/client.rs:347 and 365. -/
def recvReply (b : Build) : Act (Except ConnectError MsgOwned) := do
  match ← withTimeout 5000000000 (recv b) with
  | .error () => return .error .timeout
  | .ok (.error e) => return .error (.read e)
  | .ok (.ok m) => return .ok m

/-- The first `match` of `handshake` (src/client.rs:350-362): `none` is success. -/
def checkCap (m : MsgOwned) : R (Option ConnectError) := do
  match ← m.command with
  | .capability =>
    match ← m.params with
    | some v => if hasPrefix (b!"* ACK") v then return none else return some .auth
    | none => return some .auth
  | _ => return some (.welcome m)

/-- The second `match` of `handshake` (src/client.rs:368-389): `none` is success. -/
def checkWelcome (m : MsgOwned) : R (Option ConnectError) := do
  match ← m.command with
  | .rplWelcome => return none
  | .notice =>
    match ← m.params with
    | some v =>
      if containsStr (b!"authentication failed") v then return some .auth
      else return some (.notice m)
    | none => return some (.notice m)
  | _ => return some (.welcome m)

/-- The part of `handshake` after the flush (src/client.rs:346-391). -/
def awaitWelcome (b : Build) : Act (Except ConnectError Unit) := do
  match ← recvReply b with
  | .error e => return .error e
  | .ok m =>
    match ← lift (checkCap m) with
    | some e => return .error e
    | none =>
      match ← recvReply b with
      | .error e => return .error e
      | .ok m =>
        match ← lift (checkWelcome m) with
        | some e => return .error e
        | none => return .ok ()

/-- `Client::handshake` (src/client.rs:321-392). -/
def handshake (b : Build) : Act (Except ConnectError Unit) := do
  let c ← getClient
  let scratch := c.scratch ++ helloText c.config.credentials
  setScratch scratch
  match ← writeAll scratch with
  | .error e => return .error (.io e)
  | .ok () =>
    match ← flush with
    | .error e => return .error (.io e)
    | .ok () => do
      setScratch []
      awaitWelcome b

/-- `Client::connect` (src/client.rs:262-278).  The world's client is the one being built. -/
def connect (b : Build) (config : Config) : Act (Except ConnectError Unit) := do
  match ← next with
  | .tlsLoaded =>
    match ← withTimeout config.timeout openStream with
    | .error () => return .error .timeout
    | .ok (.error e) => return .error (.open_ e)
    | .ok (.ok ()) => do
      emit .connected
      setClient ⟨false, [], config⟩
      match ← withTimeout config.timeout (handshake b) with
      | .error () => return .error .timeout
      | .ok r => return r
  | .tlsFailed => return .error .tls
  | _ => stop .dropped

/-- `Duration::MAX` in nanoseconds.  The bound of the multiplication at src/client.rs:294. -/
def maxDuration : Nat := (2 ^ 64 - 1) * 1000000000 + 999999999

/-- `delay * multiplier` for a `Duration`: panics on overflow in every build.  src/client.rs:294. -/
def mulDuration (delay multiplier : Nat) : R Nat :=
  if delay * multiplier ≤ maxDuration then .ok (delay * multiplier) else .error .overflow

/-- The loop of `Client::reconnect` (src/client.rs:289-318).  `fuel` bounds the number of iterations;
every iteration takes at least one answer from the script, so `reconnect` gives it enough. -/
def reconnectLoop (b : Build) (config : Config) :
    (fuel : Nat) → (tries : Option Nat) → (delay : Nat) → (cause : ConnectError) →
    Act (Except ConnectError Unit)
  | 0, _, _, _ => stop (.panic .diverge)
  | fuel + 1, tries, delay, cause =>
    if tries = some 0 then pure (.error cause)
    else do
      sleep delay
      let delay' ← lift (mulDuration delay config.backoff.delayMultiplier)
      let delay' := min config.backoff.maxDelay delay'
      let tries' := tries.map (· - 1)
      match ← withTimeout config.timeout openStream with
      | .error () => return .error .timeout
      | .ok (.error e) => reconnectLoop b config fuel tries' delay' (.open_ e)
      | .ok (.ok ()) => do
        useStream
        match ← withTimeout config.timeout (handshake b) with
        | .error () => return .error .timeout
        | .ok (.error e) =>
          if e.shouldRetry then reconnectLoop b config fuel tries' delay' e
          else return .error e
        | .ok (.ok ()) => return .ok ()

/-- `Client::reconnect` (src/client.rs:281-319); the `ReconnectError` is given by its cause. -/
def reconnect (b : Build) : Act (Except ConnectError Unit) := fun w =>
  let config := w.client.config
  reconnectLoop b config (w.script.length + 1) config.backoff.maxTries config.backoff.initialDelay
    .timeout w

/-! ### Credentials -/

/-- `Credentials::new` (src/client.rs:96-101). -/
def Credentials.new (login token : Bytes) : Credentials := ⟨login, some token⟩

/-- `Credentials::anon` (src/client.rs:111-116), with the number drawn from `ANON_RANGE`. -/
def Credentials.anon (n : Nat) : Credentials :=
  ⟨b!"justinfan" ++ (Nat.toDigits 10 n).map fun c => c.val.toUInt8, none⟩

/-- `Credentials::is_anon` (src/client.rs:118-120). -/
def Credentials.isAnon (c : Credentials) : Bool := c.token.isNone

/-- `Debug for Credentials` (src/client.rs:137-143), with `debugStr` the `Debug` of `str`. -/
def Credentials.debug (debugStr : Bytes → Bytes) (c : Credentials) : Bytes :=
  b!"Credentials { nick: " ++ debugStr c.login ++ b!", .. }"

/-! ### Histories -/

/-- A call of a sending method of `Client`.  The public methods of src/client/write.rs:42-175. -/
inductive Cmd where
  | privmsg (channel text : Bytes) (replyTo nonce : Option Bytes)
  | ping (nonce : Bytes)
  | pong (nonce : Option Bytes)
  | join (channel : Bytes)
  | joinAll (channels : List Bytes)
  | raw (s : Bytes)
deriving DecidableEq, Repr

/-- The method that is called.  src/client/write.rs:42-175. -/
def Cmd.send : Cmd → Act (Except SendError Unit)
  | .privmsg channel text replyTo nonce => Model.privmsg channel text replyTo nonce
  | .ping nonce => Model.ping nonce
  | .pong nonce => Model.pong ⟨nonce⟩
  | .join channel => joinChannel channel
  | .joinAll channels => Model.joinAll channels
  | .raw s => sendRaw s

end Tmi.Model
