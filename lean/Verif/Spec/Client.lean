/-
Specification of the client: the lines of the commands, the bytes on the wire, the replies of the
server, the delays between attempts.  Shared with the model: the record types and the alphabets of
answers (what the network does) and effects (what the network sees).
-/
import Verif.Spec.Msg
import Verif.Spec.Reads
import Verif.Model.Client

namespace Tmi.Spec
open Tmi.Model (Cmd Answer Effect IoError Credentials Backoff)

/-! ### Lines -/

/-- All lines of a script are strings of less than 4 GiB on which `parse` returns (C01 says which these are). -/
def AllParse (b : Tmi.Model.Build) (script : List Answer) : Prop := ∀ s, .line s ∈ script → Parses b s

/-- All lines of a script are readable. -/
def AllReadable (b : Tmi.Model.Build) (script : List Answer) : Prop := ∀ s, .line s ∈ script → Readable b s

/-- A channel name as it is sent: with a `#` in front unless it has one. -/
def channelName (c : Bytes) : Bytes := if c.head? = some HASH then c else HASH :: c

/-- The line of a command, without the terminator. -/
def commandLine : Cmd → Bytes
  | .privmsg ch text none none => b!"PRIVMSG " ++ ch ++ b!" :" ++ text
  | .privmsg ch text (some r) none =>
    b!"@reply-parent-msg-id=" ++ r ++ b!" PRIVMSG " ++ ch ++ b!" :" ++ text
  | .privmsg ch text none (some n) =>
    b!"@client-nonce=" ++ n ++ b!" PRIVMSG " ++ ch ++ b!" :" ++ text
  | .privmsg ch text (some r) (some n) =>
    b!"@reply-parent-msg-id=" ++ r ++ b!";client-nonce=" ++ n ++ b!" PRIVMSG " ++ ch ++ b!" :" ++ text
  | .ping n => b!"PING :" ++ n
  | .pong none => b!"PONG"
  | .pong (some n) => b!"PONG :" ++ n
  | .join c => b!"JOIN " ++ channelName c
  | .joinAll cs => b!"JOIN " ++ joinWith COMMA (cs.map channelName)
  | .raw s => s.take (s.length - 2)

/-- What a command puts on the wire; for `raw` it is the given string itself. -/
def commandBytes : Cmd → Bytes
  | .raw s => s
  | c => commandLine c ++ [CR, LF]

/-- The token as it is sent: with exactly one `oauth:` in front. -/
def passToken (t : Bytes) : Bytes := if b!"oauth:" <+: t then t else b!"oauth:" ++ t

/-- What the handshake puts on the wire. -/
def hello (c : Credentials) : Bytes :=
  b!"CAP REQ :twitch.tv/commands twitch.tv/tags twitch.tv/membership\r\n" ++
  b!"PASS " ++ passToken (c.token.getD (b!"just_a_lil_guy")) ++ b!"\r\n" ++
  b!"NICK " ++ c.login ++ b!"\r\n"

/-! ### Effects -/

/-- The bytes accepted by the socket. -/
def written : List Effect → Bytes
  | [] => []
  | .wrote bs :: r => bs ++ written r
  | _ :: r => written r

/-- Number of attempts to open a connection. -/
def opens (l : List Effect) : Nat := (l.filter (· == .open_)).length

/-- Number of connections on which the client started to talk. -/
def connections (l : List Effect) : Nat := (l.filter (· == .connected)).length

/-- What happened on the last connection. -/
def lastConnection (l : List Effect) : List Effect :=
  (l.reverse.takeWhile (· != .connected)).reverse

/-- The waits, in order. -/
def sleeps : List Effect → List Nat
  | [] => []
  | .sleep d :: r => d :: sleeps r
  | _ :: r => sleeps r

/-- The lines taken from the connection, in order. -/
def taken : List Effect → List Bytes
  | [] => []
  | .took s :: r => s :: taken r
  | _ :: r => taken r

/-! ### The network -/

/-- The network accepts all of `data`, in pieces of any positive sizes; `rest` happens after that. -/
inductive Accepts : (data : Bytes) → (script rest : List Answer) → Prop
  | done (rest : List Answer) : Accepts [] rest rest
  | more {data : Bytes} {n : Nat} {script rest : List Answer} (hd : data ≠ []) (hn : n ≠ 0)
      (h : Accepts (data.drop n) script rest) : Accepts data (.accept n :: script) rest

/-- The network accepts part of `data` and then fails with `e`. -/
inductive Rejects : (data : Bytes) → (script : List Answer) → (e : IoError) → (rest : List Answer) → Prop
  | now {data : Bytes} (e : IoError) (rest : List Answer) (hd : data ≠ []) :
      Rejects data (.writeFailed e :: rest) e rest
  | zero {data : Bytes} (rest : List Answer) (hd : data ≠ []) :
      Rejects data (.accept 0 :: rest) ⟨.writeZero, 0⟩ rest
  | more {data : Bytes} {n : Nat} {script rest : List Answer} {e : IoError} (hd : data ≠ [])
      (hn : n ≠ 0) (h : Rejects (data.drop n) script e rest) :
      Rejects data (.accept n :: script) e rest

/-! ### Delays -/

/-- The longest `Duration`: 2^64 - 1 seconds and 999999999 nanoseconds, in nanoseconds. -/
def durationMax : Nat := 2 ^ 64 * 10 ^ 9 - 1

/-- The delay before attempt number `k` (from 0). -/
def delay (c : Backoff) : Nat → Nat
  | 0 => c.initialDelay
  | k + 1 => min c.maxDelay (c.initialDelay * c.delayMultiplier ^ (k + 1))

/-! ### Replies -/

/-- The line is `CAP * ACK ...`. -/
def IsCapAck (l : Line) : Prop := l.command = b!"CAP" ∧ ∃ v, l.params = some v ∧ b!"* ACK" <+: v

/-- The line is the welcome message. -/
def IsWelcome (l : Line) : Prop := l.command = b!"001"

/-- The line is a notice about failed authentication. -/
def IsAuthNotice (l : Line) : Prop :=
  l.command = b!"NOTICE" ∧ ∃ v, l.params = some v ∧ b!"authentication failed" <:+: v

end Tmi.Spec

namespace Tmi.Spec
open Tmi.Model (Cmd Answer Effect Credentials)

/-! ### What a receiver sees -/

/-- A line without the `\r` before its terminator. -/
def stripCR (l : Bytes) : Bytes := if l.getLast? = some CR then l.dropLast else l

/-- The complete lines of a byte stream: the text before every `\n`. -/
def receivedLines (wire : Bytes) : List Bytes := ((fields LF wire).dropLast).map stripCR

/-- `n` copies of a string. -/
def copies (n : Nat) (s : Bytes) : Bytes := (List.replicate n s).flatten

end Tmi.Spec

namespace Tmi.Spec
open Tmi.Model (Cmd Answer World Build)

/-! ### Histories of calls on one client -/

/-- A call of a method of `Client`. -/
inductive Op where
  | send (c : Cmd)
  | recv (b : Build)
  | reconnect (b : Build)

/-- The call returned `Ok`. -/
def returnedOk {ε α β : Type} : Except ε (Except α β) → Bool
  | .ok (.ok _) => true
  | _ => false

/-- Make the call: did it return `Ok`, and the world afterwards. -/
def Op.run : Op → World → Bool × World
  | .send c, w => (returnedOk (c.send w).1, (c.send w).2)
  | .recv b, w => (returnedOk (Model.recv b w).1, (Model.recv b w).2)
  | .reconnect b, w => (returnedOk (Model.reconnect b w).1, (Model.reconnect b w).2)

/-- The calls made so far (oldest first, with their success) on a client that was in `w₀`, anything
having happened at the await points of each, including that the caller dropped it. -/
inductive History (w₀ : World) : List (Op × Bool) → World → Prop
  | start : History w₀ [] w₀
  | call {h : List (Op × Bool)} {w : World} (hist : History w₀ h w) (op : Op) (answers : List Answer) :
      History w₀ (h ++ [(op, (op.run { w with script := answers }).1)])
        (op.run { w with script := answers }).2

/-- No `reconnect` has failed, or after the last that failed something was sent other than by
`send_raw`, or a `reconnect` succeeded. -/
def settled (h : List (Op × Bool)) : Bool :=
  h.foldl (fun s (op, ok) =>
    match op with
    | .reconnect _ => ok
    | .send (.raw _) => s
    | .send _ => true
    | .recv _ => s) true

/-- A sequence of calls that all returned `Ok`. -/
inductive Sent : World → List Cmd → World → Prop
  | none (w : World) : Sent w [] w
  | more {w w' : World} {cs : List Cmd} (answers : List Answer) (c : Cmd)
      (hc : (c.send { w with script := answers }).1 = .ok (.ok ()))
      (h : Sent (c.send { w with script := answers }).2 cs w') : Sent w (c :: cs) w'

end Tmi.Spec

namespace Tmi.Spec
open Tmi.Model (World)

/-- The bytes accepted by the socket between two moments. -/
def wire (before after : World) : Bytes := written (after.log.drop before.log.length)

end Tmi.Spec

namespace Tmi.Spec
open Tmi.Model (Answer IoError ConnectError MsgOwned Backoff)

/-! ### The replies to the greeting -/

/-- What the first reply, the message `m` of line `l`, means: accepted, or an error. -/
inductive FirstReply (l : Line) (m : MsgOwned) : Option ConnectError → Prop
  | ack (h : IsCapAck l) : FirstReply l m none
  | refused (h : l.command = b!"CAP") (h' : ¬ IsCapAck l) : FirstReply l m (some .auth)
  | other (h : l.command ≠ b!"CAP") : FirstReply l m (some (.welcome m))

/-- What the second reply means. -/
inductive SecondReply (l : Line) (m : MsgOwned) : Option ConnectError → Prop
  | welcome (h : IsWelcome l) : SecondReply l m none
  | denied (h : IsAuthNotice l) : SecondReply l m (some .auth)
  | notice (h : l.command = b!"NOTICE") (h' : ¬ IsAuthNotice l) : SecondReply l m (some (.notice m))
  | other (h : l.command ≠ b!"001") (h' : l.command ≠ b!"NOTICE") : SecondReply l m (some (.welcome m))

/-- Waiting at most five seconds for a reply: `script` happens, then `rest`.  The message carries the
line. -/
inductive ServerReply : (script : List Answer) → Except ConnectError (Line × Bytes) →
    (rest : List Answer) → Prop
  | line {s : Bytes} {l : Line} (rest : List Answer) (h : line s = some l) :
      ServerReply (.line s :: rest) (.ok (l, s)) rest
  | bad {s : Bytes} (rest : List Answer) (h : Spec.line s = none) :
      ServerReply (.line s :: rest) (.error (.read (.parse s))) rest
  | failed (e : IoError) (rest : List Answer) :
      ServerReply (.readFailed e :: rest) (.error (.read (.io e))) rest
  | closed (rest : List Answer) : ServerReply (.eof :: rest) (.error (.read .streamClosed)) rest
  | late (rest : List Answer) : ServerReply (.elapsed 0 :: rest) (.error .timeout) rest

/-- The outcome of the whole exchange, `none` for success.  `parsed s` is the message of line `s`. -/
inductive Welcomed (parsed : Bytes → MsgOwned) :
    (script : List Answer) → Option ConnectError → (rest : List Answer) → Prop
  | noFirst {s r : List Answer} {e : ConnectError} (h : ServerReply s (.error e) r) :
      Welcomed parsed s (some e) r
  | first {s r : List Answer} {l : Line} {x : Bytes} {e : ConnectError} (h : ServerReply s (.ok (l, x)) r)
      (h' : FirstReply l (parsed x) (some e)) : Welcomed parsed s (some e) r
  | noSecond {s r r' : List Answer} {l : Line} {x : Bytes} {e : ConnectError}
      (h : ServerReply s (.ok (l, x)) r) (h' : FirstReply l (parsed x) none) (h2 : ServerReply r (.error e) r') :
      Welcomed parsed s (some e) r'
  | second {s r r' : List Answer} {l l' : Line} {x x' : Bytes} {o : Option ConnectError}
      (h : ServerReply s (.ok (l, x)) r) (h' : FirstReply l (parsed x) none)
      (h2 : ServerReply r (.ok (l', x')) r') (h2' : SecondReply l' (parsed x') o) :
      Welcomed parsed s o r'

/-- A handshake that sends `data` and comes to an end: `none` for success. -/
inductive Handshake (parsed : Bytes → MsgOwned) (data : Bytes) :
    (script : List Answer) → Option ConnectError → (rest : List Answer) → Prop
  | write {s r : List Answer} {e : IoError} (h : Rejects data s e r) :
      Handshake parsed data s (some (.io e)) r
  | flush {s r : List Answer} {e : IoError} (h : Accepts data s (.flushFailed e :: r)) :
      Handshake parsed data s (some (.io e)) r
  | replies {s r r' : List Answer} {o : Option ConnectError} (h : Accepts data s (.flushed :: r))
      (h' : Welcomed parsed r o r') : Handshake parsed data s o r'

/-- The deadline of an attempt passes while `data` is being written. -/
inductive Stalls : (data : Bytes) → (script rest : List Answer) → Prop
  | now {data : Bytes} (rest : List Answer) (hd : data ≠ []) : Stalls data (.elapsed 0 :: rest) rest
  | more {data : Bytes} {n : Nat} {script rest : List Answer} (hd : data ≠ []) (hn : n ≠ 0)
      (h : Stalls (data.drop n) script rest) : Stalls data (.accept n :: script) rest

/-- The deadline of an attempt passes during the handshake.  (While waiting for a reply there are two
deadlines; that of the attempt is the outer one.) -/
inductive HandshakeLate (parsed : Bytes → MsgOwned) (data : Bytes) :
    (script rest : List Answer) → Prop
  | writing {s r : List Answer} (h : Stalls data s r) : HandshakeLate parsed data s r
  | flushing {s r : List Answer} (h : Accepts data s (.elapsed 0 :: r)) :
      HandshakeLate parsed data s r
  | first {s r : List Answer} (h : Accepts data s (.flushed :: .elapsed 1 :: r)) :
      HandshakeLate parsed data s r
  | second {s r r' : List Answer} {l : Line} {x : Bytes} (h : Accepts data s (.flushed :: r))
      (h1 : ServerReply r (.ok (l, x)) (.elapsed 1 :: r')) (h2 : FirstReply l (parsed x) none) :
      HandshakeLate parsed data s r'

/-- Opening a connection and shaking hands on it, sending `data`: `none` for success. -/
inductive Attempt (parsed : Bytes → MsgOwned) (data : Bytes) :
    (script : List Answer) → Option ConnectError → (rest : List Answer) → Prop
  | noConnection (e : IoError) (rest : List Answer) :
      Attempt parsed data (.openFailed e :: rest) (some (.open_ e)) rest
  | openLate (rest : List Answer) : Attempt parsed data (.elapsed 0 :: rest) (some .timeout) rest
  | handshake {s rest : List Answer} {o : Option ConnectError} (h : Handshake parsed data s o rest) :
      Attempt parsed data (.opened :: s) o rest
  | handshakeLate {s rest : List Answer} (h : HandshakeLate parsed data s rest) :
      Attempt parsed data (.opened :: s) (some .timeout) rest

/-- An error after which `reconnect` tries again: the connection could not be opened, or the greeting
could not be written. -/
def Transient (o : Option ConnectError) : Prop := ∃ e, o = some (.open_ e) ∨ o = some (.io e)

/-- A run of `reconnect` from attempt number `k` on, with `left` attempts left (`none`: no limit).
`cause` is the error of the attempt before, `o` the result, `n` the number of attempts made.
`pending` is the text that waits to be sent: a greeting that could not be sent is kept and sent again
before the next one (the defect of C40). -/
inductive Reconnects (parsed : Bytes → MsgOwned) (c : Backoff) (greeting : Bytes) :
    (k : Nat) → (left : Option Nat) → (cause : ConnectError) → (pending : Bytes) →
    (script : List Answer) → (o : Option ConnectError) → (rest : List Answer) → (n : Nat) → Prop
  /-- no attempts left -/
  | exhausted {k : Nat} {cause : ConnectError} {pending : Bytes} (s : List Answer) :
      Reconnects parsed c greeting k (some 0) cause pending s (some cause) s 0
  /-- the attempt succeeds, or fails for good -/
  | final {k : Nat} {left : Option Nat} {cause : ConnectError} {pending : Bytes} {s r : List Answer}
      {o : Option ConnectError} (hl : left ≠ some 0)
      (hd : delay c k * c.delayMultiplier ≤ durationMax)
      (ha : Attempt parsed (pending ++ greeting) s o r) (ht : ¬ Transient o) :
      Reconnects parsed c greeting k left cause pending (.slept :: s) o r 1
  /-- no connection: try again -/
  | reopen {k n : Nat} {left : Option Nat} {cause : ConnectError} {pending : Bytes}
      {s r : List Answer} {e : IoError} {o : Option ConnectError} (hl : left ≠ some 0)
      (hd : delay c k * c.delayMultiplier ≤ durationMax)
      (h : Reconnects parsed c greeting (k + 1) (left.map (· - 1)) (.open_ e) pending s o r n) :
      Reconnects parsed c greeting k left cause pending (.slept :: .openFailed e :: s) o r (n + 1)
  /-- the greeting could not be written: try again -/
  | resend {k n : Nat} {left : Option Nat} {cause : ConnectError} {pending : Bytes}
      {s s' r : List Answer} {e : IoError} {o : Option ConnectError} (hl : left ≠ some 0)
      (hd : delay c k * c.delayMultiplier ≤ durationMax)
      (ha : Handshake parsed (pending ++ greeting) s (some (.io e)) s')
      (h : Reconnects parsed c greeting (k + 1) (left.map (· - 1)) (.io e) (pending ++ greeting) s' o
        r n) :
      Reconnects parsed c greeting k left cause pending (.slept :: .opened :: s) o r (n + 1)

end Tmi.Spec

namespace Tmi.Spec
open Tmi.Model (Cmd Answer World)

/-! ### Calls that may fail -/

/-- A sequence of calls, each with what it put on the wire and whether it returned `Ok`; those that did not failed
or were dropped by the caller. -/
inductive Tried : World → List (Cmd × Bytes × Bool) → World → Prop
  | none (w : World) : Tried w [] w
  | more {w w' : World} {cs : List (Cmd × Bytes × Bool)} (answers : List Answer) (c : Cmd)
      (h : Tried (c.send { w with script := answers }).2 cs w') :
      Tried w ((c, wire w (c.send { w with script := answers }).2,
        returnedOk (c.send { w with script := answers }).1) :: cs) w'

end Tmi.Spec

namespace Tmi.Spec
open Tmi.Model (Answer World Build Stop RecvError MsgOwned IoError recv)

/-! ### Receiving -/

/-- The results of calling `recv` `n` times, and the world afterwards. -/
def recvMany (b : Build) : Nat → World → List (Except Stop (Except RecvError MsgOwned)) × World
  | 0, w => ([], w)
  | n + 1, w => ((recv b w).1 :: (recvMany b n (recv b w).2).1, (recvMany b n (recv b w).2).2)

/-- What the reader delivers: a line or an I/O error. -/
def toAnswer : Except IoError Bytes → Answer
  | .ok s => .line s
  | .error e => .readFailed e

/-- What `recv` must return for it. -/
def expected (b : Build) : Except IoError Bytes → Except Stop (Except RecvError MsgOwned)
  | .error e => .ok (.error (.io e))
  | .ok s =>
    match MsgOwned.parse b s with
    | .ok (some m) => .ok (.ok m)
    | .ok none => .ok (.error (.parse s))
    | .error f => .error (.panic f)

end Tmi.Spec

namespace Tmi.Spec
open Tmi.Model (SameMessageBypass RecvError)

/-- The `n`-th result of `get` (from 0) on a new `SameMessageBypass`. -/
def bypassNth : Nat → Bytes × SameMessageBypass
  | 0 => SameMessageBypass.default.get
  | n + 1 => (bypassNth n).2.get

/-- The failures of `recv` that mean that the connection is lost: the stream ended, or the operating system said that the
connection was closed, aborted or reset, has timed out, or does not exist (any more). -/
def LostConnection : RecvError → Prop
  | .streamClosed => True
  | .parse _ => False
  | .io e =>
    match e.kind with
    | .unexpectedEof | .connectionAborted | .connectionReset | .brokenPipe | .notConnected | .timedOut => True
    | .writeZero | .invalidData | .other _ => False

end Tmi.Spec
