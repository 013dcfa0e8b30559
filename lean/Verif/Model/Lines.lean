/-
Model of the reader of the client: `Fuse<LinesStream<BufReader<ReadHalf<conn::Stream>>>>`
(src/client/read.rs:10), built by `split` (src/client.rs:407-414).  The types are those of tokio,
tokio-stream and futures-util, whose source is not part of the repository; they are modelled after
their documented behaviour, poll by poll, with their buffers.
-/
import Verif.Model.Client
import Verif.Model.Chars

namespace Tmi.Model
open Tmi.Spec (enc)

/-- What the connection answers when the `BufReader` asks it for bytes.
The reads behind src/client/read.rs:15. -/
inductive Net where
  /-- these bytes arrived (at least one) -/
  | data (bs : Bytes)
  /-- nothing has arrived yet: the poll returns `Pending` -/
  | pending
  /-- the read failed -/
  | fail (e : IoError)
  /-- the other side closed the connection; asked again, it answers the same again -/
  | eof
deriving DecidableEq, Repr

/-- `Poll`.  The polls behind the `.await` of src/client/read.rs:15. -/
inductive Poll (α : Type) where
  | ready (a : α)
  | pending
deriving DecidableEq, Repr

/-- The state of the `ReadStream` (src/client/read.rs:10). -/
structure Reader where
  /-- the bytes in the buffer of the `BufReader` that have not been consumed -/
  avail : Bytes
  /-- `Lines::bytes`: the part of the current line that has been consumed -/
  bytes : Bytes
  /-- `Fuse`: the stream has ended -/
  done : Bool
deriving DecidableEq, Repr

/-- The reader of a new connection: `split` (src/client.rs:407-414). -/
def Reader.new : Reader := ⟨[], [], false⟩

/-- The outcome of a poll: the result, the reader, and what the connection does from then on.
The polls behind src/client/read.rs:15. -/
structure Polled (α : Type) where
  out : Poll α
  reader : Reader
  net : List Net

/-- The middle of the loop of `read_until`: look for the delimiter in the available bytes, move the
bytes up to and including it, or all of them, to the line.  True if it was found.
Part of `next` at src/client/read.rs:15. -/
def Reader.scan (r : Reader) : Bool × Reader :=
  match r.avail.findIdx? (· == LF) with
  | some i => (true, { r with bytes := r.bytes ++ r.avail.take (i + 1), avail := r.avail.drop (i + 1) })
  | none => (false, { r with bytes := r.bytes ++ r.avail, avail := [] })

/-- The rounds of the loop of `read_until` that start with an empty `BufReader`, which therefore reads
from the connection.  Running out of events is waiting forever.
Part of `next` at src/client/read.rs:15. -/
def Reader.readUntilEmpty : Reader → List Net → Polled (Except IoError Unit)
  | r, [] => ⟨.pending, r, []⟩
  | r, .pending :: net => ⟨.pending, r, net⟩
  | r, .fail e :: net => ⟨.ready (.error e), r, net⟩
  | r, .eof :: net => ⟨.ready (.ok ()), r, .eof :: net⟩
  | r, .data bs :: net =>
    match ({ r with avail := bs } : Reader).scan with
    | (true, r) => ⟨.ready (.ok ()), r, net⟩
    | (false, r) => readUntilEmpty r net

/-- `read_until` of tokio, delimiter `\n`: the loop over `poll_fill_buf` and `consume`.
Part of `next` at src/client/read.rs:15.  The count of bytes that it returns is left out: it is the
length of the line so far. -/
def Reader.readUntil (r : Reader) (net : List Net) : Polled (Except IoError Unit) :=
  if r.avail = [] then r.readUntilEmpty net
  else
    match r.scan with
    | (true, r) => ⟨.ready (.ok ()), r, net⟩
    | (false, r) => r.readUntilEmpty net

/-- Is the string valid UTF-8: decoding and encoding gives it back.
`String::from_utf8`, part of `next` at src/client/read.rs:15. -/
def isUtf8 (s : Bytes) : Bool := enc (decode s) == s

/-- `if buf.ends_with('\n') { buf.pop(); if buf.ends_with('\r') { buf.pop(); } }`.
Part of `next` at src/client/read.rs:15. -/
def chomp (s : Bytes) : Bytes :=
  if s.getLast? = some LF then
    (if s.dropLast.getLast? = some CR then s.dropLast.dropLast else s.dropLast)
  else s

/-- The error of `read_line` for a line that is not UTF-8 (kind `InvalidData`).
Returned through src/client/read.rs:16. -/
def notUtf8 : IoError := ⟨.invalidData, 0⟩

/-- `Lines::poll_next_line` of tokio.  Part of `next` at src/client/read.rs:15.
What becomes of the beginning of a line when a read fails is not modelled: the model forgets it.  (Of what
is read after a failed read the theorems say only that a line has no line feed in it and is UTF-8.) -/
def Reader.nextLine (r : Reader) (net : List Net) : Polled (Except IoError (Option Bytes)) :=
  match r.readUntil net with
  | ⟨.pending, r, net⟩ => ⟨.pending, r, net⟩
  | ⟨.ready (.error e), r, net⟩ => ⟨.ready (.error e), { r with bytes := [] }, net⟩
  | ⟨.ready (.ok ()), r, net⟩ =>
    if ¬ isUtf8 r.bytes then ⟨.ready (.error notUtf8), { r with bytes := [] }, net⟩
    else if r.bytes = [] then ⟨.ready (.ok none), r, net⟩
    else ⟨.ready (.ok (some (chomp r.bytes))), { r with bytes := [] }, net⟩

/-- One poll of `self.reader.next()` (src/client/read.rs:15): `LinesStream::poll_next`, which swaps
`Result` and `Option`, inside `Fuse`. -/
def Reader.poll (r : Reader) (net : List Net) : Polled (Option (Except IoError Bytes)) :=
  if r.done then ⟨.ready none, r, net⟩
  else
    match r.nextLine net with
    | ⟨.pending, r, net⟩ => ⟨.pending, r, net⟩
    | ⟨.ready (.error e), r, net⟩ => ⟨.ready (some (.error e)), r, net⟩
    | ⟨.ready (.ok (some l)), r, net⟩ => ⟨.ready (some (.ok l)), r, net⟩
    | ⟨.ready (.ok none), r, net⟩ => ⟨.ready none, { r with done := true }, net⟩

/-- What `recv` makes of an item of the stream (src/client/read.rs:15-20). -/
def recvItem (b : Build) : Option (Except IoError Bytes) → Except Stop (Except RecvError MsgOwned)
  | some (.ok message) =>
    match MsgOwned.parse b message with
    | .ok (some m) => .ok (.ok m)
    | .ok none => .ok (.error (.parse message))
    | .error f => .error (.panic f)
  | some (.error e) => .ok (.error (.io e))
  | none => .ok (.error .streamClosed)

/-- One poll of the future returned by `Client::recv` (src/client/read.rs:14-21).  The future has no
state of its own besides the reader, so that polling it again and dropping it and polling a new one are
the same thing. -/
def recvPoll (b : Build) (r : Reader) (net : List Net) : Polled (Except Stop (Except RecvError MsgOwned)) :=
  match r.poll net with
  | ⟨.pending, r, net⟩ => ⟨.pending, r, net⟩
  | ⟨.ready i, r, net⟩ => ⟨.ready (recvItem b i), r, net⟩

end Tmi.Model
