/-
What the server is asked to do over all connections of a client, and a program that sends commands again, on a new
connection, until each has been sent.
-/
import Verif.Spec.Issued
import Verif.Spec.LikeNew

namespace Tmi.Spec
open Tmi.Model (Cmd Effect)

/-- What happened before the first connection, and on each connection. -/
def byConnection : List Effect → List Effect × List (List Effect)
  | [] => ([], [])
  | .connected :: r => ([], (byConnection r).1 :: (byConnection r).2)
  | e :: r => (e :: (byConnection r).1, (byConnection r).2)

/-- What was sent on each connection. -/
def sentOn (log : List Effect) : List Bytes := (byConnection log).2.map written

/-- It is a line with which a client introduces itself. -/
def introduces (line : Bytes) : Bool :=
  (b!"CAP REQ ").isPrefixOf line || (b!"PASS ").isPrefixOf line || (b!"NICK ").isPrefixOf line

/-- What a server that gets these bytes, one string for each connection, is asked to do: the complete lines, apart
from those with which the client introduces itself. -/
def orders (got : List Bytes) : List Bytes :=
  got.flatMap fun wire => (receivedLines wire).filter fun line => !introduces line

/-- Of what was sent on each connection, this arrives: a beginning of it. -/
inductive Arrive : List Bytes → List Bytes → Prop
  | none : Arrive [] []
  | cons {got sent : List Bytes} {g s : Bytes} (h : g <+: s) (hs : Arrive got sent) : Arrive (g :: got) (s :: sent)

/-- After a command that failed nothing else was sent on its connection, and nothing was sent on a connection on which
the client was not welcomed. -/
def Careful (all : List (Bool × List (Cmd × Bool))) : Prop :=
  ∀ x ∈ all, (x.1 = false → x.2 = []) ∧ ∀ c ∈ x.2.dropLast, c.2 = true

/-- The commands whose calls returned `Ok`, in the order they were issued. -/
def accepted (all : List (Bool × List (Cmd × Bool))) : List Cmd :=
  ((all.flatMap (·.2)).filter (·.2)).map (·.1)

/-- No text in the command breaks a line, and it is none of `send_raw`. -/
def OneLine (c : Cmd) : Prop := (∀ s, c ≠ .raw s) ∧ LF ∉ commandLine c

/-- What the calls of the program below gave: the commands that remain, and whether to reconnect first. -/
def remaining (cs : List Cmd) (gs : List Gave) : List Cmd × Bool :=
  gs.foldl (fun (todo, broken) g =>
    match g with
    | .sent (.ok (.ok ())) => (todo.tail, false)
    | .sent _ => (todo, true)
    | .reconnected (.ok (.ok ())) => (todo, false)
    | .reconnected _ => (todo, true)
    | .received _ => (todo, broken)) (cs, false)

/-- The network takes these commands, one after the other. -/
inductive Takes : List Cmd → List Tmi.Model.Answer → Prop
  | done (answers : List Tmi.Model.Answer) : Takes [] answers
  | more {c : Cmd} {cs : List Cmd} {answers rest : List Tmi.Model.Answer} (h : Accepts (commandBytes c) answers rest)
      (hs : Takes cs rest) : Takes (c :: cs) answers

/-- A program that sends the commands in order.  When one fails, for whatever reason, it reconnects until that
succeeds, and sends it again. -/
def retrying (cs : List Cmd) : Program := fun gs =>
  match remaining cs gs with
  | (_, true) => some .reconnect
  | ([], false) => none
  | (c :: _, false) => some (.send c)

end Tmi.Spec
