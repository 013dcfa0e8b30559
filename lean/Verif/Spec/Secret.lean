/-
Specification of what may depend on the token.
-/
import Verif.Spec.Client

namespace Tmi.Spec
open Tmi.Model (Effect World Answer Stop SendError RecvError ConnectError MsgOwned Config)

/-- An effect without the bytes that are sent: of these only the number is kept. -/
def shape : Effect → Effect
  | .wrote bs => .wrote (List.replicate bs.length 0)
  | e => e

/-- Configurations that differ at most in the token, and the tokens are sent as equally many bytes. -/
structure SameButToken (c c' : Config) : Prop where
  login : c.credentials.login = c'.credentials.login
  timeout : c.timeout = c'.timeout
  backoff : c.backoff = c'.backoff
  length : (hello c.credentials).length = (hello c'.credentials).length

/-- Worlds that cannot be told apart without looking at the token or at the bytes on the wire: the same is going to
happen in them, and the same has happened. -/
structure Alike (w w' : World) : Prop where
  config : SameButToken w.client.config w'.client.config
  closed : w.client.closed = w'.client.closed
  buffered : w.client.scratch.length = w'.client.scratch.length
  past : w.log.map shape = w'.log.map shape
  future : w.script = w'.script

/-- The result of a call. -/
inductive Outcome where
  | sent (r : Except Stop (Except SendError Unit))
  | received (r : Except Stop (Except RecvError MsgOwned))
  | reconnected (r : Except Stop (Except ConnectError Unit))
deriving DecidableEq

/-- Make a call: its result, and the world afterwards. -/
def Op.outcome : Op → World → Outcome × World
  | .send c, w => (.sent (c.send w).1, (c.send w).2)
  | .recv b, w => (.received (Model.recv b w).1, (Model.recv b w).2)
  | .reconnect b, w => (.reconnected (Model.reconnect b w).1, (Model.reconnect b w).2)

/-- Make calls one after the other, with what happens during each. -/
def outcomes : List (Op × List Answer) → World → List Outcome × World
  | [], w => ([], w)
  | (op, answers) :: rest, w =>
    let (o, w) := op.outcome { w with script := answers }
    let (os, w) := outcomes rest w
    (o :: os, w)

end Tmi.Spec
