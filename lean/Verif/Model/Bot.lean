/-
Model of the two programs that the repository shows its users: the quick start of README.md and
examples/basic.rs.  What they print is left out.
-/
import Verif.Model.Client

namespace Tmi.Model

/-- The `anyhow::Error` that ends the programs, by the error it was made from.
The `?`s of README.md:25-35 and examples/basic.rs:64-71, 88-92. -/
inductive BotError where
  | recv (e : RecvError)
  | parse
  | send (e : SendError)
  | reconnect (e : ConnectError)
deriving DecidableEq, Repr

/-- The first arm of the `match` in README.md:27-29. -/
def quickStartOnMsg (msg : Privmsg) : Act (Except SendError Unit) := do
  let _ ← lift msg.sender.getName
  return .ok ()

/-- `on_msg` (examples/basic.rs:77-97). -/
def onMsg (msg : Privmsg) : Act (Except SendError Unit) := do
  let _ ← lift msg.sender.getName
  let c ← getClient
  if c.config.credentials.isAnon then return .ok ()
  else if !hasPrefix (b!"!yo") msg.text then return .ok ()
  else privmsg msg.channel (b!"yo") (some msg.id) none

/-- `?` on the result of a sending method (README.md:32-35, examples/basic.rs:66-71): `none` is success. -/
def sendQ (x : Act (Except SendError Unit)) : Act (Option BotError) := do
  match ← x with
  | .ok () => return none
  | .error e => return some (.send e)

/-- One round of the loop (README.md:25-38, examples/basic.rs:64-73), with `handler` for chat messages:
`none` to go on, or the error that ends it. -/
def botRound (handler : Privmsg → Act (Except SendError Unit)) (b : Build) (channels : List Bytes) :
    Act (Option BotError) := do
  match ← recv b with
  | .error e => return some (.recv e)
  | .ok msg =>
    match ← lift msg.asTyped with
    | none => return some .parse
    | some (.privmsg msg) => sendQ (handler msg)
    | some .reconnect =>
      match ← reconnect b with
      | .error e => return some (.reconnect e)
      | .ok () => sendQ (joinAll channels)
    | some (.ping p) => sendQ (pong p)
    | some _ => return none

/-- The loop (README.md:24-39, examples/basic.rs:63-74).  Every round that does not end it takes at least one
answer from the script, so `runBot` gives it enough fuel. -/
def botLoop (handler : Privmsg → Act (Except SendError Unit)) (b : Build) (channels : List Bytes) :
    (fuel : Nat) → Act BotError
  | 0 => stop (.panic .diverge)
  | fuel + 1 => do
    match ← botRound handler b channels with
    | some e => return e
    | none => botLoop handler b channels fuel

/-- `run` (examples/basic.rs:62-75), and the loop of README.md:24-39.  It never returns `Ok`. -/
def runBot (handler : Privmsg → Act (Except SendError Unit)) (b : Build) (channels : List Bytes) :
    Act BotError := fun w => botLoop handler b channels (w.script.length + 1) w

/-- The credentials of examples/basic.rs:37-40, with the number drawn if they are anonymous. -/
def basicCredentials (login token : Option Bytes) (n : Nat) : Credentials :=
  match login, token with
  | some login, some token => Credentials.new login token
  | _, _ => Credentials.anon n

/-- `main` from the configured client on (README.md:21-39, examples/basic.rs:44-59): connect, join, run.  That
`run` is spawned, and dropped on ctrl-c, is a script that ends. -/
def botMain (handler : Privmsg → Act (Except SendError Unit)) (b : Build) (config : Config)
    (channels : List Bytes) : Act (Except ConnectError BotError) := do
  match ← connect b config with
  | .error e => return .error e
  | .ok () =>
    match ← joinAll channels with
    | .error e => return .ok (.send e)
    | .ok () => do return .ok (← runBot handler b channels)

end Tmi.Model
