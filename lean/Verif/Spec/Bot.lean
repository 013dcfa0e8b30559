/-
Specification of the programs of README.md and examples/basic.rs: what they do about a line, and what they may have
done when they end.
-/
import Verif.Spec.Client
import Verif.Model.Bot

namespace Tmi.Spec
open Tmi.Model (Cmd Effect Stop IoError RecvError BotError World Build Config Message ConnectError Answer)

/-- What to do about a line. -/
inductive Reaction where
  | ignore
  | send (c : Cmd)
  | rejoin
  | giveUp (e : BotError)

/-- The chat message on the line starts with `!yo` (a /me message without its wrapper). -/
def SaysYo (l : Line) : Prop :=
  l.command = b!"PRIVMSG" ∧ ∃ t x a, l.text = some t ∧ TextOf t x a ∧ b!"!yo" <+: x

open Classical in
/-- What the programs do about a line; `greets` is whether they answer `!yo`. -/
noncomputable def react (greets : Bool) (s : Bytes) : Reaction :=
  match line s with
  | none => .giveUp (.recv (.parse s))
  | some l =>
    if ¬ ∃ M, MessageOf l M then .giveUp .parse
    else if l.command = b!"PING" then .send (.pong l.text)
    else if l.command = b!"RECONNECT" then .rejoin
    else if greets = true ∧ SaysYo l then
      .send (.privmsg (l.channel.getD []) (b!"yo") (l.tag (b!"id")) none)
    else .ignore

/-- The call was interrupted: the program was stopped, or the network failed. -/
def Interrupted : Except Stop BotError → Prop
  | .error .dropped => True
  | .error (.elapsed _) => True
  | .ok (.send (.io _)) => True
  | _ => False

/-- Nothing more came: the program was stopped while it waited for a line, or the connection failed or ended. -/
def Silence : Except Stop BotError → Prop
  | .error .dropped => True
  | .error (.elapsed _) => True
  | .ok (.recv (.io _)) => True
  | .ok (.recv .streamClosed) => True
  | _ => False

/-- `ev` is what a call of `reconnect` does that ends with `r`, on a client with this configuration and nothing left in
its buffer, if the server sends readable lines. -/
def Redials (b : Build) (cfg : Config) (ev : List Effect) (r : Except Stop (Except ConnectError Unit)) : Prop :=
  ∃ w : World, w.client.config = cfg ∧ w.client.scratch = [] ∧ AllReadable b w.script ∧ (Model.reconnect b w).1 = r ∧
    (Model.reconnect b w).2.log = w.log ++ ev

/-- How a failed `reconnect` ends the program. -/
def gaveUp : Except Stop (Except ConnectError Unit) → Option (Except Stop BotError)
  | .ok (.ok ()) => none
  | .ok (.error e) => some (.ok (.reconnect e))
  | .error e => some (.error e)

/-- Writes that make up `data`. -/
def Writes (data : Bytes) (ws : List Effect) : Prop := (∀ e ∈ ws, ∃ bs, e = .wrote bs) ∧ written ws = data

/-- Writes that make up a beginning of `data`, not all of it. -/
def CutOff (data : Bytes) (ws : List Effect) : Prop :=
  (∀ e ∈ ws, ∃ bs, e = .wrote bs) ∧ written ws <+: data ∧ written ws ≠ data

/-- What the loop may have done when it ends with `r`: it takes one line after the other, and does what is to be
done about each before it takes the next. -/
inductive BotLog (b : Build) (cfg : Config) (channels : List Bytes) (greets : Bool) :
    List Effect → Except Stop BotError → Prop
  | silence {r} (h : Silence r) : BotLog b cfg channels greets [] r
  | ignored {s ev r} (h : react greets s = .ignore) (hr : BotLog b cfg channels greets ev r) :
      BotLog b cfg channels greets (.took s :: ev) r
  | giveUp {s e} (h : react greets s = .giveUp e) : BotLog b cfg channels greets [.took s] (.ok e)
  | answered {s c ws ev r} (h : react greets s = .send c) (hw : Writes (commandBytes c) ws)
      (hr : BotLog b cfg channels greets ev r) : BotLog b cfg channels greets (.took s :: (ws ++ ev)) r
  | interrupted {s c ws r} (h : react greets s = .send c) (hw : CutOff (commandBytes c) ws) (hr : Interrupted r) :
      BotLog b cfg channels greets (.took s :: ws) r
  | rejoined {s es ws ev r} (h : react greets s = .rejoin) (hd : Redials b cfg es (.ok (.ok ())))
      (hw : Writes (commandBytes (.joinAll channels)) ws) (hr : BotLog b cfg channels greets ev r) :
      BotLog b cfg channels greets (.took s :: (es ++ (ws ++ ev))) r
  | notJoined {s es ws r} (h : react greets s = .rejoin) (hd : Redials b cfg es (.ok (.ok ())))
      (hw : CutOff (commandBytes (.joinAll channels)) ws) (hr : Interrupted r) :
      BotLog b cfg channels greets (.took s :: (es ++ ws)) r
  | lost {s es x r} (h : react greets s = .rejoin) (hd : Redials b cfg es x) (hx : gaveUp x = some r) :
      BotLog b cfg channels greets (.took s :: es) r

/-- What the programs may have done when they end with `r`: connect, join, and run the loop. -/
inductive SessionLog (b : Build) (cfg : Config) (channels : List Bytes) (greets : Bool) :
    List Effect → Except Stop (Except ConnectError BotError) → Prop
  | stopped {es e} (h : written es <+: hello cfg.credentials) (ho : opens es ≤ 1) :
      SessionLog b cfg channels greets es (.error e)
  | refused {es e} (h : written es <+: hello cfg.credentials) (ho : opens es ≤ 1) :
      SessionLog b cfg channels greets es (.ok (.error e))
  | notJoined {es ws r} (h : written es = hello cfg.credentials) (ho : opens es ≤ 1)
      (hw : CutOff (commandBytes (.joinAll channels)) ws) (hr : Interrupted r) :
      SessionLog b cfg channels greets (es ++ ws) (r.map .ok)
  | ran {es ws ev r} (h : written es = hello cfg.credentials) (ho : opens es ≤ 1)
      (hw : Writes (commandBytes (.joinAll channels)) ws) (hr : BotLog b cfg channels greets ev r) :
      SessionLog b cfg channels greets (es ++ (ws ++ ev)) (r.map .ok)

/-- The answers to a sequence of lines, one after the other. -/
noncomputable def answers (greets : Bool) (ss : List Bytes) : Bytes :=
  ss.flatMap fun s => match react greets s with
    | .send c => commandBytes c
    | _ => []

/-- The network delivers these lines and accepts the answers to them, in pieces of any sizes; `rest` happens after
that. -/
inductive Served (greets : Bool) : (ss : List Bytes) → (script rest : List Answer) → Prop
  | done (rest : List Answer) : Served greets [] rest rest
  | ignored {s ss script rest} (h : react greets s = .ignore) (hr : Served greets ss script rest) :
      Served greets (s :: ss) (.line s :: script) rest
  | answered {s c ss script mid rest} (h : react greets s = .send c) (ha : Accepts (commandBytes c) script mid)
      (hr : Served greets ss mid rest) : Served greets (s :: ss) (.line s :: script) rest

/-- A line that the typed parser handles without overflow. -/
def Orderly (s : Bytes) : Prop := ∀ l, line s = some l → l.command = b!"ROOMSTATE" → ¬ FollowersOverflow l

end Tmi.Spec
