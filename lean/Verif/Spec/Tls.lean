/-
Specification of connections: to whom they are made, and what has to happen before anything is said on them.
-/
import Verif.Spec.Net
import Verif.Model.Tls

namespace Tmi.Spec
open Tmi.Model (Effect World Answer OpenAnswer Deal TlsWorld Cert IoError Config Build Stop
  ConnectError)

/-- Make a call on a client whose connections are opened step by step: its result, and the world afterwards. -/
def Op.tls : Op → TlsWorld → Outcome × TlsWorld
  | .send c, n => (.sent (Model.onStream c.send n).1, (Model.onStream c.send n).2)
  | .recv b, n => (.received (Model.onStream (Model.recv b) n).1, (Model.onStream (Model.recv b) n).2)
  | .reconnect b, n => (.reconnected (Model.tlsReconnect b n).1, (Model.tlsReconnect b n).2)

/-- A call, what happens at its awaits on an open connection, and what happens at those while one is opened.  If either
list is too short the call is dropped when it runs out. -/
structure TlsCall where
  op : Op
  answers : List Answer
  opening : List OpenAnswer

/-- Make calls one after the other. -/
def tlsOutcomes : List TlsCall → TlsWorld → List Outcome × TlsWorld
  | [], n => ([], n)
  | c :: rest, n =>
    let (o, n) := c.op.tls { n with world := { n.world with script := c.answers }, answers := c.opening }
    let (os, n) := tlsOutcomes rest n
    (o :: os, n)

/-- Before `connect`, when nothing has happened. -/
def beforeConnect (cfg : Config) (answers : List Answer) (opening : List OpenAnswer) : TlsWorld :=
  ⟨⟨⟨false, [], cfg⟩, [], answers⟩, ⟨[], []⟩, [], opening⟩

/-- A whole session: `connect`, and if that succeeds the calls.  `certs` is what the system says its certificates are. -/
def tlsSession (b : Build) (certs : Except IoError (List Cert)) (cfg : Config) (answers : List Answer)
    (opening : List OpenAnswer) (calls : List TlsCall) :
    Except Stop (Except ConnectError Unit) × List Outcome × TlsWorld :=
  match Model.tlsConnect b certs cfg (beforeConnect cfg answers opening) with
  | (.ok (.ok ()), n) => (.ok (.ok ()), tlsOutcomes calls n)
  | (r, n) => (r, [], n)

/-- What of everything that happened the client's own log tells. -/
def onClient (deals : List Deal) : List Effect :=
  deals.filterMap fun d => match d with | .client e => some e | _ => none

/-- Something that happens on a connection: bytes go out, or a line comes in. -/
def OnConnection : Effect → Prop
  | .wrote _ | .flush | .took _ => True
  | _ => False

/-- How a connection has to be made: TCP to Twitch's server, on it TLS, verified for the name of that server with the
given root certificates, and only when that is up is the connection used. -/
def made (roots : List Bytes) : List Deal :=
  [.client .open_, .tcp (b!"irc.chat.twitch.tv") 6697, .tls (b!"irc.chat.twitch.tv") roots, .secured, .client .connected]

/-- Whenever something happens on a connection, the connection in use at that moment (the one that was taken into use
last) had been made like that. -/
def Secure (roots : List Bytes) (deals : List Deal) : Prop :=
  ∀ before e after, deals = before ++ .client e :: after → OnConnection e →
    ∃ p q, before = p ++ made roots ++ q ∧ .client .connected ∉ q

/-- A connection is made to Twitch's server only, and TLS is only ever asked to verify that it is that server, with the
given root certificates. -/
def OnlyTwitch (roots : List Bytes) : Deal → Prop
  | .tcp host port => host = b!"irc.chat.twitch.tv" ∧ port = 6697
  | .tls name r => name = b!"irc.chat.twitch.tv" ∧ r = roots
  | _ => True

/-- The certificates of a system that can all be used. -/
def AllUsable (certs : List Cert) : Prop := ∀ c ∈ certs, c.refused = none

end Tmi.Spec
