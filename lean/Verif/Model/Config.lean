/-
Model of the configuration of a client, its defaults and the builders (src/client.rs, src/client/write.rs).
Durations are in nanoseconds.
-/
import Verif.Model.Client
import Verif.Model.Timed

namespace Tmi.Model

/-- `DEFAULT_TIMEOUT` (src/client.rs:73): `Duration::from_secs(30)`. -/
def defaultTimeout : Nat := 30 * 1000000000

/-- `Credentials::ANON_RANGE` (src/client.rs:85): `10000..99999`. -/
def InAnonRange (n : Nat) : Prop := 10000 ≤ n ∧ n < 99999

/-- Decides the range of src/client.rs:85. -/
instance (n : Nat) : Decidable (InAnonRange n) := inferInstanceAs (Decidable (_ ∧ _))

/-- `Default for Credentials` (src/client.rs:131-135), given the number that is drawn. -/
def Credentials.default (n : Nat) : Credentials := Credentials.anon n

/-- `Default for Backoff` (src/client.rs:161-170). -/
def Backoff.default : Backoff where
  maxTries := some 8
  initialDelay := 1 * 1000000000
  delayMultiplier := 3
  maxDelay := 12 * 1000000000

/-- `Default for Config` (src/client.rs:185-193), given the number that is drawn. -/
def Config.default (n : Nat) : Config where
  credentials := Credentials.default n
  timeout := defaultTimeout
  backoff := Backoff.default

/-- `ClientBuilder` (src/client.rs:196-198). -/
structure ClientBuilder where
  config : Config
deriving DecidableEq, Repr

/-- `ClientBuilder::credentials` (src/client.rs:202-205). -/
def ClientBuilder.credentials (self : ClientBuilder) (credentials : Credentials) : ClientBuilder :=
  { self with config := { self.config with credentials := credentials } }

/-- `ClientBuilder::timeout` (src/client.rs:208-211). -/
def ClientBuilder.timeout (self : ClientBuilder) (timeout : Nat) : ClientBuilder :=
  { self with config := { self.config with timeout := timeout } }

/-- `ClientBuilder::backoff` (src/client.rs:214-217). -/
def ClientBuilder.backoff (self : ClientBuilder) (backoff : Backoff) : ClientBuilder :=
  { self with config := { self.config with backoff := backoff } }

/-- `ClientBuilder::connect` (src/client.rs:220-222). -/
def ClientBuilder.connect (b : Build) (self : ClientBuilder) : Act (Except ConnectError Unit) :=
  Model.connect b self.config

/-- `Client::builder` (src/client.rs:250-254), given the number that is drawn. -/
def builder (n : Nat) : ClientBuilder := ⟨Config.default n⟩

/-- `Client::anonymous` (src/client.rs:257-259), given the number that is drawn. -/
def anonymous (b : Build) (n : Nat) : Act (Except ConnectError Unit) := connect b (Config.default n)

/-- `write::Privmsg` (src/client/write.rs:10-16), without the reference to the client. -/
structure PrivmsgBuilder where
  channel : Bytes
  text : Bytes
  replyParentMsgId : Option Bytes
  clientNonce : Option Bytes
deriving DecidableEq, Repr

/-- `Client::privmsg` (src/client/write.rs:109-117). -/
def newPrivmsg (channel text : Bytes) : PrivmsgBuilder := ⟨channel, text, none, none⟩

/-- `Privmsg::reply_to` (src/client/write.rs:32-35). -/
def PrivmsgBuilder.replyTo (self : PrivmsgBuilder) (id : Bytes) : PrivmsgBuilder :=
  { self with replyParentMsgId := some id }

/-- `Privmsg::client_nonce` (src/client/write.rs:37-40). -/
def PrivmsgBuilder.nonce (self : PrivmsgBuilder) (value : Bytes) : PrivmsgBuilder :=
  { self with clientNonce := some value }

/-- `Privmsg::send` (src/client/write.rs:42-71). -/
def PrivmsgBuilder.send (self : PrivmsgBuilder) : Act (Except SendError Unit) :=
  privmsg self.channel self.text self.replyParentMsgId self.clientNonce

end Tmi.Model
