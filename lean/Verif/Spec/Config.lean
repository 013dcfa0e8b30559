/-
Specification of the builders: a sequence of settings, of which the last of each kind counts.
-/
import Verif.Model.Config

namespace Tmi.Spec
open Tmi.Model (Credentials Backoff ClientBuilder PrivmsgBuilder)

/-- A call of a setter of `ClientBuilder`. -/
inductive Setting where
  | credentials (c : Credentials)
  | timeout (t : Nat)
  | backoff (b : Backoff)
deriving DecidableEq, Repr

/-- The setter that is called. -/
def Setting.apply (self : ClientBuilder) : Setting → ClientBuilder
  | .credentials c => self.credentials c
  | .timeout t => self.timeout t
  | .backoff b => self.backoff b

/-- The last element that `f` accepts, or else `d`. -/
def lastOf {α β : Type} (f : α → Option β) (d : β) (l : List α) : β := ((l.filterMap f).getLast?).getD d

/-- The credentials in a setting. -/
def Setting.credentials? : Setting → Option Credentials
  | .credentials c => some c
  | _ => none

/-- The timeout in a setting. -/
def Setting.timeout? : Setting → Option Nat
  | .timeout t => some t
  | _ => none

/-- The backoff in a setting. -/
def Setting.backoff? : Setting → Option Backoff
  | .backoff b => some b
  | _ => none

/-- A call of a setter of the `privmsg` builder. -/
inductive Extra where
  | replyTo (id : Bytes)
  | nonce (value : Bytes)
deriving DecidableEq, Repr

/-- The setter that is called. -/
def Extra.apply (self : PrivmsgBuilder) : Extra → PrivmsgBuilder
  | .replyTo id => self.replyTo id
  | .nonce v => self.nonce v

/-- The id in a setting. -/
def Extra.replyTo? : Extra → Option Bytes
  | .replyTo id => some id
  | _ => none

/-- The nonce in a setting. -/
def Extra.nonce? : Extra → Option Bytes
  | .nonce v => some v
  | _ => none

/-- A second. -/
def second : Nat := 1000000000

end Tmi.Spec
