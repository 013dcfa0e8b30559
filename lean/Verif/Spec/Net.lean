/-
Specification of sessions on connections that deliver bytes.
-/
import Verif.Spec.Lines
import Verif.Spec.Secret
import Verif.Model.Net

namespace Tmi.Spec
open Tmi.Model (Net NetWorld Wait Effect World Answer IoError Config Build Stop ConnectError)

/-- Make a call on a client whose connections deliver bytes: its result, and the world afterwards. -/
def Op.net : Op → NetWorld → Outcome × NetWorld
  | .send c, n => (.sent (Model.io c.send n).1, (Model.io c.send n).2)
  | .recv b, n => (.received (Model.netRecv b n).1, (Model.netRecv b n).2)
  | .reconnect b, n => (.reconnected (Model.netReconnect b n).1, (Model.netReconnect b n).2)

/-- A call, what happens at its awaits that are not reads, and what happens whenever a read of it has to wait.  If
either list is too short the call is dropped when it runs out. -/
structure NetCall where
  op : Op
  answers : List Answer
  waits : List Wait

/-- Make calls one after the other. -/
def netOutcomes : List NetCall → NetWorld → List Outcome × NetWorld
  | [], n => ([], n)
  | c :: rest, n =>
    let (o, n) := c.op.net { n with world := { n.world with script := c.answers }, waits := c.waits }
    let (os, n) := netOutcomes rest n
    (o :: os, n)

/-- The lines that were taken from connection number `k` (from 1; 0: before there was one). -/
def takenOn : (k : Nat) → List Effect → List Bytes
  | _, [] => []
  | 0, .connected :: _ => []
  | k + 1, .connected :: es => takenOn k es
  | 0, .took s :: es => s :: takenOn 0 es
  | k, _ :: es => takenOn k es

/-- What the application gets from a connection, to its end. -/
noncomputable def itemsOf (net : List Net) : List (Except IoError Bytes) :=
  if ending net = .closed then deliveredAll (arrived net) else delivered (arrived net)

/-- The items that are lines, not errors. -/
def texts (items : List (Except IoError Bytes)) : List Bytes :=
  items.filterMap fun i => match i with | .ok s => some s | .error _ => none

/-- Once a read has failed, nothing arrives any more. -/
def StaysFailed (net : List Net) : Prop :=
  ∀ before e after, net = before ++ Net.fail e :: after → ∀ x ∈ after, x = .pending ∨ ∃ e, x = .fail e

/-- A whole session: `connect`, and if that succeeds the calls.  `conns` are the connections, in the order in which they
are opened. -/
def netSession (b : Build) (cfg : Config) (answers : List Answer) (waits : List Wait) (calls : List NetCall)
    (conns : List (List Net)) : Except Stop (Except ConnectError Unit) × List Outcome × NetWorld :=
  match Model.netConnect b cfg ⟨⟨⟨false, [], cfg⟩, [], answers⟩, .new, [], conns, waits⟩ with
  | (.ok (.ok ()), n) => (.ok (.ok ()), netOutcomes calls n)
  | (r, n) => (r, [], n)

/-- A whole session in which every read yields a line, an error or the end. -/
def lineSession (b : Build) (cfg : Config) (answers : List Answer) (calls : List (Op × List Answer)) :
    Except Stop (Except ConnectError Unit) × List Outcome × World :=
  match Model.connect b cfg ⟨⟨false, [], cfg⟩, [], answers⟩ with
  | (.ok (.ok ()), w) => (.ok (.ok ()), outcomes calls w)
  | (r, w) => (r, [], w)

/-- Calls during which no read is interrupted, as long as it has to wait at most `k` times. -/
def patient (k : Nat) (calls : List (Op × List Answer)) : List NetCall :=
  calls.map fun c => ⟨c.1, c.2, List.replicate k .again⟩

/-- The same bytes arrive on two connections that then both stay open or are both closed. -/
def SameBytes (c₁ c₂ : List Net) : Prop :=
  arrived c₁ = arrived c₂ ∧ ending c₁ = ending c₂ ∧ ∀ e, Net.fail e ∉ c₁ ∧ Net.fail e ∉ c₂

end Tmi.Spec
