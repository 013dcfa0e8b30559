/-
What a program has issued on the connection its client now uses.
-/
import Verif.Spec.Client

namespace Tmi.Spec
open Tmi.Model (Cmd Answer World Build Config Effect)

/-- A client made by `connect` with the configuration `cfg`, any calls made on it since, anything having
happened during each, including that the caller dropped it: `rs` tells of every `reconnect` so far whether
it returned `Ok` and on how many connections it began to talk; `cs` are the commands issued since the client
began to talk on its newest connection, each with whether the call returned `Ok`. -/
inductive Since (cfg : Config) : List (Bool × Nat) → List (Cmd × Bool) → World → Prop
  | connect (b : Build) (w : World) (h : (Model.connect b cfg w).1 = .ok (.ok ())) :
      Since cfg [] [] (Model.connect b cfg w).2
  | send {rs : List (Bool × Nat)} {cs : List (Cmd × Bool)} {w : World} (s : Since cfg rs cs w) (c : Cmd)
      (answers : List Answer) :
      Since cfg rs (cs ++ [(c, returnedOk (c.send { w with script := answers }).1)])
        (c.send { w with script := answers }).2
  | recv {rs : List (Bool × Nat)} {cs : List (Cmd × Bool)} {w : World} (s : Since cfg rs cs w) (b : Build)
      (answers : List Answer) : Since cfg rs cs (Model.recv b { w with script := answers }).2
  | reconnect {rs : List (Bool × Nat)} {cs : List (Cmd × Bool)} {w : World} (s : Since cfg rs cs w)
      (b : Build) (answers : List Answer) (ev : List Effect)
      (hev : (Model.reconnect b { w with script := answers }).2.log = w.log ++ ev) :
      Since cfg (rs ++ [(returnedOk (Model.reconnect b { w with script := answers }).1, connections ev)])
        (if connections ev = 0 then cs else []) (Model.reconnect b { w with script := answers }).2

/-- The last `reconnect` that began to talk on a connection, if there was one, returned `Ok`. -/
def welcomed (rs : List (Bool × Nat)) : Bool :=
  match (rs.filter (·.2 != 0)).getLast? with
  | none => true
  | some r => r.1

/-- The bytes of the commands `cs`, in order: each contributed a beginning of its own bytes, all of them if
its call returned `Ok` and not all of them otherwise.  `n` copies of the greeting wait before the first, and go out in front of the first
command that is not a `send_raw`; `m` still wait at the end. -/
inductive Portions (hi : Bytes) (n : Nat) : List (Cmd × Bool) → Nat → Bytes → Prop
  | none : Portions hi n [] n []
  | raw {cs : List (Cmd × Bool)} {m : Nat} {q : Bytes} (h : Portions hi n cs m q) (s : Bytes) (ok : Bool)
      (p : Bytes) (hp : p <+: commandBytes (.raw s)) (hok : ok = true → p = commandBytes (.raw s))
      (hno : s ≠ [] → p = commandBytes (.raw s) → ok = true) :
      Portions hi n (cs ++ [(.raw s, ok)]) m (q ++ p)
  | own {cs : List (Cmd × Bool)} {m : Nat} {q : Bytes} (h : Portions hi n cs m q) (c : Cmd) (ok : Bool)
      (hc : ∀ s, c ≠ .raw s) (p : Bytes) (hp : p <+: copies m hi ++ commandBytes c)
      (hok : ok = true → p = copies m hi ++ commandBytes c) (hno : p = copies m hi ++ commandBytes c → ok = true) :
      Portions hi n (cs ++ [(c, ok)]) 0 (q ++ p)

/-- A client made by `connect` with the configuration `cfg` where nothing was connected before, and any calls made on
it since: for each of its connections so far, oldest first, whether the `connect` or `reconnect` that opened it
returned `Ok` while it was the newest, and the commands issued while it was the newest, each with whether its call
returned `Ok`. -/
inductive Lives (cfg : Config) : List (Bool × List (Cmd × Bool)) → World → Prop
  | connect (b : Build) (w : World) (hw : connections w.log = 0) (h : (Model.connect b cfg w).1 = .ok (.ok ())) :
      Lives cfg [(true, [])] (Model.connect b cfg w).2
  | send {old : List (Bool × List (Cmd × Bool))} {ok : Bool} {cs : List (Cmd × Bool)} {w : World}
      (s : Lives cfg (old ++ [(ok, cs)]) w) (c : Cmd) (answers : List Answer) :
      Lives cfg (old ++ [(ok, cs ++ [(c, returnedOk (c.send { w with script := answers }).1)])])
        (c.send { w with script := answers }).2
  | recv {all : List (Bool × List (Cmd × Bool))} {w : World} (s : Lives cfg all w) (b : Build)
      (answers : List Answer) : Lives cfg all (Model.recv b { w with script := answers }).2
  | idle {all : List (Bool × List (Cmd × Bool))} {w : World} (s : Lives cfg all w) (b : Build)
      (answers : List Answer) (ev : List Effect)
      (hev : (Model.reconnect b { w with script := answers }).2.log = w.log ++ ev) (h : connections ev = 0) :
      Lives cfg all (Model.reconnect b { w with script := answers }).2
  | reconnect {all : List (Bool × List (Cmd × Bool))} {w : World} (s : Lives cfg all w) (b : Build)
      (answers : List Answer) (ev : List Effect) (n : Nat)
      (hev : (Model.reconnect b { w with script := answers }).2.log = w.log ++ ev) (h : connections ev = n + 1) :
      Lives cfg (all ++ List.replicate n (false, []) ++
          [(returnedOk (Model.reconnect b { w with script := answers }).1, [])])
        (Model.reconnect b { w with script := answers }).2

end Tmi.Spec
