/-
Specification of what is received from a connection, in terms of the bytes that arrive on it.
-/
import Verif.Spec.Client
import Verif.Model.Lines

namespace Tmi.Spec
open Tmi.Model (Net IoError Reader Build RecvError MsgOwned Polled Stop)

/-- The bytes that arrive on a connection before it is closed or fails. -/
def arrived : List Net → Bytes
  | .data bs :: net => bs ++ arrived net
  | .pending :: net => arrived net
  | _ => []

/-- How the connection ends. -/
inductive Ending where
  | open_ | closed | failed (e : IoError)
deriving DecidableEq

/-- How the connection ends. -/
def ending : List Net → Ending
  | [] => .open_
  | .data _ :: net => ending net
  | .pending :: net => ending net
  | .fail e :: _ => .failed e
  | .eof :: _ => .closed

/-- The text after the last `\n`. -/
def unterminated (wire : Bytes) : Bytes := (fields LF wire).getLast?.getD []

open Classical in
/-- A line as the application gets it: it must be UTF-8. -/
noncomputable def deliver (l : Bytes) : Except IoError Bytes :=
  if Utf8 l then .ok l else .error ⟨.invalidData, 0⟩

/-- The lines of a connection on which `wire` arrives, as the application gets them. -/
noncomputable def delivered (wire : Bytes) : List (Except IoError Bytes) := (receivedLines wire).map deliver

/-- The same if the connection is then closed in an orderly way: text after the last `\n` counts as a line, too. -/
noncomputable def deliveredAll (wire : Bytes) : List (Except IoError Bytes) :=
  delivered wire ++ if unterminated wire = [] then [] else [deliver (unterminated wire)]

/-- The items that come out of the reader when it is polled `n` times while the connection does `net`. -/
def pollMany : Nat → Reader → List Net → List (Option (Except IoError Bytes))
  | 0, _, _ => []
  | n + 1, r, net =>
    match r.poll net with
    | ⟨.pending, r, net⟩ => pollMany n r net
    | ⟨.ready i, r, net⟩ => i :: pollMany n r net

/-- What calls of `recv` return while their futures are polled `n` times in total; a call may be dropped and made
again between any two polls. -/
def recvPolls (b : Build) : Nat → Reader → List Net → List (Except Stop (Except RecvError MsgOwned))
  | 0, _, _ => []
  | n + 1, r, net =>
    match Model.recvPoll b r net with
    | ⟨.pending, r, net⟩ => recvPolls b n r net
    | ⟨.ready x, r, net⟩ => x :: recvPolls b n r net

end Tmi.Spec
