/-
Specification for C87 and C88: the first pair with a key, and which commands are terminated.
-/
import Verif.Model.Client

namespace Tmi.Spec
open Tmi.Model (Cmd)

/-- The value of the first pair with this key, if there is one. -/
def FirstPair (l : List (Bytes × Bytes)) (key : Bytes) (r : Option Bytes) : Prop :=
  (∀ v, r = some v ↔ ∃ pre post, l = pre ++ (key, v) :: post ∧ ∀ p ∈ pre, p.1 ≠ key) ∧
  (r = none ↔ ∀ p ∈ l, p.1 ≠ key)

/-- A raw message must be terminated; the other commands are. -/
def Terminated : Cmd → Prop
  | .raw s => [CR, LF] <:+ s
  | _ => True

end Tmi.Spec
