/-
How deep a value is nested.
-/
import Verif.Spec.Json

namespace Tmi.Spec.Json
open Tmi.Model (Value)

mutual

/-- How many arrays and objects are around the innermost value. -/
def nesting : Value → Nat
  | .seq l => nestingElems l + 1
  | .map kvs => nestingEntries kvs + 1
  | _ => 0

/-- The largest among the elements of an array. -/
def nestingElems : List Value → Nat
  | [] => 0
  | v :: vs => max (nesting v) (nestingElems vs)

/-- The largest among the entries of an object. -/
def nestingEntries : List (Bytes × Value) → Nat
  | [] => 0
  | (_, v) :: kvs => max (nesting v) (nestingEntries kvs)

end

/-- The value of a text in which at most `limit` arrays and objects are within one another.  serde_json refuses all others, its
limit is 127. -/
def readWithin (limit : Nat) (t : Bytes) : Option Value := (read t).filter fun v => nesting v ≤ limit

end Tmi.Spec.Json
