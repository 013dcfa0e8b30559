/-
What a client keeps between calls: the bytes that its reader holds, and the text in its buffer.
-/
import Verif.Spec.Net

namespace Tmi.Spec
open Tmi.Model (Net Reader)

/-- How many received bytes the reader holds: the beginning of the line that is being read, and what is left of the last
read. -/
def held (r : Reader) : Nat := r.bytes.length + r.avail.length

/-- All bytes that a connection delivers. -/
def allBytes : List Net → Bytes
  | [] => []
  | .data bs :: net => bs ++ allBytes net
  | _ :: net => allBytes net

/-- No line, finished or not, has more than `limit` bytes. -/
def NoLongLine (limit : Nat) (s : Bytes) : Prop :=
  ∀ before l after, s = before ++ l ++ after → LF ∉ l → l.length ≤ limit

/-- No read yields more than `cap` bytes (the capacity of the `BufReader`). -/
def SmallReads (cap : Nat) (net : List Net) : Prop := ∀ bs, .data bs ∈ net → bs.length ≤ cap

end Tmi.Spec
