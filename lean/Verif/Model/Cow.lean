/-
`Cow<'_, str>`: whether a text is borrowed or has been copied.
-/
import Verif.Model.Escape

namespace Tmi.Model

/-- `Cow<'_, str>` of the standard library, as used in src/lib.rs:42-57. -/
inductive Cow where
  | borrowed (s : Bytes)
  | owned (s : Bytes)
deriving DecidableEq, Repr

/-- The text of a `Cow` (its `Deref`), as in src/lib.rs:50-52. -/
def Cow.text : Cow → Bytes
  | .borrowed s => s
  | .owned s => s

/-- The `for` loop of `maybe_unescape` (src/lib.rs:50-55), which is left at the first backslash: `rest` is what follows
the first `i` bytes. -/
def Cow.unescapeFrom (value : Cow) : (rest : Bytes) → (i : Nat) → R Cow
  | [], _ => .ok value
  | c :: rest, i =>
    if c = BSLASH then do return .owned (← actuallyUnescape value.text i)
    else Cow.unescapeFrom value rest (i + 1)

/-- `maybe_unescape` (src/lib.rs:48-57). -/
def Cow.maybeUnescape (value : Cow) : R Cow := value.unescapeFrom value.text 0

end Tmi.Model
