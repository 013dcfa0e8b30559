/-
`serde_json::to_string`, the text of what is serialised.  External: serde_json 1.0 (Cargo.toml:71), with which the project
tests its derives (src/msg/macros.rs:49).
-/
import Verif.Model.Serde
import Verif.Model.Debug

namespace Tmi.Model.Json

/-- One of the sixteen digits of the escapes, in lower case (external: serde_json, `write_char_escape`).
Reached from src/msg/macros.rs:49. -/
def hexByte (n : UInt8) : UInt8 := if n < 10 then 0x30 + n else 0x57 + n

/-- A byte of a string (external: serde_json, `format_escaped_str_contents` and its table `ESCAPE`): quotes, backslashes and
control characters are escaped, everything else is copied.  Reached from src/msg/macros.rs:49. -/
def escapeByte (x : UInt8) : Bytes :=
  if x = 0x22 then b!"\\\""
  else if x = 0x5C then b!"\\\\"
  else if x = 0x08 then b!"\\b"
  else if x = 0x09 then b!"\\t"
  else if x = 0x0A then b!"\\n"
  else if x = 0x0C then b!"\\f"
  else if x = 0x0D then b!"\\r"
  else if x < 0x20 then b!"\\u00" ++ [hexByte (x >>> 4), hexByte (x &&& 0x0F)]
  else [x]

/-- A string (external: serde_json, `format_escaped_str`).  Reached from src/msg/macros.rs:49. -/
def quote (s : Bytes) : Bytes := 0x22 :: (s.flatMap escapeByte ++ [0x22])

/-- An integer (external: serde_json, `write_u64`, `write_i64`).  Reached from src/msg/macros.rs:49. -/
def number (n : Int) : Bytes := if n < 0 then 0x2D :: decNat n.natAbs else decNat n.natAbs

mutual

/-- `serde_json::to_string` (external, with its `CompactFormatter`): no blanks anywhere.  Called at src/msg/macros.rs:49. -/
def text : Value → Bytes
  | .null => b!"null"
  | .bool true => b!"true"
  | .bool false => b!"false"
  | .num n => number n
  | .str s => quote s
  | .seq l => 0x5B :: (elems true l ++ [0x5D])
  | .map kvs => 0x7B :: (entries true kvs ++ [0x7D])

/-- The elements of an array (external: serde_json, `begin_array_value`): a comma before each but the first.
Reached from src/msg/macros.rs:49. -/
def elems : (first : Bool) → List Value → Bytes
  | _, [] => []
  | first, v :: vs => (if first then [] else [0x2C]) ++ text v ++ elems false vs

/-- The entries of an object (external: serde_json, `begin_object_key` and `begin_object_value`).
Reached from src/msg/macros.rs:49. -/
def entries : (first : Bool) → List (Bytes × Value) → Bytes
  | _, [] => []
  | first, (k, v) :: kvs => (if first then [] else [0x2C]) ++ quote k ++ [0x3A] ++ text v ++ entries false kvs

end

end Tmi.Model.Json
