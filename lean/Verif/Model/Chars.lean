/-
`str::chars` of the Rust standard library: decoding UTF-8.
-/
import Verif.Base
import Verif.Spec.Words

namespace Tmi.Model

/-- `s.chars()`, collected.  Only used on valid UTF-8, where it inverts the encoding
(`decode_enc`).  The characters iterated over at src/irc.rs:342 and src/lib.rs:65. -/
def decode : Bytes → List Char
  | [] => []
  | a :: t =>
    if a < 0x80 then Char.ofNat a.toNat :: decode t
    else if a < 0xE0 then
      match t with
      | b :: t => Char.ofNat (a.toNat % 32 * 64 + b.toNat % 64) :: decode t
      | _ => []
    else if a < 0xF0 then
      match t with
      | b :: c :: t =>
        Char.ofNat (a.toNat % 16 * 4096 + b.toNat % 64 * 64 + c.toNat % 64) :: decode t
      | _ => []
    else
      match t with
      | b :: c :: d :: t =>
        Char.ofNat (a.toNat % 8 * 262144 + b.toNat % 64 * 4096 + c.toNat % 64 * 64 + d.toNat % 64)
          :: decode t
      | _ => []

end Tmi.Model
