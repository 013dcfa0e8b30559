/-
Specification of whitespace-separated words, on characters.
-/
import Verif.Base

namespace Tmi.Spec

/-- Characters with the Unicode property White_Space. -/
def isWhite (c : Char) : Bool :=
  let n := c.val.toNat
  (9 ≤ n && n ≤ 13) || n == 0x20 || n == 0x85 || n == 0xA0 || n == 0x1680 ||
  (0x2000 ≤ n && n ≤ 0x200A) || n == 0x2028 || n == 0x2029 || n == 0x202F || n == 0x205F ||
  n == 0x3000

/-- Split at every whitespace character: always at least one (possibly empty) piece. -/
def pieces : List Char → List (List Char)
  | [] => [[]]
  | c :: cs =>
    if isWhite c then [] :: pieces cs
    else match pieces cs with
      | w :: ws => (c :: w) :: ws
      | [] => [[c]]

/-- The words of a text: the non-empty pieces. -/
def words (cs : List Char) : List (List Char) := (pieces cs).filter fun w => !w.isEmpty

/-- UTF-8 encoding. -/
def enc (cs : List Char) : Bytes := cs.flatMap String.utf8EncodeChar

end Tmi.Spec
