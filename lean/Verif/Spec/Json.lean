/-
Specification of JSON texts (RFC 8259) as a reader.  Numbers that are not integers are not read: no message has any.
-/
import Verif.Spec.Num
import Verif.Spec.Words
import Verif.Model.Serde

namespace Tmi.Spec.Json
open Tmi.Model (Value)

/-- Leave out blanks: space, tab, line feed, carriage return (section 2). -/
def blank (t : Bytes) : Bytes := t.dropWhile fun x => x == 0x20 || x == 0x09 || x == 0x0A || x == 0x0D

/-- What a character after a backslash stands for, other than `u` (section 7). -/
def simple (x : UInt8) : Option UInt8 :=
  if x = 0x22 then some 0x22        -- quotation mark
  else if x = 0x5C then some 0x5C   -- backslash
  else if x = 0x2F then some 0x2F   -- slash
  else if x = 0x62 then some 0x08   -- b, backspace
  else if x = 0x66 then some 0x0C   -- f, form feed
  else if x = 0x6E then some 0x0A   -- n, line feed
  else if x = 0x72 then some 0x0D   -- r, carriage return
  else if x = 0x74 then some 0x09   -- t, tab
  else none

/-- The value of a hexadecimal digit. -/
def hexOf (x : UInt8) : Option Nat :=
  if 0x30 ≤ x ∧ x ≤ 0x39 then some (x.toNat - 48)
  else if 0x61 ≤ x ∧ x ≤ 0x66 then some (x.toNat - 87)
  else if 0x41 ≤ x ∧ x ≤ 0x46 then some (x.toNat - 55)
  else none

/-- Four hexadecimal digits. -/
def hex4 (a b c d : UInt8) : Option Nat := do
  return (((← hexOf a) * 16 + (← hexOf b)) * 16 + (← hexOf c)) * 16 + (← hexOf d)

/-- The rest of a string after its quotation mark: the string, and what follows it (section 7). -/
def readString : Bytes → Option (Bytes × Bytes)
  | [] => none
  | 0x22 :: r => some ([], r)
  | [0x5C] => none
  | 0x5C :: 0x75 :: a :: b :: c :: d :: r =>
    match hex4 a b c d with
    | none => none
    | some n =>
      if 0xDC00 ≤ n ∧ n < 0xE000 then none
      else if 0xD800 ≤ n ∧ n < 0xDC00 then
        match r with
        | 0x5C :: 0x75 :: e :: f :: g :: h :: r =>
          match hex4 e f g h with
          | none => none
          | some m =>
            if 0xDC00 ≤ m ∧ m < 0xE000 then
              (readString r).map fun (s, r) =>
                (String.utf8EncodeChar (Char.ofNat (0x10000 + (n - 0xD800) * 1024 + (m - 0xDC00))) ++ s, r)
            else none
        | _ => none
      else (readString r).map fun (s, r) => (String.utf8EncodeChar (Char.ofNat n) ++ s, r)
  | 0x5C :: e :: r =>
    match simple e with
    | none => none
    | some x => (readString r).map fun (s, r) => (x :: s, r)
  | x :: r => if x < 0x20 then none else (readString r).map fun (s, r) => (x :: s, r)

/-- A digit. -/
def isDigit (x : UInt8) : Bool := decide (0x30 ≤ x) && decide (x ≤ 0x39)

/-- Digits as a number, and what follows: no leading zeros, no fraction, no exponent (section 6). -/
def readNat (t : Bytes) : Option (Nat × Bytes) :=
  let ds := t.takeWhile isDigit
  let r := t.dropWhile isDigit
  if ds = [] then none
  else if ds.head? = some 0x30 ∧ ds.length ≠ 1 then none
  else if r.head? = some 0x2E ∨ r.head? = some 0x65 ∨ r.head? = some 0x45 then none
  else some (decimal ds, r)

/-- An integer. -/
def readInt (t : Bytes) : Option (Int × Bytes) :=
  match t with
  | 0x2D :: r => (readNat r).bind fun (n, r) => if n = 0 then none else some (-(n : Int), r)
  | t => (readNat t).map fun (n, r) => ((n : Int), r)

/-- `t` without the word `w` at its front. -/
def word (w t : Bytes) : Option Bytes := if t.take w.length = w then some (t.drop w.length) else none

mutual

/-- A value, and what follows it (section 3).  The number bounds how much of the text is looked at. -/
def readValue : Nat → Bytes → Option (Value × Bytes)
  | 0, _ => none
  | n + 1, t =>
    match blank t with
    | [] => none
    | c :: r =>
      if c = 0x22 then (readString r).map fun (s, r) => (.str s, r)
      else if c = 0x5B then
        if (blank r).head? = some 0x5D then some (.seq [], (blank r).tail)
        else
          match readValue n r with
          | none => none
          | some (v, r) => (readElems n r).map fun (vs, r) => (.seq (v :: vs), r)
      else if c = 0x7B then
        if (blank r).head? = some 0x7D then some (.map [], (blank r).tail)
        else
          match readEntry n r with
          | none => none
          | some (kv, r) => (readEntries n r).map fun (kvs, r) => (.map (kv :: kvs), r)
      else if c = 0x2D ∨ isDigit c then (readInt (c :: r)).map fun (n, r) => (.num n, r)
      else
        match word (b!"null") (c :: r), word (b!"true") (c :: r), word (b!"false") (c :: r) with
        | some r, _, _ => some (.null, r)
        | _, some r, _ => some (.bool true, r)
        | _, _, some r => some (.bool false, r)
        | _, _, _ => none

/-- The elements of an array after the first one (section 5). -/
def readElems : Nat → Bytes → Option (List Value × Bytes)
  | 0, _ => none
  | n + 1, t =>
    match blank t with
    | [] => none
    | c :: r =>
      if c = 0x5D then some ([], r)
      else if c = 0x2C then
        match readValue n r with
        | none => none
        | some (v, r) => (readElems n r).map fun (vs, r) => (v :: vs, r)
      else none

/-- An entry of an object: a name, a colon and a value (section 4). -/
def readEntry : Nat → Bytes → Option ((Bytes × Value) × Bytes)
  | 0, _ => none
  | n + 1, t =>
    match blank t with
    | [] => none
    | c :: r =>
      if c = 0x22 then
        match readString r with
        | none => none
        | some (k, r) =>
          match blank r with
          | [] => none
          | c :: r => if c = 0x3A then (readValue n r).map fun (v, r) => ((k, v), r) else none
      else none

/-- The entries of an object after the first one (section 4). -/
def readEntries : Nat → Bytes → Option (List (Bytes × Value) × Bytes)
  | 0, _ => none
  | n + 1, t =>
    match blank t with
    | [] => none
    | c :: r =>
      if c = 0x7D then some ([], r)
      else if c = 0x2C then
        match readEntry n r with
        | none => none
        | some (kv, r) => (readEntries n r).map fun (kvs, r) => (kv :: kvs, r)
      else none

end

/-- The value that a JSON text stands for (section 2). -/
def read (t : Bytes) : Option Value :=
  match readValue (t.length + 1) t with
  | some (v, r) => if blank r = [] then some v else none
  | none => none

end Tmi.Spec.Json
