/-
Foundations: bytes, faults, Rust string slicing, UTF-8.
-/

namespace Tmi

/-- A Rust `&str`/`[u8]`, by contents. -/
abbrev Bytes := List UInt8

/-- `b!"text"` is the list of UTF-8 bytes of the literal, expanded when the file is elaborated, so
that it is an explicit list of numerals for the kernel. -/
syntax (name := bytesLit) "b!" noWs str : term

open Lean in
macro_rules
  | `(b!$s:str) => do
    let bs := s.getString.toUTF8.toList
    let mut acc : TSyntax `term ← `(([] : List UInt8))
    for b in bs.reverse do
      acc ← `(List.cons ($(quote b.toNat) : UInt8) $acc)
    return acc

/-- What can go wrong at run time.  Every constructor is a Rust panic or undefined behaviour. -/
inductive Fault where
  /-- `str` slicing out of range, inverted, or not at a character boundary -/
  | slice
  /-- array index out of bounds -/
  | index
  /-- the tag array is full: an array index out of bounds in `Array::push` -/
  | full
  /-- arithmetic overflow -/
  | overflow
  /-- vector load outside the slice -/
  | oob
  /-- aligned vector load at an unaligned address -/
  | misaligned
  /-- a loop ran longer than the bound the model gives it (non-termination) -/
  | diverge
deriving DecidableEq, Repr

/-- Computations that may panic. -/
abbrev R := Except Fault

deriving instance DecidableEq for Except

/-- `usize` subtraction.  Faults on underflow (a panic in debug builds; in release builds it would
wrap; the theorems show it never happens). -/
def usub (a b : Nat) : R Nat := if b ≤ a then .ok (a - b) else .error .overflow

/-- `x as u32` for `x : usize`. -/
def asU32 (n : Nat) : Nat := n % 4294967296

/-- `x as u16` for `x : usize`. -/
def asU16 (n : Nat) : Nat := n % 65536

/-- `u32` addition: panics in a build with overflow checks, wraps otherwise. -/
def addU32 (checks : Bool) (a b : Nat) : R Nat :=
  if a + b < 4294967296 then .ok (a + b)
  else if checks then .error .overflow
  else .ok ((a + b) % 4294967296)

/-- UTF-8 continuation byte: `(b as i8) < -0x40`. -/
def isCont (b : UInt8) : Bool := 0x80 ≤ b && b < 0xC0

/-- `str::is_char_boundary` of the standard library. -/
def isCharBoundary (s : Bytes) (i : Nat) : Bool :=
  match i with
  | 0 => true
  | i + 1 =>
    match s[i + 1]? with
    | some b => !isCont b
    | none => i + 1 == s.length

/-- `&s[a..b]` for `s : &str`. -/
def strSlice (s : Bytes) (a b : Nat) : R Bytes :=
  if a ≤ b && isCharBoundary s a && isCharBoundary s b then .ok ((s.drop a).take (b - a))
  else .error .slice

/-- `&s[a..]` for `s : &str`. -/
def strFrom (s : Bytes) (a : Nat) : R Bytes :=
  if isCharBoundary s a then .ok (s.drop a) else .error .slice

/-- `s.find(c)` for an ASCII character `c`: byte offset of the first occurrence. -/
def find (x : UInt8) : Bytes → Option Nat
  | [] => none
  | y :: t => if y = x then some 0 else (find x t).map (· + 1)

/-- `s.starts_with(c)` for an ASCII character `c`. -/
def startsWith (x : UInt8) : Bytes → Bool
  | [] => false
  | y :: _ => y == x

/-- A byte string is valid UTF-8: it encodes some list of Unicode scalar values. -/
def Utf8 (s : Bytes) : Prop := ∃ cs : List Char, s = cs.flatMap String.utf8EncodeChar

/-- Bytes of the ASCII characters the parsers look for. -/
abbrev SP : UInt8 := 0x20
abbrev AT : UInt8 := 0x40
abbrev COLON : UInt8 := 0x3A
abbrev SEMI : UInt8 := 0x3B
abbrev EQS : UInt8 := 0x3D
abbrev HASH : UInt8 := 0x23
abbrev BANG : UInt8 := 0x21
abbrev COMMA : UInt8 := 0x2C
abbrev SLASH : UInt8 := 0x2F
abbrev BSLASH : UInt8 := 0x5C
abbrev CR : UInt8 := 0x0D
abbrev LF : UInt8 := 0x0A

end Tmi
