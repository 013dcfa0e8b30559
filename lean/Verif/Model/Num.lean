/-
`str::parse` for the integer types of the Rust standard library, and the numeric helpers of
src/msg.rs.
-/
import Verif.Base

namespace Tmi.Model

/-- The digit loop of `from_str_radix(_, 10)` in the standard library: checked multiplication, then
checked addition (or subtraction, for a negative number).
Called through `str::parse`, e.g. at src/msg.rs:205, 334, 338. -/
def parseDigits (lo hi : Int) (neg : Bool) : Bytes → (acc : Int) → Option Int
  | [], acc => some acc
  | c :: t, acc =>
    if 0x30 ≤ c ∧ c ≤ 0x39 then
      let d : Int := c.toNat - 48
      let mul := acc * 10
      if lo ≤ mul ∧ mul ≤ hi then
        let acc' := if neg then mul - d else mul + d
        if lo ≤ acc' ∧ acc' ≤ hi then parseDigits lo hi neg t acc' else none
      else none
    else none

/-- `<int>::from_str` of the standard library for a type with the range `lo ..= hi`.  A lone sign is
an error, `+` is skipped, `-` only for signed types.  (The standard library skips the overflow
checks on strings too short to overflow; the result is the same.)
Called through `str::parse`, e.g. at src/msg.rs:205, 334, 338. -/
def parseInt (signed : Bool) (lo hi : Int) (s : Bytes) : Option Int :=
  match s with
  | [] => none
  | c :: t =>
    if t = [] ∧ (c = 0x2B ∨ c = 0x2D) then none
    else if c = 0x2B then parseDigits lo hi false t 0
    else if c = 0x2D ∧ signed then parseDigits lo hi true t 0
    else parseDigits lo hi false (c :: t) 0

/-- `u64::MAX`, for the `u64`s parsed e.g. at src/msg.rs:338. -/
def u64Max : Int := 18446744073709551615
/-- `i64::MAX`, for the `i64`s parsed e.g. at src/msg.rs:334. -/
def i64Max : Int := 9223372036854775807
/-- `i64::MIN`, for the `i64`s parsed e.g. at src/msg.rs:334. -/
def i64Min : Int := -9223372036854775808

/-- `s.parse::<u8>().ok()`  src/msg.rs:383. -/
def parseU8 (s : Bytes) : Option Nat := (parseInt false 0 255 s).map Int.toNat
/-- `s.parse::<u64>().ok()`  E.g. src/msg.rs:338. -/
def parseU64 (s : Bytes) : Option Nat := (parseInt false 0 u64Max s).map Int.toNat
/-- `s.parse::<i64>().ok()`  E.g. src/msg.rs:334. -/
def parseI64 (s : Bytes) : Option Int := parseInt true i64Min i64Max s

/-- `i64` multiplication: panics in a build with overflow checks, wraps otherwise.
The multiplication at src/msg/room_state.rs:106. -/
def mulI64 (checks : Bool) (a b : Int) : R Int :=
  if i64Min ≤ a * b ∧ a * b ≤ i64Max then .ok (a * b)
  else if checks then .error .overflow
  else .ok ((a * b - i64Min) % 18446744073709551616 + i64Min)

/-- `x as u64` for `x : i64`.  The cast at src/msg/room_state.rs:106. -/
def i64AsU64 (n : Int) : Nat := (n % 18446744073709551616).toNat

/-- A `chrono::DateTime<Utc>`: seconds since the epoch, and nanoseconds.  A leap second, which only deserialisation can
produce, has a second more of nanoseconds in the last second of a minute.  The timestamps of src/msg.rs:332-335. -/
structure Timestamp where
  secs : Int
  nanos : Nat
  valid : nanos < 1000000000 ∨ nanos < 2000000000 ∧ secs % 60 = 59
deriving DecidableEq, Repr

/-- chrono's `timestamp_millis_opt` within its range: `div_euclid` and `rem_euclid` by 1000 (external).
Used at src/msg.rs:334. -/
def Timestamp.ofMillis (ms : Int) : Timestamp := ⟨ms / 1000, (ms % 1000).toNat * 1000000, .inl (by omega)⟩

/-- First and last millisecond that chrono 0.4.40 represents (`DateTime::<Utc>::MIN_UTC` and
`MAX_UTC`: years -262143 to 262142).  The range of `timestamp_millis_opt` at src/msg.rs:334. -/
def chronoMin : Int := -8334601228800 * 1000
/-- See `chronoMin` (src/msg.rs:334). -/
def chronoMax : Int := 8210266876799 * 1000 + 999

/-- `parse_timestamp` (src/msg.rs:332-335).  `timestamp_millis_opt` is `None` outside chrono's
range. -/
def parseTimestamp (s : Bytes) : Option Timestamp := do
  let ms ← parseI64 s
  if chronoMin ≤ ms ∧ ms ≤ chronoMax then some (.ofMillis ms) else none

/-- `Duration::from_secs` (external).  A `Duration` is modelled by its nanoseconds.
Used at src/msg.rs:338 and src/msg/room_state.rs:106, 114. -/
def fromSecs (secs : Nat) : Nat := secs * 1000000000

/-- `parse_duration` (src/msg.rs:337-339). -/
def parseDuration (s : Bytes) : Option Nat := (parseU64 s).map fromSecs

/-- `parse_bool` (src/msg.rs:382-384). -/
def parseBool (v : Bytes) : Bool :=
  match parseU8 v with
  | some n => n > 0
  | none => false

end Tmi.Model
