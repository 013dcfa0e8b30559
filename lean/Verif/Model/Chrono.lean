/-
The text of a point in time in serialised messages (external: chrono 0.4, `serde` feature), for the timestamp fields of
typed messages (e.g. src/msg/privmsg.rs:55).

`Serialize` writes `YYYY-MM-DDThh:mm:ss[.fraction]Z`, the text that `Debug` prints too.  `Deserialize` is
`FromStr`, the relaxed RFC 3339 of chrono; here without the white space it allows between the parts, and in the offset
without `UTC`, without U+2212 and always with the colon.
-/
import Verif.Model.Debug
import Verif.Model.Serde

namespace Tmi.Model.Chrono

/-- `u8::is_ascii_digit` (external), used for the timestamps of e.g. src/msg/privmsg.rs:55. -/
def isDigit (x : UInt8) : Bool := 0x30 ≤ x && x ≤ 0x39

/-- The number that digits stand for, in `scan::number` (external: chrono), for e.g. src/msg/privmsg.rs:55. -/
def value (ds : Bytes) : Nat := ds.foldl (fun n x => n * 10 + (x.toNat - 0x30)) 0

/-- `scan::number` (external: chrono), for e.g. src/msg/privmsg.rs:55: as many digits as there are, at least `min` and
at most `max`, of a number that fits an `i64`. -/
def number (min max : Nat) (s : Bytes) : Option (Nat × Bytes) :=
  let ds := (s.take max).takeWhile isDigit
  if ds.length < min ∨ value ds ≥ 2 ^ 63 then none else some (value ds, s.drop ds.length)

/-- `Item::Literal` of one character, or one of several (external: chrono), for e.g. src/msg/privmsg.rs:55. -/
def literal (xs : List UInt8) : Bytes → Option Bytes
  | [] => none
  | x :: s => if x ∈ xs then some s else none

/-- `Item::Numeric(Year)` (external: chrono), for e.g. src/msg/privmsg.rs:55: at most four digits, or a sign and any number
of digits. -/
def year : Bytes → Option (Int × Bytes)
  | 0x2D :: s => (number 1 s.length s).map fun (n, s) => (-(n : Int), s)
  | 0x2B :: s => (number 1 s.length s).map fun (n, s) => ((n : Int), s)
  | s => (number 1 4 s).map fun (n, s) => ((n : Int), s)

/-- `Fixed::Nanosecond` (external: chrono), for e.g. src/msg/privmsg.rs:55: nothing, or a point and digits, of which nine
count. -/
def fraction : Bytes → Option (Nat × Bytes)
  | 0x2E :: s =>
    let ds := s.takeWhile isDigit
    if ds = [] then none
    else
      let ns := ds.take 9
      some (value ns * 10 ^ (9 - ns.length), s.drop ds.length)
  | s => some (0, s)

/-- `scan::timezone_offset` (external: chrono), for e.g. src/msg/privmsg.rs:55: `Z`, or hours and minutes east of
Greenwich; in seconds. -/
def offset : Bytes → Option (Int × Bytes)
  | 0x5A :: s => some (0, s)
  | 0x7A :: s => some (0, s)
  | x :: s => do
    if x ≠ 0x2B ∧ x ≠ 0x2D then none else
    let (h, s) ← number 2 2 s
    let s ← literal [0x3A] s
    let (m, s) ← number 2 2 s
    if m ≥ 60 ∨ h ≥ 24 then none
    else
      let o : Int := h * 3600 + m * 60
      some (if x = 0x2D then -o else o, s)
  | [] => none

/-- `NaiveDate::num_days_from_ce` (external: chrono), from 1970, for e.g. src/msg/privmsg.rs:55.  chrono avoids divisions of
negative numbers by adding cycles of 400 years; `/` here rounds down. -/
def days (year : Int) (month day : Nat) : Int :=
  let y := year - 1
  let leap := year % 4 = 0 ∧ (year % 100 ≠ 0 ∨ year % 400 = 0)
  1461 * y / 4 - y / 100 + y / 400 + ((monthLengths leap).take (month - 1)).sum + day - 719163

/-- `Parsed::to_datetime` (external: chrono), for e.g. src/msg/privmsg.rs:55: `none` unless there is such a time, in the range of
`DateTime<Utc>`.  Second 60 is a leap second. -/
def resolve (year : Int) (month day hour min sec nanos : Nat) (offset : Int) : Option Timestamp :=
  let leap := year % 4 = 0 ∧ (year % 100 ≠ 0 ∨ year % 400 = 0)
  if month < 1 ∨ 12 < month ∨ day < 1 ∨ (monthLengths leap).getD (month - 1) 0 < day ∨ 24 ≤ hour ∨ 60 ≤ min ∨ 60 < sec ∨
      year < -262143 ∨ 262142 < year then none
  else
    let nanos := if sec = 60 then nanos + 1000000000 else nanos
    let sec := if sec = 60 then 59 else sec
    let secs := days year month day * 86400 + hour * 3600 + min * 60 + sec - offset
    if h : nanos < 1000000000 ∨ nanos < 2000000000 ∧ secs % 60 = 59 then
      if -8334601228800 ≤ secs ∧ secs < 8210266876800 then some ⟨secs, nanos, h⟩ else none
    else none

/-- `FromStr for DateTime<FixedOffset>` and the conversion to UTC (external: chrono), for e.g. src/msg/privmsg.rs:55. -/
def read (s : Bytes) : Option Timestamp := do
  let (y, s) ← year s
  let s ← literal [0x2D] s
  let (month, s) ← number 1 2 s
  let s ← literal [0x2D] s
  let (day, s) ← number 1 2 s
  let s ← literal [0x54, 0x74, 0x20] s
  let (hour, s) ← number 1 2 s
  let s ← literal [0x3A] s
  let (min, s) ← number 1 2 s
  let s ← literal [0x3A] s
  let (sec, s) ← number 1 2 s
  let (nanos, s) ← fraction s
  let (o, s) ← offset s
  if s = [] then resolve y month day hour min sec nanos o else none

/-- `Serialize` and `Deserialize` for `DateTime<Utc>` (external: chrono), for e.g. src/msg/privmsg.rs:55. -/
def codec : TimeCodec := ⟨timestampText, read⟩

end Tmi.Model.Chrono
