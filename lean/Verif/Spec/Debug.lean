/-
What a printed value says.
-/
import Verif.Model.Debug
import Verif.Spec.Num

namespace Tmi.Spec
open Model

mutual
/-- The strings in a printed value. -/
def _root_.Tmi.Model.Dbg.strings : Dbg → List Bytes
  | .atom _ => []
  | .str s => [s]
  | .node _ items => items.strings
/-- The strings in the fields of a printed value. -/
def _root_.Tmi.Model.Items.strings : Items → List Bytes
  | .nil => []
  | .cons _ v rest => v.strings ++ rest.strings
end

/-! ### Dates -/

/-- Leap years of the Gregorian calendar. -/
def Leap (year : Int) : Prop := year % 4 = 0 ∧ (year % 100 ≠ 0 ∨ year % 400 = 0)

instance (year : Int) : Decidable (Leap year) := inferInstanceAs (Decidable (_ ∧ _))

/-- The number of days of a month (from 1). -/
def daysIn (year : Int) (month : Nat) : Nat :=
  if month = 2 then (if Leap year then 29 else 28)
  else if month = 4 ∨ month = 6 ∨ month = 9 ∨ month = 11 then 30
  else 31

/-- The number of days of a year before a month. -/
def daysBefore (year : Int) : (month : Nat) → Nat
  | 0 => 0
  | 1 => 0
  | m + 2 => daysBefore year (m + 1) + daysIn year (m + 1)

/-- `day` days after 1970-01-01 is the given date. -/
structure IsDate (day year : Int) (month dom : Nat) : Prop where
  inYear : 1 ≤ month ∧ month ≤ 12
  inMonth : 1 ≤ dom ∧ dom ≤ daysIn year month
  count : day = daysTo year + daysBefore year month + dom - 1

/-- The last `w` decimal digits of a number. -/
def digitsOf : (w n : Nat) → Bytes
  | 0, _ => []
  | w + 1, n => digitsOf w (n / 10) ++ [UInt8.ofNat (48 + n % 10)]

/-- How a year is written: four digits; a sign, and as many digits as needed, before year 0 and after
year 9999. -/
def showYear (y : Int) : Bytes :=
  if 0 ≤ y ∧ y < 10000 then digitsOf 4 y.toNat
  else (if y < 0 then b!"-" else b!"+") ++ (if y.natAbs < 10000 then digitsOf 4 y.natAbs else showNat y.natAbs)

/-- How a fraction of a second is written: not at all, or in milliseconds, microseconds or nanoseconds. -/
def showFraction (nanos : Nat) : Bytes :=
  if nanos = 0 then []
  else if nanos % 1000000 = 0 then b!"." ++ digitsOf 3 (nanos / 1000000)
  else if nanos % 1000 = 0 then b!"." ++ digitsOf 6 (nanos / 1000)
  else b!"." ++ digitsOf 9 nanos

/-- How a date and a time are written. -/
def showTime (year : Int) (month dom hour min sec nanos : Nat) : Bytes :=
  showYear year ++ b!"-" ++ digitsOf 2 month ++ b!"-" ++ digitsOf 2 dom ++ b!"T" ++
    digitsOf 2 hour ++ b!":" ++ digitsOf 2 min ++ b!":" ++ digitsOf 2 sec ++ showFraction nanos ++ b!"Z"

/-- How a point in time (UTC) is written.  A leap second is second 60 of its minute; chrono counts it as a second more
of nanoseconds after second 59. -/
inductive ShowsTime (t : Timestamp) : Bytes → Prop where
  | mk (day year : Int) (month dom hour min sec : Nat) (hd : IsDate day year month dom)
      (hh : hour < 24) (hm : min < 60) (hs : sec < 60) (hn : t.nanos < 1000000000)
      (ht : t.secs = day * 86400 + hour * 3600 + min * 60 + sec) :
    ShowsTime t (showTime year month dom hour min sec t.nanos)
  | leap (day year : Int) (month dom hour min nanos : Nat) (hd : IsDate day year month dom)
      (hh : hour < 24) (hm : min < 60) (hn : nanos < 1000000000) (hl : t.nanos = 1000000000 + nanos)
      (ht : t.secs = day * 86400 + hour * 3600 + min * 60 + 59) :
    ShowsTime t (showTime year month dom hour min 60 nanos)

/-! ### Raw messages -/

/-- Two raw messages that no accessor shown by `Debug` can tell apart. -/
structure SameView (m m' : MsgRef) : Prop where
  tags : m.tags = m'.tags
  prefix? : m.prefix? = m'.prefix?
  command : m.command = m'.command
  channel : m.channel = m'.channel
  params : m.params = m'.params

end Tmi.Spec
