/-
Specification of decimal numbers.
-/
import Verif.Base
import Verif.Model.Num

namespace Tmi.Spec

/-- A non-empty string of ASCII digits. -/
def Digits (s : Bytes) : Prop := s ≠ [] ∧ ∀ c ∈ s, 0x30 ≤ c ∧ c ≤ 0x39

/-- The value of a string of digits. -/
def decimal (s : Bytes) : Nat := s.foldl (fun n c => n * 10 + (c.toNat - 48)) 0

/-- The decimal form of a number. -/
def showNat (n : Nat) : Bytes :=
  if h : n < 10 then [UInt8.ofNat (48 + n)]
  else showNat (n / 10) ++ [UInt8.ofNat (48 + n % 10)]
termination_by n

/-- The decimal form of an integer. -/
def showInt (n : Int) : Bytes :=
  if n < 0 then 0x2D :: showNat n.natAbs else showNat n.natAbs

/-- `s` denotes the natural number `n`. -/
def IsNat (s : Bytes) (n : Nat) : Prop :=
  ∃ ds, Digits ds ∧ (s = ds ∨ s = 0x2B :: ds) ∧ decimal ds = n

/-- `s` denotes the integer `n`. -/
def IsInt (s : Bytes) (n : Int) : Prop :=
  (∃ k : Nat, IsNat s k ∧ n = k) ∨ (∃ ds, Digits ds ∧ s = 0x2D :: ds ∧ n = -(decimal ds : Int))

/-- Days from 1970-01-01 to the first of January of a year, in the Gregorian calendar. -/
def daysTo (year : Int) : Int :=
  let y := year - 1
  365 * y + y / 4 - y / 100 + y / 400 - 719162

/-- The milliseconds since 1970 that chrono can represent: the years -262143 to 262142. -/
def InChrono (t : Int) : Prop := daysTo (-262143) * 86400000 ≤ t ∧ t < daysTo 262143 * 86400000

/-- The point in time `t` is `ms` milliseconds after the start of 1970. -/
def AtMilli (t : Model.Timestamp) (ms : Int) : Prop :=
  t.nanos < 1000000000 ∧ t.secs * 1000000000 + t.nanos = ms * 1000000

end Tmi.Spec
