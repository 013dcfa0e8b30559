/-
Which texts stand for a point in time.  Left out, as in Model/Chrono.lean: white space between the parts and, in the
offset, `UTC`, U+2212 and a colon left out.
-/
import Verif.Spec.Debug
import Verif.Spec.Num

namespace Tmi.Spec
open Model

/-- A number written with at least `least` and at most `most` digits. -/
def Figures (least most : Nat) (s : Bytes) (n : Nat) : Prop :=
  least ≤ s.length ∧ s.length ≤ most ∧ Digits s ∧ decimal s = n

/-- A year: up to four digits, or a sign and any number of digits. -/
inductive YearOf : Bytes → Int → Prop where
  | plain {s : Bytes} {n : Nat} (h : Figures 1 4 s n) : YearOf s n
  | plus {s : Bytes} (h : Digits s) : YearOf (b!"+" ++ s) (decimal s)
  | minus {s : Bytes} (h : Digits s) : YearOf (b!"-" ++ s) (-(decimal s : Int))

/-- A fraction of a second, in nanoseconds: nothing, or a point and digits, of which those behind the ninth are left out. -/
inductive FractionOf : Bytes → Nat → Prop where
  | none : FractionOf [] 0
  | some {s : Bytes} (h : Digits s) : FractionOf (b!"." ++ s) (decimal ((s ++ b!"000000000").take 9))

/-- How many seconds ahead of UTC the time is that stands in front of this. -/
inductive OffsetOf : Bytes → Int → Prop where
  | utc {s : Bytes} (h : s = b!"Z" ∨ s = b!"z") : OffsetOf s 0
  | ahead {sh sm : Bytes} {h m : Nat} (fh : Figures 2 2 sh h) (fm : Figures 2 2 sm m) (hh : h < 24) (hm : m < 60) :
    OffsetOf (b!"+" ++ sh ++ b!":" ++ sm) (h * 3600 + m * 60)
  | behind {sh sm : Bytes} {h m : Nat} (fh : Figures 2 2 sh h) (fm : Figures 2 2 sm m) (hh : h < 24) (hm : m < 60) :
    OffsetOf (b!"-" ++ sh ++ b!":" ++ sm) (-(h * 3600 + m * 60))

/-- The text stands for the point in time: a date, a time of day and how far that is ahead of UTC.  Second 60 is a leap
second.  Both the date and the time in UTC are in the range of chrono. -/
inductive TimeOf (t : Timestamp) : Bytes → Prop where
  | mk {sy sm sd sh si ss sf so : Bytes} {sep : UInt8} {day y o : Int} {month dom hour min sec nanos : Nat}
      (fy : YearOf sy y) (fm : Figures 1 2 sm month) (fd : Figures 1 2 sd dom) (hsep : sep ∈ b!"Tt ")
      (fh : Figures 1 2 sh hour) (fi : Figures 1 2 si min) (fs : Figures 1 2 ss sec) (ff : FractionOf sf nanos)
      (fo : OffsetOf so o) (date : IsDate day y month dom) (hh : hour < 24) (hm : min < 60) (hs : sec ≤ 60)
      (year : -262143 ≤ y ∧ y ≤ 262142)
      (secs : t.secs = day * 86400 + hour * 3600 + min * 60 + (if sec = 60 then 59 else sec : Nat) - o)
      (nano : t.nanos = if sec = 60 then nanos + 1000000000 else nanos)
      (range : daysTo (-262143) * 86400 ≤ t.secs ∧ t.secs < daysTo 262143 * 86400) :
    TimeOf t (sy ++ b!"-" ++ sm ++ b!"-" ++ sd ++ [sep] ++ sh ++ b!":" ++ si ++ b!":" ++ ss ++ sf ++ so)

end Tmi.Spec
