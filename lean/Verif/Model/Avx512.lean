/-
Model of src/irc/wide/x86_64/avx512.rs: the 64-byte vectors.

The file is not compiled: its `mod` is commented out (src/irc/wide/x86_64.rs:2-6).  As it stands two of its functions
would not type-check: `eq` (lines 63-65) makes a vector of the `__mmask64` that `_mm512_cmpeq_epi8_mask` returns and
gives it a `Vector` for an `__m512i`, and `movemask` (lines 68-70) names a variable that does not exist.  Simplified:
these two are read as the other vector types have them, `0xFF` in each lane that is equal, and the top bit of each lane.
Everything else is as written.
-/
import Verif.Model.Wide

namespace Tmi.Model

/-- `_mm512_movepi8_mask`: bit `i` of the `u64` is the top bit of lane `i`.  avx512.rs:68-70 (see above). -/
def movepi8Mask : Bytes → BitVec 64
  | [] => 0
  | b :: t => (if 0x80 ≤ b then 1 else 0 : BitVec 64) ||| (movepi8Mask t <<< 1)

/-- `Mask::clear_to` (avx512.rs:90-92): `self.0 &= !(0xffff_ffff_ffff_ffff >> (63 - m.0))`. -/
def clearTo512 (x : BitVec 64) (m : Nat) : R (BitVec 64) := do
  let sh ← usub 63 m
  return x &&& ~~~(0xffffffffffffffff#64 >>> sh)

/-- `Vector`, `Mask` and `Match` of src/irc/wide/x86_64/avx512.rs:8-103. -/
def avx512 : Backend where
  size := 64
  size_pos := by decide
  Mask := BitVec 64
  movemask := movepi8Mask
  hasMatch := fun x => x != 0
  firstMatch := fun x => trailingZeros x
  clearTo := clearTo512
  asIndex := fun m => m

end Tmi.Model
