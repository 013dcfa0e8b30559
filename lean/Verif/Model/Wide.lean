/-
Model of the vector types: src/irc/wide/x86_64/sse2.rs, src/irc/wide/x86_64/avx2.rs,
src/irc/wide/aarch64/neon.rs.

A vector is the list of its byte lanes, lowest address first.  `Backend` collects what differs
between the three files; loads and `eq` are the same text in all three and are shared.
-/
import Verif.Base

namespace Tmi.Model

/-- A byte slice in memory: address of its first byte and contents (`&[u8]`).
The argument of src/irc/tags/simd.rs:106. -/
structure Slice where
  addr : Nat
  bytes : Bytes

/-- One implementation of `Vector` / `Mask` / `Match`.  `Match` is its `usize` field.
src/irc/wide/x86_64/sse2.rs:12-103, src/irc/wide/x86_64/avx2.rs:12-106, src/irc/wide/aarch64/neon.rs:48-142. -/
structure Backend where
  /-- `Vector::SIZE` -/
  size : Nat
  size_pos : 0 < size
  /-- `Mask` -/
  Mask : Type
  /-- `Vector::movemask` -/
  movemask : Bytes → Mask
  /-- `Mask::has_match` -/
  hasMatch : Mask → Bool
  /-- `Mask::first_match` -/
  firstMatch : Mask → Nat
  /-- `Mask::clear_to` -/
  clearTo : Mask → Nat → R Mask
  /-- `Match::as_index` -/
  asIndex : Nat → Nat

/-- `Vector::load_unaligned` (sse2.rs:25-30, avx2.rs:25-32, neon.rs:61-66).  Reads `SIZE` bytes at
`offset`; reading outside the slice is a fault (`debug_assert` in debug builds, undefined behaviour
in release builds). -/
def loadUnaligned (B : Backend) (d : Slice) (offset : Nat) : R Bytes :=
  if offset + B.size ≤ d.bytes.length then .ok ((d.bytes.drop offset).take B.size)
  else .error .oob

/-- `Vector::load_aligned` (sse2.rs:37-43, avx2.rs:39-47, neon.rs:73-79).  As `load_unaligned`, and
the address must be a multiple of `SIZE`. -/
def loadAligned (B : Backend) (d : Slice) (offset : Nat) : R Bytes :=
  if offset + B.size ≤ d.bytes.length then
    if (d.addr + offset) % B.size = 0 then .ok ((d.bytes.drop offset).take B.size)
    else .error .misaligned
  else .error .oob

/-- `Vector::load_unaligned_remainder` (sse2.rs:48-55, avx2.rs:52-59, neon.rs:84-91).  Copies
`data[offset..]` into the front of a zeroed `[u8; SIZE]`; `buf.0[..data.len() - offset]` panics if
there are more than `SIZE` bytes left, the subtraction if `offset` is past the end. -/
def loadUnalignedRemainder (B : Backend) (d : Slice) (offset : Nat) : R Bytes := do
  let n ← usub d.bytes.length offset
  if n ≤ B.size then .ok (d.bytes.drop offset ++ List.replicate (B.size - n) 0)
  else .error .index

/-- `Vector::eq` (sse2.rs:59-61, avx2.rs:62-64, neon.rs:94-96): `0xFF` in each lane equal to `byte`,
`0` elsewhere (`_mm_cmpeq_epi8`, `_mm256_cmpeq_epi8`, `vceqq_u8`). -/
def vecEq (v : Bytes) (byte : UInt8) : Bytes := v.map fun b => if b = byte then 0xFF else 0

/-- `_mm_movemask_epi8` / `_mm256_movemask_epi8`: bit `i` is the top bit of lane `i`; the result is
transmuted from `i32` to `u32`.  sse2.rs:64-69, avx2.rs:67-72. -/
def movemaskBits : Bytes → BitVec 32
  | [] => 0
  | b :: t => (if 0x80 ≤ b then 1 else 0 : BitVec 32) ||| (movemaskBits t <<< 1)

/-- `trailing_zeros`: index of the lowest set bit, the width if there is none.
sse2.rs:83-85, avx2.rs:86-88, neon.rs:121-123. -/
def trailingZeros {w : Nat} (x : BitVec w) : Nat :=
  ((List.range w).find? fun i => x.getLsbD i).getD w

/-- `Mask::clear_to` on `u32` (sse2.rs:89-91, avx2.rs:92-94):
`self.0 &= !(0xffff_ffff >> (31 - m.0))`.  The subtraction faults when `m.0 > 31`. -/
def clearTo32 (x : BitVec 32) (m : Nat) : R (BitVec 32) := do
  let sh ← usub 31 m
  return x &&& ~~~(0xffffffff#32 >>> sh)

/-- src/irc/wide/x86_64/sse2.rs:12-103 -/
def sse2 : Backend where
  size := 16
  size_pos := by decide
  Mask := BitVec 32
  movemask := movemaskBits
  hasMatch := fun x => x != 0
  firstMatch := fun x => trailingZeros x
  clearTo := clearTo32
  asIndex := fun m => m

/-- src/irc/wide/x86_64/avx2.rs:12-106 -/
def avx2 : Backend where
  size := 32
  size_pos := by decide
  Mask := BitVec 32
  movemask := movemaskBits
  hasMatch := fun x => x != 0
  firstMatch := fun x => trailingZeros x
  clearTo := clearTo32
  asIndex := fun m => m

/-- `vshrn_n_u16(vreinterpretq_u16_u8(v), 4)`: each pair of lanes is a little-endian `u16`, shifted
right by 4 and narrowed to its low 8 bits.  neon.rs:99-106. -/
def shrn4 : Bytes → List (BitVec 8)
  | lo :: hi :: t => (((hi.toBitVec ++ lo.toBitVec) >>> 4).truncate 8) :: shrn4 t
  | _ => []

/-- `vget_lane_u64(vreinterpret_u64_u8(v), 0)`: eight bytes as a little-endian `u64`.  neon.rs:99-106. -/
def leU64 : List (BitVec 8) → BitVec 64
  | [] => 0
  | b :: t => b.setWidth 64 ||| (leU64 t <<< 8)

/-- `Mask::clear_to` on `u64` (neon.rs:127-129):
`self.0 &= !(0xffff_ffff_ffff_ffff >> (63 - (m.0 + 3)))`. -/
def clearTo64 (x : BitVec 64) (m : Nat) : R (BitVec 64) := do
  let sh ← usub 63 (m + 3)
  return x &&& ~~~(0xffffffffffffffff#64 >>> sh)

/-- src/irc/wide/aarch64/neon.rs:48-142 -/
def neon : Backend where
  size := 16
  size_pos := by decide
  Mask := BitVec 64
  movemask := fun v => leU64 (shrn4 v)
  hasMatch := fun x => x != 0
  firstMatch := fun x => trailingZeros x
  clearTo := clearTo64
  asIndex := fun m => m >>> 2

end Tmi.Model
