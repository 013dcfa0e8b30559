/-
C123: the 64-byte vectors that are prepared but switched off.
-/
import Verif.Model.Avx512
import Verif.Proofs.Total
import Verif.Proofs.Samples

namespace Tmi.Props
open Tmi.Model Tmi.Spec Tmi.Proofs

theorem movepi8Mask_eq : ∀ (v : Bytes) (x : UInt8), movepi8Mask (vecEq v x) = bitsOf 64 (v.map (· == x))
  | [], _ => rfl
  | b :: t, x => by
    have := movepi8Mask_eq t x
    unfold vecEq at *
    simp only [List.map_cons, movepi8Mask, bitsOf, this]
    by_cases h : b = x
    · simp [h]
    · simp [h]

theorem clearTo512_eq (l : List Bool) (i : Nat) (hi : i < 64) :
    clearTo512 (bitsOf 64 l) i = .ok (bitsOf 64 (List.replicate (i + 1) false ++ l.drop (i + 1))) := by
  have h63 : i ≤ 63 := by omega
  simp only [clearTo512, usub, h63, if_true]
  show Except.ok _ = Except.ok _
  congr 1
  apply BitVec.eq_of_getLsbD_eq
  intro j hj
  rw [bitsOf_getLsbD _ _ hj, getD_cleared, BitVec.getLsbD_and, bitsOf_getLsbD _ _ hj,
    BitVec.getLsbD_not, BitVec.getLsbD_ushiftRight]
  have : (0xffffffffffffffff#64 : BitVec 64) = BitVec.allOnes 64 := by decide
  rw [this, BitVec.getLsbD_allOnes]
  congr 1
  rw [Bool.eq_iff_iff]
  simp [hj]
  omega

def avx512_lawful : Lawful avx512 where
  ofLanes := bitsOf 64
  toMatch := id
  movemask_eq v x _ := movepi8Mask_eq v x
  hasMatch_false := by
    rw [bitsOf_replicate]; rfl
  hasMatch_true i t h := bitsOf_ne t (by simp [avx512] at h; omega)
  firstMatch_eq i t h := bitsOf_first t (by simp [avx512] at h; omega)
  asIndex_eq _ _ := rfl
  clearTo_eq l i _ hi := clearTo512_eq l i (by simpa [avx512] using hi)

/-- C123: with 64-byte vectors the search for a byte ends without a fault, at every address, and returns the least
index at which the byte occurs, `None` iff it does not occur. -/
theorem C123_find_first (addr : Nat) (s : Bytes) (x : UInt8) :
    ∃ r, findFirst avx512 ⟨addr, s⟩ x = .ok r ∧
      (∀ i, r = some i ↔ s[i]? = some x ∧ ∀ j < i, s[j]? ≠ some x) ∧ (r = none ↔ x ∉ s) := by
  refine ⟨find x s, findFirst_eq avx512_lawful _ x, fun i => ?_, ?_⟩
  · by_cases hx : x ∈ s
    · obtain ⟨p, q, rfl, hp⟩ := mem_split hx
      rw [find_append q hp]
      have hat : (p ++ x :: q)[p.length]? = some x := by simp
      have hbefore : ∀ j < p.length, (p ++ x :: q)[j]? ≠ some x := by
        intro j hj he
        rw [List.getElem?_append_left hj] at he
        exact hp (List.mem_of_getElem? he)
      constructor
      · intro h
        rw [← Option.some.inj h]
        exact ⟨hat, hbefore⟩
      · rintro ⟨h1, h2⟩
        by_cases hc : p.length < i
        · exact absurd hat (h2 _ hc)
        · by_cases hc' : i < p.length
          · exact absurd h1 (hbefore _ hc')
          · rw [show p.length = i by omega]
    · rw [find_none hx]
      constructor
      · intro h; simp at h
      · rintro ⟨h, -⟩
        exact absurd (List.mem_of_getElem? h) hx
  · by_cases hx : x ∈ s
    · obtain ⟨p, q, rfl, hp⟩ := mem_split hx
      rw [find_append q hp]
      simp
    · simp [find_none hx, hx]

/-- C123: and the tags of a line are those that every other vector type finds, whatever the line and wherever it is in
memory, also when it is too long or has too many tags: switching the 64-byte vectors on changes nothing. -/
theorem C123_same_tags (a : Arch) (addr addr' : Nat) (checks : Bool) (s : Bytes) :
    simdParse checks avx512 addr s 0 = parseTags ⟨.simd a addr', checks⟩ s 0 := by
  rcases tag_shape s with h | ⟨t, rest, rfl, h⟩ | ⟨r, rfl, h⟩
  · rw [parseTags_no_at _ h, simdParse_no_at _ _ h]
  · rw [parseTags_space _ rest h, simdParse_space avx512_lawful _ _ rest h]
  · show _ = simdParse checks a.backend addr' (AT :: r) 0
    rw [simdParse_no_space avx512_lawful _ _ h, simdParse_no_space (Arch.lawful _) _ _ h]

theorem movepi8Mask_bits : ∀ v : Bytes, movepi8Mask v = bitsOf 64 (v.map fun b => b.toNat.testBit 7)
  | [] => rfl
  | b :: t => by
    simp only [List.map_cons, movepi8Mask, bitsOf, movepi8Mask_bits t]
    have : ∀ n, n < 256 → (128 ≤ n ↔ n.testBit 7 = true) := by decide +kernel
    have h : (0x80 : UInt8) ≤ b ↔ b.toNat.testBit 7 = true := by
      rw [UInt8.le_iff_toNat_le]
      exact this _ b.toNat_lt
    by_cases hb : b.toNat.testBit 7 = true
    · simp [h.2 hb, hb]
    · simp [mt h.1 hb, hb]

/-- C123: the mask of any vector, also of one that no comparison made: bit `i` is the top bit of byte `i`. -/
theorem C123_mask (v : Bytes) (h : v.length = avx512.size) (i : Nat) (hi : i < v.length) :
    (movepi8Mask v).getLsbD i = v[i].toNat.testBit 7 := by
  rw [movepi8Mask_bits, bitsOf_getLsbD _ _ (by simpa [h, avx512] using hi)]
  simp [hi]

/-! Non-vacuity: a line of more than four vectors, at an odd address. -/
example : 256 < samplePriv.length ∧ ((find COLON samplePriv).getD 0) > 64 := by decide +kernel
example := C123_find_first 3 samplePriv COLON
example := C123_same_tags .neon 3 16 true samplePriv
example := C123_mask (List.replicate 63 0x7f ++ [0x80]) rfl 63 (by decide)

end Tmi.Props
