/-
Lane abstraction of the vector masks: every mask that arises is `ofLanes l` for a list of booleans,
one per lane, and the mask operations are list operations on it.
-/
import Verif.Model.Wide

namespace Tmi.Model

/-- What the parser needs from a backend. -/
structure Lawful (B : Backend) where
  ofLanes : List Bool → B.Mask
  toMatch : Nat → Nat
  movemask_eq : ∀ (v : Bytes) (x : UInt8), v.length = B.size →
    B.movemask (vecEq v x) = ofLanes (v.map (· == x))
  hasMatch_false : B.hasMatch (ofLanes (List.replicate B.size false)) = false
  hasMatch_true : ∀ (i : Nat) (t : List Bool), i + 1 + t.length = B.size →
    B.hasMatch (ofLanes (List.replicate i false ++ true :: t)) = true
  firstMatch_eq : ∀ (i : Nat) (t : List Bool), i + 1 + t.length = B.size →
    B.firstMatch (ofLanes (List.replicate i false ++ true :: t)) = toMatch i
  asIndex_eq : ∀ i, i < B.size → B.asIndex (toMatch i) = i
  clearTo_eq : ∀ (l : List Bool) (i : Nat), l.length = B.size → i < B.size →
    B.clearTo (ofLanes l) (toMatch i) =
      .ok (ofLanes (List.replicate (i + 1) false ++ l.drop (i + 1)))

/-! ### Bits -/

/-- The mask with bit `i` equal to `l[i]`. -/
def bitsOf (w : Nat) : List Bool → BitVec w
  | [] => 0
  | b :: t => (if b then 1 else 0 : BitVec w) ||| (bitsOf w t <<< 1)

theorem bitsOf_getLsbD {w : Nat} : ∀ (l : List Bool) (i : Nat), i < w →
    (bitsOf w l).getLsbD i = l.getD i false
  | [], i, _ => by simp [bitsOf]
  | b :: t, i, hi => by
    cases i with
    | zero =>
      cases b <;> simp [bitsOf, hi]
    | succ i =>
      have := bitsOf_getLsbD (w := w) t i (by omega)
      have hz : ∀ b : Bool, (if b then 1 else 0 : BitVec w).getLsbD (i + 1) = false := by
        intro b; cases b <;> simp
      rw [bitsOf, BitVec.getLsbD_or, hz, BitVec.getLsbD_shiftLeft]
      simp [hi] at this ⊢
      exact this

theorem find?_range_le {w i : Nat} {p : Nat → Bool} (hi : i < w) (hp : p i = true)
    (hlt : ∀ j < i, p j = false) : (List.range w).find? p = some i := by
  rw [List.find?_range_eq_some]
  simp [hi, hp]
  exact hlt

theorem trailingZeros_eq {w i : Nat} {x : BitVec w} (hi : i < w) (hp : x.getLsbD i = true)
    (hlt : ∀ j < i, x.getLsbD j = false) : trailingZeros x = i := by
  unfold trailingZeros
  rw [find?_range_le hi hp hlt]
  rfl

theorem getD_first (i : Nat) (t : List Bool) :
    (List.replicate i false ++ true :: t).getD i false = true := by
  simp [List.getD_eq_getElem?_getD]

theorem getD_before (i j : Nat) (t : List Bool) (h : j < i) :
    (List.replicate i false ++ true :: t).getD j false = false := by
  simp [List.getD_eq_getElem?_getD, List.getElem?_append, h]

theorem bitsOf_first {w i : Nat} (t : List Bool) (h : i < w) :
    trailingZeros (bitsOf w (List.replicate i false ++ true :: t)) = i := by
  apply trailingZeros_eq h
  · rw [bitsOf_getLsbD _ _ h, getD_first]
  · intro j hj
    rw [bitsOf_getLsbD _ _ (by omega), getD_before _ _ _ hj]

theorem bitsOf_ne {w i : Nat} (t : List Bool) (h : i < w) :
    (bitsOf w (List.replicate i false ++ true :: t) != 0) = true := by
  simp only [bne_iff_ne, ne_eq]
  intro h0
  have := bitsOf_getLsbD (List.replicate i false ++ true :: t) i h
  rw [h0, getD_first] at this
  simp at this

theorem bitsOf_replicate {w n : Nat} : bitsOf w (List.replicate n false) = 0 := by
  induction n with
  | zero => rfl
  | succ n ih => simp [List.replicate_succ, bitsOf, ih]

theorem getD_cleared (l : List Bool) (i j : Nat) :
    (List.replicate (i + 1) false ++ l.drop (i + 1)).getD j false
      = (l.getD j false && decide (i < j)) := by
  simp only [List.getD_eq_getElem?_getD, List.getElem?_append, List.length_replicate]
  by_cases h : j < i + 1
  · simp [h, show ¬ i < j by omega]
  · simp [h, show i < j by omega]
    congr 2
    omega

/-! ### x86: one bit per lane -/

theorem movemaskBits_eq : ∀ (v : Bytes) (x : UInt8),
    movemaskBits (vecEq v x) = bitsOf 32 (v.map (· == x))
  | [], _ => rfl
  | b :: t, x => by
    have := movemaskBits_eq t x
    unfold vecEq at *
    simp only [List.map_cons, movemaskBits, bitsOf, this]
    by_cases h : b = x
    · simp [h]
    · simp [h]

theorem clearTo32_eq (l : List Bool) (i : Nat) (hi : i < 32) :
    clearTo32 (bitsOf 32 l) i =
      .ok (bitsOf 32 (List.replicate (i + 1) false ++ l.drop (i + 1))) := by
  have h31 : i ≤ 31 := by omega
  simp only [clearTo32, usub, h31, if_true]
  show Except.ok _ = Except.ok _
  congr 1
  apply BitVec.eq_of_getLsbD_eq
  intro j hj
  rw [bitsOf_getLsbD _ _ hj, getD_cleared, BitVec.getLsbD_and, bitsOf_getLsbD _ _ hj,
    BitVec.getLsbD_not, BitVec.getLsbD_ushiftRight]
  have : (0xffffffff#32 : BitVec 32) = BitVec.allOnes 32 := by decide
  rw [this, BitVec.getLsbD_allOnes]
  congr 1
  rw [Bool.eq_iff_iff]
  simp [hj]
  omega

/-- sse2 -/
def sse2_lawful : Lawful sse2 where
  ofLanes := bitsOf 32
  toMatch := id
  movemask_eq v x _ := movemaskBits_eq v x
  hasMatch_false := by
    rw [bitsOf_replicate]; rfl
  hasMatch_true i t h := bitsOf_ne t (by simp [sse2] at h; omega)
  firstMatch_eq i t h := bitsOf_first t (by simp [sse2] at h; omega)
  asIndex_eq _ _ := rfl
  clearTo_eq l i _ hi := clearTo32_eq l i (by simp [sse2] at hi; omega)

/-- avx2 -/
def avx2_lawful : Lawful avx2 where
  ofLanes := bitsOf 32
  toMatch := id
  movemask_eq v x _ := movemaskBits_eq v x
  hasMatch_false := by
    rw [bitsOf_replicate]; rfl
  hasMatch_true i t h := bitsOf_ne t (by simp [avx2] at h; omega)
  firstMatch_eq i t h := bitsOf_first t (by simp [avx2] at h; omega)
  asIndex_eq _ _ := rfl
  clearTo_eq l i _ hi := clearTo32_eq l i (by simp [avx2] at hi; omega)

/-! ### neon: four bits per lane -/

/-- Each lane as four bits. -/
def nibbles : List Bool → List Bool
  | [] => []
  | b :: t => b :: b :: b :: b :: nibbles t

theorem nibbles_getD : ∀ (l : List Bool) (j : Nat), (nibbles l).getD j false = l.getD (j / 4) false
  | [], j => by simp [nibbles]
  | b :: t, j => by
    match j with
    | 0 => simp [nibbles]
    | 1 => simp [nibbles]
    | 2 => simp [nibbles]
    | 3 => simp [nibbles]
    | j + 4 =>
      have := nibbles_getD t j
      have h4 : (j + 4) / 4 = j / 4 + 1 := by omega
      rw [h4]
      simpa [nibbles] using this

theorem nibbles_replicate (n : Nat) : nibbles (List.replicate n false) = List.replicate (4 * n) false := by
  induction n with
  | zero => rfl
  | succ n ih =>
    simp [List.replicate_succ, nibbles, ih, Nat.mul_add]

theorem bitsOf_append {w : Nat} (p l : List Bool) :
    bitsOf w (p ++ l) = bitsOf w p ||| (bitsOf w l <<< p.length) := by
  apply BitVec.eq_of_getLsbD_eq
  intro j hj
  rw [bitsOf_getLsbD _ _ hj, BitVec.getLsbD_or, bitsOf_getLsbD _ _ hj, BitVec.getLsbD_shiftLeft,
    bitsOf_getLsbD _ _ (by omega)]
  simp only [List.getD_eq_getElem?_getD, List.getElem?_append]
  by_cases h : j < p.length
  · simp [h]
  · simp [h, hj]

theorem shrn4_lane (a b : Bool) :
    ((((if b then 0xFF else 0 : UInt8).toBitVec ++ (if a then 0xFF else 0 : UInt8).toBitVec) >>> 4).truncate 8
      : BitVec 8).setWidth 64 = bitsOf 64 (nibbles [a, b]) := by
  cases a <;> cases b <;> decide

theorem neon_movemask : ∀ (v : Bytes) (x : UInt8), v.length % 2 = 0 →
    leU64 (shrn4 (vecEq v x)) = bitsOf 64 (nibbles (v.map (· == x)))
  | [], _, _ => rfl
  | [_], _, h => by simp at h
  | b0 :: b1 :: t, x, h => by
    have ih := neon_movemask t x (by simp at h; omega)
    have hl := shrn4_lane (b0 == x) (b1 == x)
    have h8 := bitsOf_append (w := 64) (nibbles [b0 == x, b1 == x]) (nibbles (t.map (· == x)))
    have hn : nibbles ((b0 :: b1 :: t).map (· == x))
        = nibbles [b0 == x, b1 == x] ++ nibbles (t.map (· == x)) := by
      simp [nibbles]
    rw [hn, h8, ← hl, ← ih]
    simp [vecEq, shrn4, leU64, nibbles]

theorem clearTo64_eq (l : List Bool) (i : Nat) (hi : i < 16) :
    clearTo64 (bitsOf 64 (nibbles l)) (4 * i) =
      .ok (bitsOf 64 (nibbles (List.replicate (i + 1) false ++ l.drop (i + 1)))) := by
  have h63 : 4 * i + 3 ≤ 63 := by omega
  simp only [clearTo64, usub, h63, if_true]
  show Except.ok _ = Except.ok _
  congr 1
  apply BitVec.eq_of_getLsbD_eq
  intro j hj
  rw [bitsOf_getLsbD _ _ hj, nibbles_getD, getD_cleared, BitVec.getLsbD_and, bitsOf_getLsbD _ _ hj,
    nibbles_getD, BitVec.getLsbD_not, BitVec.getLsbD_ushiftRight]
  have : (0xffffffffffffffff#64 : BitVec 64) = BitVec.allOnes 64 := by decide
  rw [this, BitVec.getLsbD_allOnes]
  congr 1
  rw [Bool.eq_iff_iff]
  simp [hj]
  omega

theorem nibbles_first {i : Nat} (t : List Bool) (h : i < 16) :
    trailingZeros (bitsOf 64 (nibbles (List.replicate i false ++ true :: t))) = 4 * i := by
  apply trailingZeros_eq (by omega)
  · rw [bitsOf_getLsbD _ _ (by omega), nibbles_getD, show 4 * i / 4 = i by omega, getD_first]
  · intro j hj
    rw [bitsOf_getLsbD _ _ (by omega), nibbles_getD, getD_before _ _ _ (by omega)]

theorem nibbles_ne {i : Nat} (t : List Bool) (h : i < 16) :
    (bitsOf 64 (nibbles (List.replicate i false ++ true :: t)) != 0) = true := by
  simp only [bne_iff_ne, ne_eq]
  intro h0
  have := bitsOf_getLsbD (nibbles (List.replicate i false ++ true :: t)) (4 * i) (by omega : _ < 64)
  rw [h0, nibbles_getD, show 4 * i / 4 = i by omega, getD_first] at this
  simp at this

/-- neon -/
def neon_lawful : Lawful neon where
  ofLanes l := bitsOf 64 (nibbles l)
  toMatch i := 4 * i
  movemask_eq v x h := neon_movemask v x (by simp [neon] at h; omega)
  hasMatch_false := by
    rw [nibbles_replicate, bitsOf_replicate]; rfl
  hasMatch_true i t h := nibbles_ne t (by simp [neon] at h; omega)
  firstMatch_eq i t h := nibbles_first t (by simp [neon] at h; omega)
  asIndex_eq i _ := by
    show (4 * i) >>> 2 = i
    rw [Nat.shiftRight_eq_div_pow]; omega
  clearTo_eq l i _ hi := clearTo64_eq l i (by simpa [neon] using hi)

end Tmi.Model
