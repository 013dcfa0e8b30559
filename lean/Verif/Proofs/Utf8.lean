/-
Lemmas about UTF-8 byte strings and character boundaries.
-/
import Verif.Base

namespace Tmi

theorem u8_lt_iff {a b : UInt8} : a < b ↔ a.toNat < b.toNat := UInt8.lt_iff_toNat_lt
theorem u8_le_iff {a b : UInt8} : a ≤ b ↔ a.toNat ≤ b.toNat := UInt8.le_iff_toNat_le

/-- An encoded character is one ASCII byte, or a lead byte followed by continuation bytes. -/
theorem enc_cases (c : Char) :
    (∃ x : UInt8, x < 0x80 ∧ String.utf8EncodeChar c = [x]) ∨
    (∃ (x : UInt8) (t : Bytes), String.utf8EncodeChar c = x :: t ∧ 0xC0 ≤ x ∧
      ∀ y ∈ t, 0x80 ≤ y ∧ y < 0xC0) := by
  unfold String.utf8EncodeChar
  simp only []
  generalize c.val.toNat = v
  split
  · left
    refine ⟨_, ?_, rfl⟩
    simp [u8_lt_iff]; omega
  · right
    split
    · refine ⟨_, _, rfl, ?_, ?_⟩
      · simp [u8_le_iff]; omega
      · simp [u8_le_iff, u8_lt_iff]; omega
    · split
      · refine ⟨_, _, rfl, ?_, ?_⟩
        · simp [u8_le_iff]; omega
        · simp [u8_le_iff, u8_lt_iff]; omega
      · refine ⟨_, _, rfl, ?_, ?_⟩
        · simp [u8_le_iff]; omega
        · simp [u8_le_iff, u8_lt_iff]; omega

theorem Utf8.nil : Utf8 [] := ⟨[], rfl⟩

theorem Utf8.append {a b : Bytes} (ha : Utf8 a) (hb : Utf8 b) : Utf8 (a ++ b) := by
  obtain ⟨ca, rfl⟩ := ha
  obtain ⟨cb, rfl⟩ := hb
  exact ⟨ca ++ cb, by simp⟩

theorem enc_ascii (x : UInt8) (hx : x < 0x80) :
    String.utf8EncodeChar (Char.ofNat x.toNat) = [x] := by
  have h : x.toNat < 128 := by simpa [u8_lt_iff] using hx
  have hval : (Char.ofNat x.toNat).val.toNat = x.toNat := by
    have : x.toNat.isValidChar := by left; omega
    simp [Char.ofNat, this, Char.ofNatAux]
  unfold String.utf8EncodeChar
  simp only [hval]
  rw [if_pos (by omega)]
  simp

theorem Utf8.cons {x : UInt8} {b : Bytes} (hx : x < 0x80) (hb : Utf8 b) : Utf8 (x :: b) := by
  obtain ⟨cb, rfl⟩ := hb
  exact ⟨Char.ofNat x.toNat :: cb, by simp [enc_ascii x hx]⟩

theorem Utf8.of_ascii : ∀ {a : Bytes}, (∀ x ∈ a, x < 0x80) → Utf8 a
  | [], _ => .nil
  | x :: t, h => .cons (h x (by simp)) (Utf8.of_ascii fun y hy => h y (by simp [hy]))

/-- The first byte of a UTF-8 string is not a continuation byte. -/
theorem Utf8.head {x : UInt8} {t : Bytes} (h : Utf8 (x :: t)) : isCont x = false := by
  obtain ⟨cs, h⟩ := h
  cases cs with
  | nil => simp at h
  | cons c cs =>
    rw [List.flatMap_cons] at h
    rcases enc_cases c with ⟨y, hy, he⟩ | ⟨y, t', he, hy, _⟩
    · rw [he] at h
      simp at h
      obtain ⟨rfl, _⟩ := h
      simp [isCont, u8_le_iff, u8_lt_iff] at *
      omega
    · rw [he] at h
      simp at h
      obtain ⟨rfl, _⟩ := h
      simp [isCont, u8_le_iff, u8_lt_iff] at *
      omega

/-- An ASCII byte splits a UTF-8 string into two UTF-8 strings. -/
theorem Utf8.split {x : UInt8} (hx : x < 0x80) {a b : Bytes} (h : Utf8 (a ++ x :: b)) :
    Utf8 a ∧ Utf8 b := by
  obtain ⟨cs, h⟩ := h
  induction cs generalizing a with
  | nil => simp at h
  | cons c cs ih =>
    rw [List.flatMap_cons] at h
    rcases enc_cases c with ⟨y, hy, he⟩ | ⟨y, t, he, hy, ht⟩
    · rw [he] at h
      cases a with
      | nil =>
        simp at h
        exact ⟨.nil, ⟨cs, h.2⟩⟩
      | cons a0 a =>
        simp at h
        obtain ⟨rfl, h⟩ := h
        have := ih h
        exact ⟨.cons hy this.1, this.2⟩
    · -- multi-byte character: `x` is not inside it
      have hall : ∀ z ∈ String.utf8EncodeChar c, ¬ z < 0x80 := by
        intro z hz
        rw [he] at hz
        simp at hz
        rcases hz with rfl | hz
        · simp [u8_le_iff, u8_lt_iff] at *; omega
        · have := ht z hz
          simp [u8_le_iff, u8_lt_iff] at *; omega
      rw [List.append_eq_append_iff] at h
      rcases h with ⟨e, h1, h2⟩ | ⟨e, h1, h2⟩
      · cases e with
        | nil =>
          simp at h1 h2
          have hu : Utf8 a := ⟨[c], by simp [h1]⟩
          have := ih (a := []) (by simpa using h2)
          exact ⟨hu, this.2⟩
        | cons e0 e =>
          simp at h2
          exact absurd (h2.1 ▸ hx) (hall e0 (by simp [h1]))
      · have := ih h2.symm
        refine ⟨?_, this.2⟩
        rw [h1]
        exact Utf8.append ⟨[c], by simp⟩ this.1

theorem Utf8.left {x : UInt8} (hx : x < 0x80) {a b : Bytes} (h : Utf8 (a ++ x :: b)) : Utf8 a :=
  (h.split hx).1

theorem Utf8.right {x : UInt8} (hx : x < 0x80) {a b : Bytes} (h : Utf8 (a ++ x :: b)) : Utf8 b :=
  (h.split hx).2

theorem Utf8.tail {x : UInt8} (hx : x < 0x80) {b : Bytes} (h : Utf8 (x :: b)) : Utf8 b :=
  Utf8.right (a := []) hx h

theorem boundary_append {a b : Bytes} (hb : Utf8 b) : isCharBoundary (a ++ b) a.length = true := by
  unfold isCharBoundary
  split
  · rfl
  · rename_i i hi
    have hi' : i + 1 = a.length := hi.symm
    rw [hi']
    cases b with
    | nil => simp
    | cons x t => simp [hb.head]

theorem boundary_zero {s : Bytes} : isCharBoundary s 0 = true := rfl

theorem boundary_len {s : Bytes} : isCharBoundary s s.length = true := by
  have := boundary_append (a := s) .nil
  simpa using this

theorem strSlice_append {a k b : Bytes} (hk : Utf8 (k ++ b)) (hb : Utf8 b) :
    strSlice (a ++ (k ++ b)) a.length (a.length + k.length) = .ok k := by
  unfold strSlice
  rw [boundary_append hk]
  have h2 : isCharBoundary (a ++ (k ++ b)) (a.length + k.length) = true := by
    have := boundary_append (a := a ++ k) hb
    simpa using this
  rw [h2]
  simp

theorem strFrom_append {a b : Bytes} (hb : Utf8 b) : strFrom (a ++ b) a.length = .ok b := by
  unfold strFrom
  rw [boundary_append hb]
  simp

/-! ### `find` -/

theorem find_none {x : UInt8} : ∀ {s : Bytes}, x ∉ s → find x s = none
  | [], _ => rfl
  | y :: t, h => by
    simp at h
    simp [find, Ne.symm h.1, find_none h.2]

theorem find_append {x : UInt8} : ∀ {a : Bytes} (b : Bytes), x ∉ a →
    find x (a ++ x :: b) = some a.length
  | [], b, _ => by simp [find]
  | y :: t, b, h => by
    simp at h
    simp [find, Ne.symm h.1, find_append b h.2]

/-- Split around the first occurrence of a byte. -/
theorem mem_split {x : UInt8} {s : Bytes} (h : x ∈ s) : ∃ a b, s = a ++ x :: b ∧ x ∉ a := by
  induction s with
  | nil => simp at h
  | cons y t ih =>
    by_cases hy : y = x
    · exact ⟨[], t, by simp [hy], by simp⟩
    · have : x ∈ t := by
        simp at h
        rcases h with h | h
        · exact absurd h.symm hy
        · exact h
      obtain ⟨a, b, rfl, ha⟩ := ih this
      exact ⟨y :: a, b, by simp, by simp [ha, Ne.symm hy]⟩

end Tmi
