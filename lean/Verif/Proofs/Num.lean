/-
Lemmas about reading numbers.
-/
import Verif.Model.Num
import Verif.Spec.Num
import Verif.Proofs.Utf8

namespace Tmi.Model
open Tmi.Spec

/-- Value of digits after a partial result. -/
def decimalFrom (acc : Nat) (s : Bytes) : Nat := s.foldl (fun n c => n * 10 + (c.toNat - 48)) acc

theorem decimalFrom_ge : ∀ (s : Bytes) (acc : Nat), acc ≤ decimalFrom acc s
  | [], acc => Nat.le_refl _
  | c :: t, acc => by
    have := decimalFrom_ge t (acc * 10 + (c.toNat - 48))
    simp only [decimalFrom, List.foldl_cons] at this ⊢
    omega

theorem parseDigits_pos (lo hi : Int) (hlo : lo ≤ 0) : ∀ (s : Bytes) (acc : Nat) (v : Int),
    (acc : Int) ≤ hi →
    (parseDigits lo hi false s acc = some v ↔
      (∀ c ∈ s, 0x30 ≤ c ∧ c ≤ 0x39) ∧ v = decimalFrom acc s ∧ v ≤ hi)
  | [], acc, v, hacc => by
    simp only [parseDigits, Option.some.injEq, decimalFrom, List.foldl_nil]
    constructor
    · rintro rfl; exact ⟨by simp, rfl, hacc⟩
    · rintro ⟨_, h, _⟩; exact h.symm
  | c :: t, acc, v, hacc => by
    rw [parseDigits]
    by_cases hc : 0x30 ≤ c ∧ c ≤ 0x39
    · rw [if_pos hc]
      simp only [Bool.false_eq_true, if_false]
      have h48 : 48 ≤ c.toNat := by have := hc.1; rw [u8_le_iff] at this; simpa using this
      have hd : ((c.toNat : Int) - 48) = ((c.toNat - 48 : Nat) : Int) := by omega
      have hge := decimalFrom_ge t (acc * 10 + (c.toNat - 48))
      have hval : decimalFrom acc (c :: t) = decimalFrom (acc * 10 + (c.toNat - 48)) t := rfl
      have hnext : (acc : Int) * 10 + ((c.toNat : Int) - 48) =
          ((acc * 10 + (c.toNat - 48) : Nat) : Int) := by omega
      by_cases hm : (acc : Int) * 10 + ((c.toNat : Int) - 48) ≤ hi
      · rw [if_pos (by omega), if_pos (by omega), hnext]
        rw [parseDigits_pos lo hi hlo t _ v (by omega)]
        simp [hc]
        intro _
        rw [hval]
        exact fun _ => Iff.rfl
      · have : (if lo ≤ (acc : Int) * 10 ∧ (acc : Int) * 10 ≤ hi then
            if lo ≤ (acc : Int) * 10 + ((c.toNat : Int) - 48) ∧
                (acc : Int) * 10 + ((c.toNat : Int) - 48) ≤ hi then
              parseDigits lo hi false t ((acc : Int) * 10 + ((c.toNat : Int) - 48)) else none
            else none) = none := by
          split
          · rw [if_neg (by omega)]
          · rfl
        rw [this]
        constructor
        · intro h; simp at h
        · rintro ⟨_, rfl, h⟩
          rw [hval] at h
          omega
    · rw [if_neg hc]
      constructor
      · intro h; simp at h
      · rintro ⟨h, _⟩; exact absurd (h c (by simp)) hc

theorem parseDigits_neg (lo hi : Int) (hhi : 0 ≤ hi) : ∀ (s : Bytes) (acc : Nat) (v : Int),
    lo ≤ -(acc : Int) →
    (parseDigits lo hi true s (-(acc : Int)) = some v ↔
      (∀ c ∈ s, 0x30 ≤ c ∧ c ≤ 0x39) ∧ v = -(decimalFrom acc s : Int) ∧ lo ≤ v)
  | [], acc, v, hacc => by
    simp only [parseDigits, Option.some.injEq, decimalFrom, List.foldl_nil]
    constructor
    · rintro rfl; exact ⟨by simp, rfl, hacc⟩
    · rintro ⟨_, h, _⟩; exact h.symm
  | c :: t, acc, v, hacc => by
    rw [parseDigits]
    by_cases hc : 0x30 ≤ c ∧ c ≤ 0x39
    · rw [if_pos hc]
      simp only [if_true]
      have h48 : 48 ≤ c.toNat := by have := hc.1; rw [u8_le_iff] at this; simpa using this
      have hge := decimalFrom_ge t (acc * 10 + (c.toNat - 48))
      have hval : decimalFrom acc (c :: t) = decimalFrom (acc * 10 + (c.toNat - 48)) t := rfl
      have hnext : -(acc : Int) * 10 - ((c.toNat : Int) - 48) =
          -((acc * 10 + (c.toNat - 48) : Nat) : Int) := by omega
      by_cases hm : lo ≤ -(acc : Int) * 10 - ((c.toNat : Int) - 48)
      · rw [if_pos (by omega), if_pos (by omega), hnext]
        rw [parseDigits_neg lo hi hhi t _ v (by omega)]
        simp [hc]
        intro _
        rw [hval]
        exact fun _ => Iff.rfl
      · have : (if lo ≤ -(acc : Int) * 10 ∧ -(acc : Int) * 10 ≤ hi then
            if lo ≤ -(acc : Int) * 10 - ((c.toNat : Int) - 48) ∧
                -(acc : Int) * 10 - ((c.toNat : Int) - 48) ≤ hi then
              parseDigits lo hi true t (-(acc : Int) * 10 - ((c.toNat : Int) - 48)) else none
            else none) = none := by
          split
          · rw [if_neg (by omega)]
          · rfl
        rw [this]
        constructor
        · intro h; simp at h
        · rintro ⟨_, rfl, h⟩
          rw [hval] at h
          omega
    · rw [if_neg hc]
      constructor
      · intro h; simp at h
      · rintro ⟨h, _⟩; exact absurd (h c (by simp)) hc

theorem not_digit_plus {ds : Bytes} (h : Digits ds) (t : Bytes) : ds ≠ 0x2B :: t := by
  rintro rfl
  exact absurd (h.2 0x2B (by simp)) (by decide)

theorem not_digit_minus {ds : Bytes} (h : Digits ds) (t : Bytes) : ds ≠ 0x2D :: t := by
  rintro rfl
  exact absurd (h.2 0x2D (by simp)) (by decide)

theorem isNat_plus {t : Bytes} {n : Nat} : IsNat (0x2B :: t) n ↔ Digits t ∧ decimal t = n := by
  constructor
  · rintro ⟨ds, hd, h | h, he⟩
    · exact absurd h.symm (not_digit_plus hd t)
    · rw [List.cons.injEq] at h
      rw [h.2]; exact ⟨hd, he⟩
  · rintro ⟨hd, he⟩
    exact ⟨t, hd, .inr rfl, he⟩

theorem isNat_digits {c : UInt8} {t : Bytes} {n : Nat} (hc : c ≠ 0x2B) :
    IsNat (c :: t) n ↔ Digits (c :: t) ∧ decimal (c :: t) = n := by
  constructor
  · rintro ⟨ds, hd, h | h, he⟩
    · rw [h]; exact ⟨hd, he⟩
    · rw [List.cons.injEq] at h
      exact absurd h.1 hc
  · rintro ⟨hd, he⟩
    exact ⟨_, hd, .inl rfl, he⟩

theorem digits_cons {c : UInt8} {t : Bytes} : Digits (c :: t) ↔ ∀ x ∈ c :: t, 0x30 ≤ x ∧ x ≤ 0x39 := by
  simp [Digits]

theorem pos_iff {lo hi : Int} (hlo : lo ≤ 0) (hhi : 0 ≤ hi) {s : Bytes} (hs : s ≠ []) (v : Int) :
    parseDigits lo hi false s 0 = some v ↔ ∃ k : Nat, (Digits s ∧ decimal s = k) ∧ v = k ∧ v ≤ hi := by
  have := parseDigits_pos lo hi hlo s 0 v (by simpa using hhi)
  rw [show ((0 : Nat) : Int) = 0 from rfl] at this
  rw [this]
  constructor
  · rintro ⟨h1, h2, h3⟩
    exact ⟨_, ⟨⟨hs, h1⟩, rfl⟩, h2, h3⟩
  · rintro ⟨k, ⟨h1, h2⟩, h3, h4⟩
    refine ⟨h1.2, ?_, h4⟩
    rw [h3, ← h2]; rfl

theorem parseInt_iff {signed : Bool} {lo hi : Int} (hlo : lo ≤ 0) (hhi : 0 ≤ hi) (s : Bytes) (v : Int) :
    parseInt signed lo hi s = some v ↔
      (∃ k : Nat, IsNat s k ∧ v = k ∧ v ≤ hi) ∨
      (signed = true ∧ ∃ ds, Digits ds ∧ s = 0x2D :: ds ∧ v = -(decimal ds : Int) ∧ lo ≤ v) := by
  cases s with
  | nil =>
    simp only [parseInt]
    constructor
    · intro h; simp at h
    · rintro (⟨k, ⟨ds, hd, h | h, _⟩, _⟩ | ⟨_, ds, _, h, _⟩)
      · exact absurd h.symm hd.1
      · simp at h
      · simp at h
  | cons c t =>
    unfold parseInt
    simp only []
    by_cases h1 : t = [] ∧ (c = 0x2B ∨ c = 0x2D)
    · rw [if_pos h1]
      obtain ⟨rfl, h1⟩ := h1
      constructor
      · intro h; simp at h
      · rintro (⟨k, h, _⟩ | ⟨_, ds, hd, h, _⟩)
        · rcases h1 with rfl | rfl
          · rw [isNat_plus] at h; exact absurd rfl h.1.1
          · rw [isNat_digits (by decide)] at h
            exact absurd rfl (not_digit_minus h.1 [])
        · rw [List.cons.injEq] at h
          exact absurd h.2.symm hd.1
    · rw [if_neg h1]
      by_cases h2 : c = 0x2B
      · subst h2
        have ht : t ≠ [] := by rintro rfl; exact h1 ⟨rfl, .inl rfl⟩
        rw [if_pos rfl, pos_iff hlo hhi ht]
        simp only [isNat_plus]
        constructor
        · intro h; exact .inl h
        · rintro (h | ⟨_, ds, _, h, _⟩)
          · exact h
          · rw [List.cons.injEq] at h
            exact absurd h.1 (by decide)
      · rw [if_neg h2]
        simp only [isNat_digits h2]
        by_cases h3 : c = 0x2D ∧ signed = true
        · obtain ⟨rfl, h3⟩ := h3
          have ht : t ≠ [] := by rintro rfl; exact h1 ⟨rfl, .inr rfl⟩
          rw [if_pos ⟨rfl, h3⟩]
          have := parseDigits_neg lo hi hhi t 0 v (by simpa using hlo)
          rw [show -((0 : Nat) : Int) = 0 from rfl] at this
          rw [this]
          constructor
          · rintro ⟨a, b, c⟩
            exact .inr ⟨h3, t, ⟨ht, a⟩, rfl, b, c⟩
          · rintro (⟨k, ⟨h, _⟩, _⟩ | ⟨_, ds, hd, h, b, c⟩)
            · exact absurd rfl (not_digit_minus h t)
            · rw [List.cons.injEq] at h
              obtain ⟨_, rfl⟩ := h
              exact ⟨hd.2, b, c⟩
        · rw [if_neg h3, pos_iff hlo hhi (by simp)]
          constructor
          · intro h; exact .inl h
          · rintro (h | ⟨hs, ds, _, h, _⟩)
            · exact h
            · rw [List.cons.injEq] at h
              exact absurd ⟨h.1, hs⟩ h3

theorem decimalFrom_append (a b : Bytes) (n : Nat) :
    decimalFrom n (a ++ b) = decimalFrom (decimalFrom n a) b := by simp [decimalFrom]

theorem showNat_spec : ∀ n : Nat, Digits (showNat n) ∧ decimal (showNat n) = n := by
  intro n
  induction n using Nat.strongRecOn with
  | ind n ih =>
    rw [showNat]
    split
    · rename_i h
      have hlt : 48 + n < 256 := by omega
      refine ⟨⟨by simp, ?_⟩, ?_⟩
      · intro c hc
        rw [List.mem_singleton] at hc
        subst hc
        rw [u8_le_iff, u8_le_iff]
        simp
        omega
      · simp [decimal]
        omega
    · rename_i h
      have := ih (n / 10) (by omega)
      refine ⟨⟨by simp, ?_⟩, ?_⟩
      · intro c hc
        rcases List.mem_append.1 hc with hc | hc
        · exact this.1.2 c hc
        · rw [List.mem_singleton] at hc
          subst hc
          rw [u8_le_iff, u8_le_iff]
          simp
          omega
      · have h2 := this.2
        simp [decimal] at h2 ⊢
        rw [h2]
        omega

end Tmi.Model
