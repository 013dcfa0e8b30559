/-
Property C33: numeric tags.
-/
import Verif.Proofs.Num

namespace Tmi.Props
open Tmi.Model Tmi.Spec

/-- C33 for `u8`: accepted iff digits (with an optional `+`) whose value is below 256. -/
theorem C33_u8 (s : Bytes) (n : Nat) : parseU8 s = some n ↔ IsNat s n ∧ n < 256 := by
  unfold parseU8
  rw [Option.map_eq_some_iff]
  simp only [parseInt_iff (lo := 0) (hi := 255) (Int.le_refl 0) (by decide)]
  constructor
  · rintro ⟨v, ⟨k, h1, rfl, h2⟩ | ⟨h, _⟩, rfl⟩
    · simp only [Int.toNat_natCast]; exact ⟨h1, by omega⟩
    · exact absurd h (by decide)
  · rintro ⟨h1, h2⟩
    exact ⟨n, .inl ⟨n, h1, rfl, by omega⟩, by simp⟩

/-- C33 for `u64` (bits, months, viewer counts, durations, ...). -/
theorem C33_u64 (s : Bytes) (n : Nat) : parseU64 s = some n ↔ IsNat s n ∧ n < 2 ^ 64 := by
  unfold parseU64
  rw [Option.map_eq_some_iff]
  simp only [parseInt_iff (lo := 0) (hi := u64Max) (Int.le_refl 0) (by decide)]
  unfold u64Max
  constructor
  · rintro ⟨v, ⟨k, h1, rfl, h2⟩ | ⟨h, _⟩, rfl⟩
    · simp only [Int.toNat_natCast]; exact ⟨h1, by omega⟩
    · exact absurd h (by decide)
  · rintro ⟨h1, h2⟩
    exact ⟨n, .inl ⟨n, h1, rfl, by omega⟩, by simp⟩

/-- C33 for `i64` (timestamps, followers-only, amounts). -/
theorem C33_i64 (s : Bytes) (n : Int) :
    parseI64 s = some n ↔ IsInt s n ∧ -2 ^ 63 ≤ n ∧ n < 2 ^ 63 := by
  unfold parseI64
  rw [parseInt_iff (by decide) (by decide)]
  unfold IsInt i64Min i64Max
  constructor
  · rintro (⟨k, h1, rfl, h2⟩ | ⟨_, ds, h1, h2, rfl, h3⟩)
    · exact ⟨.inl ⟨k, h1, rfl⟩, by omega, by omega⟩
    · exact ⟨.inr ⟨ds, h1, h2, rfl⟩, by omega, by omega⟩
  · rintro ⟨⟨k, h1, rfl⟩ | ⟨ds, h1, h2, rfl⟩, h3, h4⟩
    · exact .inl ⟨k, h1, rfl, by omega⟩
    · exact .inr ⟨rfl, ds, h1, h2, rfl, by omega⟩

/-- C33: the decimal form of every value reads back as that value. -/
theorem C33_show :
    (∀ n, n < 256 → parseU8 (showNat n) = some n) ∧
    (∀ n, n < 2 ^ 64 → parseU64 (showNat n) = some n) ∧
    (∀ n : Int, -2 ^ 63 ≤ n → n < 2 ^ 63 → parseI64 (showInt n) = some n) := by
  have h := showNat_spec
  refine ⟨fun n hn => ?_, fun n hn => ?_, fun n h1 h2 => ?_⟩
  · exact (C33_u8 _ _).2 ⟨⟨_, (h n).1, .inl rfl, (h n).2⟩, hn⟩
  · exact (C33_u64 _ _).2 ⟨⟨_, (h n).1, .inl rfl, (h n).2⟩, hn⟩
  · refine (C33_i64 _ _).2 ⟨?_, h1, h2⟩
    unfold showInt
    split
    · refine .inr ⟨_, (h _).1, rfl, ?_⟩
      rw [(h _).2]; omega
    · refine .inl ⟨n.natAbs, ⟨_, (h _).1, .inl rfl, (h _).2⟩, by omega⟩

theorem chrono_iff (t : Int) : InChrono t ↔ chronoMin ≤ t ∧ t ≤ chronoMax := by
  have e1 : daysTo (-262143) * 86400000 = chronoMin := by decide +kernel
  have e2 : daysTo 262143 * 86400000 = chronoMax + 1 := by decide +kernel
  unfold InChrono
  rw [e1, e2]
  omega

theorem atMilli_iff (t : Timestamp) (ms : Int) : AtMilli t ms ↔ t = .ofMillis ms := by
  unfold AtMilli Timestamp.ofMillis
  cases t
  rw [Timestamp.mk.injEq]
  dsimp only
  omega

/-- C33 for timestamps: a number of milliseconds within the years that chrono represents. -/
theorem C33_timestamp (s : Bytes) (t : Timestamp) :
    parseTimestamp s = some t ↔ ∃ ms, IsInt s ms ∧ InChrono ms ∧ AtMilli t ms := by
  simp only [chrono_iff, atMilli_iff]
  unfold parseTimestamp
  simp only [Option.bind_eq_bind, Option.bind_eq_some_iff, C33_i64]
  constructor
  · rintro ⟨v, ⟨h1, h2, h3⟩, h4⟩
    split at h4
    · rename_i h5
      cases h4
      exact ⟨v, h1, h5, rfl⟩
    · cases h4
  · rintro ⟨v, h1, ⟨h2, h3⟩, rfl⟩
    refine ⟨v, ⟨h1, ?_, ?_⟩, by rw [if_pos ⟨h2, h3⟩]⟩
    · unfold chronoMin at h2; omega
    · unfold chronoMax at h3; omega

/-- C33 for booleans: true iff the tag is a number from 1 to 255. -/
theorem C33_bool (s : Bytes) : parseBool s = true ↔ ∃ n, IsNat s n ∧ 1 ≤ n ∧ n ≤ 255 := by
  unfold parseBool
  cases h : parseU8 s with
  | none =>
    simp
    intro n hn h1
    rcases Nat.lt_or_ge n 256 with h2 | h2
    · rw [(C33_u8 s n).2 ⟨hn, h2⟩] at h; simp at h
    · omega
  | some n =>
    have h' := (C33_u8 s n).1 h
    simp
    constructor
    · intro h0; exact ⟨n, h'.1, h0, by omega⟩
    · rintro ⟨m, hm, h1, h2⟩
      have := (C33_u8 s m).2 ⟨hm, by omega⟩
      rw [h] at this; simp at this; omega

/-- The value a string denotes is unique. -/
theorem C33_unique {s : Bytes} {a b : Nat} (ha : IsNat s a) (hb : IsNat s b) : a = b := by
  obtain ⟨da, ha, ha' | ha', rfl⟩ := ha
  · obtain ⟨db, hb, hb' | hb', rfl⟩ := hb
    · rw [← ha', hb']
    · exact absurd (ha'.symm.trans hb') (not_digit_plus ha db)
  · obtain ⟨db, hb, hb' | hb', rfl⟩ := hb
    · exact absurd (hb'.symm.trans ha') (not_digit_plus hb da)
    · rw [ha', List.cons.injEq] at hb'
      rw [hb'.2]

example : parseU64 (b!"18446744073709551615") = some 18446744073709551615 ∧
    parseU64 (b!"18446744073709551616") = none ∧ parseU64 (b!"+7") = some 7 ∧
    parseU64 (b!"-7") = none ∧ parseU64 (b!"+") = none ∧
    parseI64 (b!"-9223372036854775808") = some (-9223372036854775808) ∧
    parseBool (b!"256") = false ∧ parseTimestamp (b!"8210266876800000") = none := by decide +kernel

end Tmi.Props
