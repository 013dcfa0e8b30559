/-
Lemmas for C77: `Debug` of a string is a literal of Rust which stands for the string.
-/
import Verif.Spec.Tells
import Verif.Proofs.Debug

namespace Tmi.Proofs
open Model hiding Kind
open Spec

theorem hex_eq (n : Nat) : hex n = hexDigits n := by
  induction n using Nat.strongRecOn with
  | _ n ih =>
    rw [hexDigits]
    by_cases h : n < 16
    · rw [dif_pos h]
      have : ∀ m : Fin 16, hex m.1 = [UInt8.ofNat (if m.1 < 10 then 48 + m.1 else 87 + m.1)] := by decide +kernel
      exact this ⟨n, h⟩
    · have e : hex n = hex (n / 16) ++ [(Nat.digitChar (n % 16)).val.toUInt8] := by
        unfold hex
        rw [Nat.toDigits_of_base_le (by omega) (by omega), List.map_append]
        rfl
      rw [dif_neg h, e, ih (n / 16) (by omega)]
      have : ∀ m : Fin 16, (Nat.digitChar m.1).val.toUInt8 = UInt8.ofNat (if m.1 < 10 then 48 + m.1 else 87 + m.1) := by
        decide +kernel
      rw [this ⟨n % 16, Nat.mod_lt _ (by omega)⟩]

theorem char_eq {c : Char} {n : Nat} (h : c.val.toNat = n) : c = Char.ofNat n := by rw [← h, char_of_val]

theorem literal_debug (esc : Nat → Bool) : ∀ cs : List Char, Literal (cs.flatMap (debugChar esc)) cs
  | [] => .nil
  | c :: cs => by
    rw [List.flatMap_cons]
    have ih := literal_debug esc cs
    unfold debugChar
    dsimp only
    by_cases h0 : c.val.toNat = 0
    · rw [if_pos h0, char_eq h0]; exact .escape (by decide) ih
    rw [if_neg h0]
    by_cases h1 : c.val.toNat = 9
    · rw [if_pos h1, char_eq h1]; exact .escape (by decide) ih
    rw [if_neg h1]
    by_cases h2 : c.val.toNat = 13
    · rw [if_pos h2, char_eq h2]; exact .escape (by decide) ih
    rw [if_neg h2]
    by_cases h3 : c.val.toNat = 10
    · rw [if_pos h3, char_eq h3]; exact .escape (by decide) ih
    rw [if_neg h3]
    by_cases h4 : c.val.toNat = 34
    · rw [if_pos h4, char_eq h4]; exact .escape (by decide) ih
    rw [if_neg h4]
    by_cases h5 : c.val.toNat = 92
    · rw [if_pos h5, char_eq h5]; exact .escape (by decide) ih
    rw [if_neg h5]
    by_cases h6 : c.val.toNat < 32 ∨ c.val.toNat = 127 ∨ (128 ≤ c.val.toNat ∧ esc c.val.toNat)
    · rw [if_pos h6, hex_eq]
      exact .unicode ih
    · rw [if_neg h6]
      exact .plain (by rintro rfl; exact h4 rfl) (by rintro rfl; exact h5 rfl)
        (by show 0x20 ≤ c.val.toNat; omega) (by show c.val.toNat ≠ 0x7F; omega) ih

theorem readChar_unicode (c : Char) (r : Bytes) :
    readChar (b!"\\u{" ++ hexDigits c.toNat ++ b!"}" ++ r) = some (c, r) := by
  have hc := char_of_val c
  rw [← hex_eq]
  show readChar (b!"\\u{" ++ hex c.val.toNat ++ b!"}" ++ r) = some (c, r)
  obtain ⟨hx, hv⟩ := hex_spec c.val.toNat
  obtain ⟨e1, e2⟩ := takeWhile_close (hex c.val.toNat) r hx
  generalize hex c.val.toNat = w at *
  simp [readChar]
  rw [e1, e2, hv]
  exact ⟨hc, rfl⟩

theorem debugChar_itself {c : Char} (hq : c ≠ '"') (hb : c ≠ '\\') (hp : 0x20 ≤ c.toNat) (hd : c.toNat ≠ 0x7F) :
    debugChar (fun _ => false) c = String.utf8EncodeChar c := by
  have hp : 0x20 ≤ c.val.toNat := hp
  have hd : c.val.toNat ≠ 0x7F := hd
  have h4 : c.val.toNat ≠ 34 := fun h => hq (char_eq h)
  have h5 : c.val.toNat ≠ 92 := fun h => hb (char_eq h)
  unfold debugChar
  dsimp only
  rw [if_neg (by omega), if_neg (by omega), if_neg (by omega), if_neg (by omega), if_neg h4, if_neg h5, if_neg]
  rintro (h | h | ⟨_, h⟩)
  · omega
  · exact hd h
  · exact absurd h (by decide)

theorem literal_read {t : Bytes} {c : Char} {cs : List Char} (h : Literal t (c :: cs)) :
    ∃ r, readChar t = some (c, r) ∧ Literal r cs := by
  cases h with
  | plain hq hb hp hd h =>
    refine ⟨_, ?_, h⟩
    rw [← debugChar_itself hq hb hp hd]
    exact readChar_debugChar _ _ _
  | escape he h =>
    refine ⟨_, ?_, h⟩
    simp only [List.mem_cons, Prod.mk.injEq, List.not_mem_nil, or_false] at he
    rcases he with ⟨rfl, rfl⟩ | ⟨rfl, rfl⟩ | ⟨rfl, rfl⟩ | ⟨rfl, rfl⟩ | ⟨rfl, rfl⟩ | ⟨rfl, rfl⟩ <;>
      · simp only [readChar, List.cons_append]
        rfl
  | unicode h => exact ⟨_, readChar_unicode _ _, h⟩

theorem literal_nil {t : Bytes} (h : Literal t []) : t = [] := by cases h; rfl

theorem literal_unique {t : Bytes} : ∀ {cs ds : List Char}, Literal t cs → Literal t ds → cs = ds
  | [], [], _, _ => rfl
  | [], d :: ds, h, h' => by
    obtain ⟨r, e, _⟩ := literal_read h'
    rw [literal_nil h] at e
    exact absurd e (by simp [readChar])
  | c :: cs, [], h, h' => by
    obtain ⟨r, e, _⟩ := literal_read h
    rw [literal_nil h'] at e
    exact absurd e (by simp [readChar])
  | c :: cs, d :: ds, h, h' => by
    obtain ⟨r, e, k⟩ := literal_read h
    obtain ⟨r', e', k'⟩ := literal_read h'
    rw [e] at e'
    injection e' with e'
    injection e' with e1 e2
    subst e1 e2
    rw [literal_unique k k']

end Tmi.Proofs
