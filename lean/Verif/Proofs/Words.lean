/-
The byte-level `split_whitespace` of the model computes `Spec.words`.
-/
import Verif.Model.Irc
import Verif.Spec.Words
import Verif.Proofs.Utf8

namespace Tmi.Model
open Tmi.Spec

theorem wsLen_cont {x : UInt8} {t : Bytes} (h1 : 0x80 ≤ x) (h2 : x < 0xC0) : wsLen (x :: t) = 0 := by
  unfold wsLen
  simp only [List.getD_cons_zero]
  have h1' : 128 ≤ x.toNat := by simpa [u8_le_iff] using h1
  have h2' : x.toNat < 192 := by simpa [u8_lt_iff] using h2
  have hn : ∀ y : UInt8, x = y → x.toNat = y.toNat := fun y h => by rw [h]
  rw [if_neg, if_neg, if_neg]
  · rintro (⟨h, _⟩ | ⟨h, _⟩ | ⟨h, _⟩ | ⟨h, _⟩) <;> (have := hn _ h; simp at this; omega)
  · rintro ⟨h, _⟩; have := hn _ h; simp at this; omega
  · rintro (⟨_, h⟩ | h)
    · have : x.toNat ≤ 13 := by simpa [u8_le_iff] using h
      omega
    · have := hn _ h; simp at this; omega

theorem toNat_eq_iff {a b : UInt8} : a = b ↔ a.toNat = b.toNat := by
  constructor
  · rintro rfl; rfl
  · exact UInt8.toNat_inj.1

theorem wsLen_enc (c : Char) (t : Bytes) :
    wsLen (String.utf8EncodeChar c ++ t) =
      if isWhite c then (String.utf8EncodeChar c).length else 0 := by
  unfold String.utf8EncodeChar isWhite
  simp only []
  have hv : c.val.toNat < 1114112 := by
    have := c.valid
    rcases this with h | ⟨_, h⟩
    · have : c.val.toNat < 55296 := h; omega
    · exact h
  generalize c.val.toNat = v at hv
  split
  · rename_i h
    simp only [wsLen, List.cons_append, List.getD_cons_zero, toNat_eq_iff, u8_le_iff]
    simp
    have : v % 256 = v := by omega
    split
    · rename_i hc
      rw [if_pos]
      omega
    · rename_i hc
      rw [if_neg (by omega), if_neg (by omega), if_neg (by omega)]
  · split
    · rename_i h0 h
      simp only [wsLen, List.cons_append, List.getD_cons_zero, List.getD_cons_succ, toNat_eq_iff,
        u8_le_iff]
      simp
      rw [if_neg (by omega)]
      split
      · rw [if_pos (by omega)]
      · rw [if_neg (by omega), if_neg (by omega)]
    · split
      · rename_i h0 h1 h
        simp only [wsLen, List.cons_append, List.getD_cons_zero, List.getD_cons_succ, toNat_eq_iff,
          u8_le_iff]
        simp
        rw [if_neg (by omega), if_neg (by omega)]
        split
        · rw [if_pos (by omega)]
        · rw [if_neg (by omega)]
      · rename_i h0 h1 h2
        simp only [wsLen, List.cons_append, List.getD_cons_zero, List.getD_cons_succ, toNat_eq_iff,
          u8_le_iff]
        simp
        rw [if_neg (by omega), if_neg (by omega), if_neg (by omega), if_neg (by omega)]

theorem splitWsGo_skip (t : Bytes) (cur : Bytes) : ∀ (a : Bytes),
    splitWsGo (a ++ t) a.length cur = splitWsGo t 0 cur
  | [] => rfl
  | x :: a => by
    rw [List.cons_append, List.length_cons, splitWsGo]
    exact splitWsGo_skip t cur a

theorem splitWsGo_conts (t : Bytes) : ∀ (a : Bytes) (cur : Bytes),
    (∀ y ∈ a, 0x80 ≤ y ∧ y < 0xC0) → splitWsGo (a ++ t) 0 cur = splitWsGo t 0 (a.reverse ++ cur)
  | [], _, _ => rfl
  | x :: a, cur, h => by
    have hx := h x (by simp)
    rw [List.cons_append, splitWsGo]
    simp only [wsLen_cont hx.1 hx.2]
    rw [splitWsGo_conts t a _ fun y hy => h y (by simp [hy])]
    simp

theorem splitWsGo_white {c : Char} (hc : isWhite c = true) (t cur : Bytes) :
    splitWsGo (String.utf8EncodeChar c ++ t) 0 cur =
      if cur.isEmpty then splitWsGo t 0 [] else cur.reverse :: splitWsGo t 0 [] := by
  have h := wsLen_enc c t
  rw [if_pos hc] at h
  cases he : String.utf8EncodeChar c with
  | nil => rcases enc_cases c with ⟨_, _, h⟩ | ⟨_, _, h, _⟩ <;> rw [h] at he <;> simp at he
  | cons x a =>
    rw [he] at h
    rw [List.cons_append] at h ⊢
    rw [splitWsGo]
    simp only [h, List.length_cons, splitWsGo_skip]

theorem splitWsGo_char {c : Char} (hc : isWhite c = false) (t cur : Bytes) :
    splitWsGo (String.utf8EncodeChar c ++ t) 0 cur =
      splitWsGo t 0 ((String.utf8EncodeChar c).reverse ++ cur) := by
  have h := wsLen_enc c t
  rw [if_neg (by simp [hc])] at h
  rcases enc_cases c with ⟨x, _, he⟩ | ⟨x, a, he, _, ha⟩
  · rw [he] at h ⊢
    rw [List.cons_append] at h ⊢
    rw [splitWsGo]
    simp only [h]
    rfl
  · rw [he] at h ⊢
    rw [List.cons_append] at h ⊢
    rw [splitWsGo]
    simp only [h]
    rw [splitWsGo_conts t a _ ha]
    simp

theorem pieces_ne_nil : ∀ cs, pieces cs ≠ []
  | [] => by simp [pieces]
  | c :: cs => by
    rw [pieces]
    split
    · simp
    · split <;> simp

theorem splitWsGo_pieces : ∀ (cs : List Char) (cur : Bytes) (w : List Char) (ws : List (List Char)),
    pieces cs = w :: ws →
    splitWsGo (enc cs) 0 cur = ((cur.reverse ++ enc w) :: ws.map enc).filter fun b => !b.isEmpty
  | [], cur, w, ws, h => by
    simp [pieces] at h
    obtain ⟨rfl, rfl⟩ := h
    simp only [enc, List.flatMap_nil, splitWsGo, List.append_nil, List.map_nil]
    cases cur with
    | nil => rfl
    | cons x cur =>
      rw [List.filter_cons_of_pos (by simp)]
      simp
  | c :: cs, cur, w, ws, h => by
    have henc : enc (c :: cs) = String.utf8EncodeChar c ++ enc cs := by simp [enc]
    rw [henc]
    rw [pieces] at h
    cases hp : pieces cs with
    | nil => exact absurd hp (pieces_ne_nil cs)
    | cons w' ws' =>
      split at h
      · rename_i hc
        simp at h
        obtain ⟨rfl, rfl⟩ := h
        rw [splitWsGo_white hc, splitWsGo_pieces cs [] w' ws' hp, hp]
        simp only [List.reverse_nil, List.nil_append, enc, List.flatMap_nil, List.append_nil]
        cases cur with
        | nil => simp; rfl
        | cons x cur =>
          rw [List.filter_cons_of_pos (a := (x :: cur).reverse) (by simp)]
          simp; rfl
      · rename_i hc
        rw [hp] at h
        simp at h
        obtain ⟨rfl, rfl⟩ := h
        rw [splitWsGo_char (by simpa using hc), splitWsGo_pieces cs _ w' ws' hp]
        simp [enc]

/-- The words of an encoded text are the encodings of its words. -/
theorem splitWhitespace_eq (cs : List Char) : splitWhitespace (enc cs) = (words cs).map enc := by
  unfold splitWhitespace
  cases hp : pieces cs with
  | nil => exact absurd hp (pieces_ne_nil cs)
  | cons w ws =>
    rw [splitWsGo_pieces cs [] w ws hp]
    unfold words
    rw [hp]
    simp only [List.reverse_nil, List.nil_append]
    rw [← List.map_cons, List.filter_map]
    congr 1
    apply List.filter_congr
    intro w _
    cases w with
    | nil => rfl
    | cons c w =>
      rcases enc_cases c with ⟨_, _, h⟩ | ⟨_, _, h, _⟩ <;> simp [enc, h]

end Tmi.Model
