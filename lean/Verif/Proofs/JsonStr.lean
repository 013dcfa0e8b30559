/-
Lemmas about strings in JSON texts.
-/
import Verif.Model.JsonStr
import Verif.Proofs.Json

namespace Tmi.Proofs
open Tmi.Spec Tmi.Model

theorem j_plain_iff (x : UInt8) : Model.Json.plain x = true ↔ ¬(x = 0x22 ∨ x = 0x5C ∨ x < 0x20) := by
  unfold Model.Json.plain
  simp only [Bool.and_eq_true, bne_iff_ne, ne_eq, decide_eq_true_eq, not_or, UInt8.not_lt]
  exact and_assoc

theorem j_escape_plain {x : UInt8} (h : Model.Json.plain x = true) : Model.Json.escapeByte x = [x] := by
  obtain ⟨h1, h2, h0⟩ := not_or.1 ((j_plain_iff x).1 h) |>.imp id not_or.1
  have hne : ∀ y : UInt8, y < 0x20 → x ≠ y := by rintro y hy rfl; exact h0 hy
  unfold Model.Json.escapeByte
  rw [if_neg h1, if_neg h2, if_neg (hne _ (by decide)), if_neg (hne _ (by decide)), if_neg (hne _ (by decide)),
    if_neg (hne _ (by decide)), if_neg (hne _ (by decide)), if_neg h0]

theorem j_escape_not_plain {x : UInt8} (h : ¬Model.Json.plain x = true) : ∃ l, Model.Json.escapeByte x = 0x5C :: l := by
  rw [j_plain_iff, Classical.not_not] at h
  unfold Model.Json.escapeByte
  by_cases h1 : x = 0x22
  · exact ⟨_, by rw [if_pos h1]⟩
  by_cases h2 : x = 0x5C
  · exact ⟨_, by rw [if_neg h1, if_pos h2]⟩
  have h0 : x < 0x20 := by rcases h with h | h | h <;> trivial
  rw [if_neg h1, if_neg h2, if_pos h0]
  repeat' split
  all_goals exact ⟨_, rfl⟩

theorem j_read_plain {p : Bytes} (hp : ∀ x ∈ p, Model.Json.plain x = true) (q : Bytes) :
    Json.readString (p ++ q) = (Json.readString q).map fun (s, r) => (p ++ s, r) := by
  induction p with
  | nil => cases h : Json.readString q <;> simp [h]
  | cons x p ih =>
    have := j_byte x (p ++ q)
    rw [j_escape_plain (hp x (by simp))] at this
    rw [List.cons_append]
    refine this.trans ?_
    rw [ih (fun y hy => hp y (by simp [hy]))]
    cases Json.readString q <;> rfl

theorem j_read_control {c : UInt8} (h : c < 0x20) (r : Bytes) : Json.readString (c :: r) = none := by
  have h1 : c ≠ 0x22 := by rintro rfl; revert h; decide
  have h2 : c ≠ 0x5C := by rintro rfl; revert h; decide
  rw [Json.readString.eq_def]
  split
  · rfl
  · rename_i heq; exact absurd (List.cons.inj heq).1 h1
  · rfl
  · rename_i heq; exact absurd (List.cons.inj heq).1 h2
  · rename_i heq; exact absurd (List.cons.inj heq).1 h2
  · rename_i heq
    obtain ⟨rfl, rfl⟩ := List.cons.inj heq
    rw [if_pos h]

theorem j_take_plain (t : Bytes) : ∀ x ∈ t.takeWhile Model.Json.plain, Model.Json.plain x = true := by
  intro x hx
  exact (List.all_eq_true.1 (List.all_takeWhile (l := t))) x hx

theorem j_drop_head {t r : Bytes} {c : UInt8} (h : t.dropWhile Model.Json.plain = c :: r) :
    ¬Model.Json.plain c = true := by
  have := List.head_dropWhile_not (p := Model.Json.plain) (l := t) (by rw [h]; simp)
  simp only [h, List.head_cons] at this
  simp [this]

/-- What is read is what JSON says, lent or copied. -/
theorem parseStr_text (t : Bytes) :
    (Model.Json.parseStr t).map (fun (s, r) => (s.text, r)) = Json.readString t := by
  conv => rhs; rw [← List.takeWhile_append_dropWhile (p := Model.Json.plain) (l := t)]
  rw [j_read_plain (j_take_plain t)]
  unfold Model.Json.parseStr
  cases h : t.dropWhile Model.Json.plain with
  | nil => rfl
  | cons c r =>
    have hc := j_drop_head h
    rw [j_plain_iff, Classical.not_not] at hc
    dsimp only
    by_cases h1 : c = 0x22
    · subst h1
      rw [if_pos rfl]
      show some _ = Option.map _ (Json.readString (0x22 :: r))
      rw [show Json.readString (0x22 :: r) = some ([], r) from j_string [] r]
      simp [Cow.text]
    · rw [if_neg h1]
      by_cases h2 : c = 0x5C
      · rw [if_pos h2]
        cases Json.readString (c :: r) <;> rfl
      · rw [if_neg h2, j_read_control (by rcases hc with h | h | h <;> trivial)]
        rfl

/-- A text that stands for a string. -/
theorem strFrom_text (t s : Bytes) :
    (Model.Json.strFrom t).map Cow.text = some s ↔ Json.read t = some (.str s) := by
  unfold Model.Json.strFrom Json.read Json.readValue
  cases hb : Json.blank t with
  | nil => simp
  | cons c r =>
    dsimp only
    by_cases hc : c = 0x22
    · rw [if_pos hc, if_pos hc, ← parseStr_text r]
      cases hp : Model.Json.parseStr r with
      | none => simp
      | some p =>
        obtain ⟨k, r'⟩ := p
        dsimp only [Option.map_some]
        by_cases hr : Json.blank r' = []
        · simp [hr]
        · simp [hr]
    · rw [if_neg hc, if_neg hc]
      simp only [Option.map_none, reduceCtorEq, false_iff]
      intro h
      split at h
      · rename_i v r' heq
        split at h
        · rename_i hr
          cases h
          split at heq
          · split at heq
            · cases heq
            · split at heq
              · cases heq
              · rename_i r0 _
                cases h : Json.readElems t.length r0 <;> rw [h] at heq <;> cases heq
          · split at heq
            · split at heq
              · cases heq
              · split at heq
                · cases heq
                · rename_i r0 _
                  cases h : Json.readEntries t.length r0 <;> rw [h] at heq <;> cases heq
            · split at heq
              · cases h : Json.readInt (c :: r) <;> rw [h] at heq <;> cases heq
              · split at heq <;> cases heq
        · cases h
      · cases h

end Tmi.Proofs
