/-
C126: the JSON text of a message is a string.
-/
import Verif.Proofs.JsonStr
import Verif.Props.Json

namespace Tmi.Spec.Json
open Tmi.Model (Value)

mutual

/-- All strings in the value are strings of Rust, that is, UTF-8. -/
def Strings : Value → Prop
  | .str s => Utf8 s
  | .seq l => StringsElems l
  | .map kvs => StringsEntries kvs
  | _ => True

/-- The same for the elements of an array. -/
def StringsElems : List Value → Prop
  | [] => True
  | v :: vs => Strings v ∧ StringsElems vs

/-- The same for the entries of an object, names and values. -/
def StringsEntries : List (Bytes × Value) → Prop
  | [] => True
  | (k, v) :: kvs => Utf8 k ∧ Strings v ∧ StringsEntries kvs

end

end Tmi.Spec.Json

namespace Tmi.Props
open Tmi.Spec Tmi.Model Tmi.Proofs

theorem ju_escape_ascii {x : UInt8} (hx : x < 0x80) : ∀ y ∈ Model.Json.escapeByte x, y < 0x80 := by
  have key : ∀ n : Fin 128, ∀ y ∈ Model.Json.escapeByte (UInt8.ofNat n.val), y < 0x80 := by decide +kernel
  have := key ⟨x.toNat, UInt8.lt_iff_toNat_lt.1 hx⟩
  simpa only [UInt8.ofNat_toNat] using this

theorem ju_escape_high {x : UInt8} (hx : 0x80 ≤ x) : Model.Json.escapeByte x = [x] := by
  refine j_escape_plain ((j_plain_iff x).2 ?_)
  have hn := UInt8.le_iff_toNat_le.1 hx
  rintro (rfl | rfl | h)
  · revert hn; decide
  · revert hn; decide
  · have := UInt8.lt_iff_toNat_lt.1 h
    have h1 : (0x80 : UInt8).toNat = 128 := rfl
    have h2 : (0x20 : UInt8).toNat = 32 := rfl
    omega

theorem ju_flatMap_high {l : Bytes} (h : ∀ x ∈ l, 0x80 ≤ x) : l.flatMap Model.Json.escapeByte = l := by
  induction l with
  | nil => rfl
  | cons x l ih =>
    rw [List.flatMap_cons, ju_escape_high (h x (by simp)), ih (fun y hy => h y (by simp [hy]))]
    rfl

theorem ju_char (c : Char) : Utf8 ((String.utf8EncodeChar c).flatMap Model.Json.escapeByte) := by
  rcases enc_cases c with ⟨x, hx, e⟩ | ⟨x, t, e, h1, h2⟩
  · rw [e]
    refine Utf8.of_ascii ?_
    intro y hy
    simp only [List.flatMap_cons, List.flatMap_nil, List.append_nil] at hy
    exact ju_escape_ascii hx y hy
  · rw [ju_flatMap_high]
    · exact ⟨[c], by simp⟩
    · intro y hy
      rw [e] at hy
      rcases List.mem_cons.1 hy with rfl | hy
      · exact UInt8.le_trans (by decide) h1
      · exact (h2 y hy).1

theorem ju_escape {s : Bytes} (h : Utf8 s) : Utf8 (s.flatMap Model.Json.escapeByte) := by
  obtain ⟨cs, rfl⟩ := h
  induction cs with
  | nil => exact Utf8.nil
  | cons c cs ih =>
    rw [List.flatMap_cons, List.flatMap_append]
    exact (ju_char c).append ih

theorem ju_quote {s : Bytes} (h : Utf8 s) : Utf8 (Model.Json.quote s) :=
  Utf8.cons (by decide) ((ju_escape h).append (Utf8.of_ascii (by simp)))

theorem ju_number (n : Int) : Utf8 (Model.Json.number n) := by
  have h : ∀ m : Nat, Utf8 (decNat m) := fun m => Utf8.of_ascii fun x hx => by
    rw [decNat_eq] at hx
    have := (showNat_spec m).1.2 x hx
    exact UInt8.lt_of_le_of_lt this.2 (by decide)
  unfold Model.Json.number
  split
  · exact Utf8.cons (by decide) (h _)
  · exact h _

mutual

theorem ju_text : ∀ v : Value, Json.Strings v → Utf8 (Model.Json.text v)
  | .null, _ => Utf8.of_ascii (by decide)
  | .bool true, _ => Utf8.of_ascii (by decide)
  | .bool false, _ => Utf8.of_ascii (by decide)
  | .num n, _ => by rw [Model.Json.text]; exact ju_number n
  | .str s, h => by rw [Model.Json.text]; rw [Json.Strings] at h; exact ju_quote h
  | .seq l, h => by
    rw [Model.Json.text]
    rw [Json.Strings] at h
    exact Utf8.cons (by decide) ((ju_elems l true h).append (Utf8.of_ascii (by simp)))
  | .map l, h => by
    rw [Model.Json.text]
    rw [Json.Strings] at h
    exact Utf8.cons (by decide) ((ju_entries l true h).append (Utf8.of_ascii (by simp)))

theorem ju_elems : ∀ (l : List Value) (f : Bool), Json.StringsElems l → Utf8 (Model.Json.elems f l)
  | [], f, _ => by rw [Model.Json.elems]; exact Utf8.nil
  | v :: vs, f, h => by
    rw [Model.Json.elems]
    rw [Json.StringsElems] at h
    refine Utf8.append (Utf8.append ?_ (ju_text v h.1)) (ju_elems vs false h.2)
    cases f
    · exact Utf8.of_ascii (by simp)
    · exact Utf8.nil

theorem ju_entries : ∀ (l : List (Bytes × Value)) (f : Bool), Json.StringsEntries l → Utf8 (Model.Json.entries f l)
  | [], f, _ => by rw [Model.Json.entries]; exact Utf8.nil
  | (k, v) :: kvs, f, h => by
    rw [Model.Json.entries]
    rw [Json.StringsEntries] at h
    refine Utf8.append (Utf8.append (Utf8.append (Utf8.append ?_ (ju_quote h.1)) (Utf8.of_ascii (by simp))) (ju_text v h.2.1))
      (ju_entries kvs false h.2.2)
    cases f
    · exact Utf8.of_ascii (by simp)
    · exact Utf8.nil

end

/-- C126: what is written for strings is a string (serde_json takes this for granted: it does not check the bytes). -/
theorem C126_utf8 (v : Value) (h : Json.Strings v) : Utf8 (Model.Json.text v) := ju_text v h

example := C126_utf8 (.map [(b!"text", .str (b!"\"☃\" \n")), (b!"badges", .seq [.str (b!"é"), .num (-3)])]) (by
  simp only [Json.Strings, Json.StringsEntries, Json.StringsElems, and_true]
  exact ⟨Utf8.of_ascii (by decide), ⟨['"', '☃', '"', ' ', '\n'], by decide +kernel⟩, Utf8.of_ascii (by decide),
    ⟨['é'], by decide +kernel⟩⟩)

end Tmi.Props
