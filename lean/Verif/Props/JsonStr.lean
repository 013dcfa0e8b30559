/-
C127: channel names from JSON texts.
-/
import Verif.Props.Serde
import Verif.Proofs.JsonStr

namespace Tmi.Spec

/-- What a JSON string cannot have as it is (RFC 8259, section 7): quotation mark, backslash, control characters. -/
def NeedsEscape (x : UInt8) : Prop := x = 0x22 ∨ x = 0x5C ∨ x < 0x20

instance (x : UInt8) : Decidable (NeedsEscape x) := by unfold NeedsEscape; infer_instance

end Tmi.Spec

namespace Tmi.Props
open Tmi.Spec Tmi.Model Tmi.Proofs

theorem j_ref_parse (s c : Bytes) : ChannelRef.parse s = some c ↔ c = s ∧ ∃ t, s = b!"#" ++ t := C48_parse s c

/-- C127: a `Channel` is read exactly from the JSON texts that stand for a string that starts with `#`. -/
theorem C127_value (t c : Bytes) :
    Model.Json.channelFromStr t = some c ↔ Json.read t = some (.str c) ∧ ∃ r, c = b!"#" ++ r := by
  rw [← strFrom_text]
  unfold Model.Json.channelFromStr Model.Json.channel
  cases Model.Json.strFrom t with
  | none => simp
  | some s =>
    simp only [Option.bind_some, C48_parse, Option.map_some, Option.some.injEq]
    constructor
    · rintro ⟨rfl, h⟩; exact ⟨rfl, h⟩
    · rintro ⟨rfl, h⟩; exact ⟨rfl, h⟩

/-- C127: every `Channel` comes back from its JSON text, read from a string or from a reader. -/
theorem C127_channel (c : Bytes) (h : ∃ r, c = b!"#" ++ r) :
    Model.Json.channelFromStr (Model.Json.text (Channel.ser c)) = some c ∧
    Model.Json.channelFromReader (Model.Json.text (Channel.ser c)) = some c := by
  have h1 := (C127_value _ c).2 ⟨j_read (Channel.ser c), h⟩
  refine ⟨h1, ?_⟩
  unfold Model.Json.channelFromStr at h1
  unfold Model.Json.channelFromReader Model.Json.strFromReader
  cases hs : Model.Json.strFrom (Model.Json.text (Channel.ser c)) with
  | none => rw [hs] at h1; exact h1
  | some s => rw [hs] at h1; exact h1

theorem j_drop_all {p : UInt8 → Bool} {l : Bytes} (h : ∀ x ∈ l, p x = true) : l.dropWhile p = [] := by
  have := List.dropWhile_append_of_pos (l₂ := []) h
  simpa using this

theorem j_blank_append {w : Bytes} (hw : Json.blank w = []) (t : Bytes) : Json.blank (w ++ t) = Json.blank t := by
  unfold Json.blank at *
  rw [List.dropWhile_append, hw]
  simp

/-- C127: a borrowed name is read exactly from the texts that have it word for word between quotation marks, with nothing but
blanks around them. -/
theorem C127_borrowed (t c : Bytes) :
    Model.Json.channelRefFromStr t = some c ↔
      (∃ r, c = b!"#" ++ r) ∧ (∀ x ∈ c, ¬NeedsEscape x) ∧
      ∃ w w', Json.blank w = [] ∧ Json.blank w' = [] ∧ t = w ++ b!"\"" ++ c ++ b!"\"" ++ w' := by
  constructor
  · intro h
    unfold Model.Json.channelRefFromStr at h
    obtain ⟨k, hk, h⟩ := Option.bind_eq_some_iff.1 h
    obtain ⟨s, hs, h⟩ := Option.bind_eq_some_iff.1 h
    obtain ⟨rfl, hr⟩ := (j_ref_parse s c).1 h
    cases k with
    | owned k => cases hs
    | borrowed k =>
      cases hs
      unfold Model.Json.strFrom at hk
      cases hb : Json.blank t with
      | nil => rw [hb] at hk; cases hk
      | cons q r =>
        rw [hb] at hk
        dsimp only at hk
        by_cases hq : q = 0x22
        · subst hq
          rw [if_pos rfl] at hk
          unfold Model.Json.parseStr at hk
          cases hd : r.dropWhile Model.Json.plain with
          | nil => rw [hd] at hk; cases hk
          | cons e r' =>
            rw [hd] at hk
            dsimp only at hk
            by_cases he : e = 0x22
            · subst he
              rw [if_pos rfl] at hk
              dsimp only at hk
              split at hk
              · rename_i hbr
                cases hk
                refine ⟨hr, fun x hx => (j_plain_iff x).1 (j_take_plain r x hx),
                  t.takeWhile (fun x => x == 0x20 || x == 0x09 || x == 0x0A || x == 0x0D), r', ?_, hbr, ?_⟩
                · exact j_drop_all (fun x hx => List.all_eq_true.1 (List.all_takeWhile (l := t)) x hx)
                · have e1 : t = t.takeWhile (fun x => x == 0x20 || x == 0x09 || x == 0x0A || x == 0x0D) ++ Json.blank t :=
                    List.takeWhile_append_dropWhile.symm
                  have e2 : r = r.takeWhile Model.Json.plain ++ 0x22 :: r' := by
                    rw [← hd]
                    exact List.takeWhile_append_dropWhile.symm
                  rw [hb] at e1
                  conv => lhs; rw [e1, e2]
                  simp
              · cases hk
            · rw [if_neg he] at hk
              by_cases he2 : e = 0x5C
              · rw [if_pos he2] at hk
                cases hx : Json.readString (e :: r') with
                | none => rw [hx] at hk; cases hk
                | some p =>
                  rw [hx] at hk
                  obtain ⟨s, r2⟩ := p
                  dsimp only [Option.map_some] at hk
                  split at hk <;> cases hk
              · rw [if_neg he2] at hk; cases hk
        · rw [if_neg hq] at hk; cases hk
  · rintro ⟨hr, hp, w, w', hw, hw', rfl⟩
    have hp' : ∀ x ∈ c, Model.Json.plain x = true := fun x hx => (j_plain_iff x).2 (hp x hx)
    have e : Model.Json.strFrom (w ++ b!"\"" ++ c ++ b!"\"" ++ w') = some (.borrowed c) := by
      unfold Model.Json.strFrom
      rw [show w ++ b!"\"" ++ c ++ b!"\"" ++ w' = w ++ (0x22 :: (c ++ 0x22 :: w')) by simp, j_blank_append hw,
        blank_cons (by decide)]
      dsimp only
      rw [if_pos rfl]
      unfold Model.Json.parseStr
      have hq : ¬Model.Json.plain 0x22 = true := by decide
      rw [List.dropWhile_append_of_pos hp', List.takeWhile_append_of_pos hp', List.dropWhile_cons, if_neg hq,
        List.takeWhile_cons, if_neg hq]
      dsimp only
      rw [if_pos rfl, List.append_nil]
      dsimp only
      rw [if_pos hw']
    unfold Model.Json.channelRefFromStr
    rw [e]
    exact (j_ref_parse c c).2 ⟨rfl, hr⟩

theorem j_flatMap_plain {c : Bytes} (h : ∀ x ∈ c, Model.Json.plain x = true) : c.flatMap Model.Json.escapeByte = c := by
  induction c with
  | nil => rfl
  | cons x c ih =>
    rw [List.flatMap_cons, j_escape_plain (h x (by simp)), ih (fun y hy => h y (by simp [hy]))]
    rfl

/-- C127, the part that holds for the borrowed form: it comes back from its own JSON text exactly if nothing in it has to be
escaped.  Missing: all other names (`C127_negation`); they come back as `Channel` (`C127_channel`). -/
theorem C127_back_partial (c : Bytes) (h : ∃ r, c = b!"#" ++ r) :
    Model.Json.channelRefFromStr (Model.Json.text (ChannelRef.ser c)) = some c ↔ ∀ x ∈ c, ¬NeedsEscape x := by
  constructor
  · intro hc
    exact ((C127_borrowed _ c).1 hc).2.1
  · intro hp
    refine (C127_borrowed _ c).2 ⟨h, hp, [], [], rfl, rfl, ?_⟩
    show Model.Json.quote c = _
    unfold Model.Json.quote
    rw [j_flatMap_plain (fun x hx => (j_plain_iff x).2 (hp x hx))]
    simp

/-- C127: what a name comes back as is never another name. -/
theorem C127_same (c d : Bytes)
    (hd : Model.Json.channelRefFromStr (Model.Json.text (ChannelRef.ser c)) = some d) : d = c := by
  unfold Model.Json.channelRefFromStr at hd
  obtain ⟨k, hk, h⟩ := Option.bind_eq_some_iff.1 hd
  obtain ⟨s, hs, h⟩ := Option.bind_eq_some_iff.1 h
  obtain ⟨rfl, -⟩ := (j_ref_parse s d).1 h
  cases k with
  | owned k => cases hs
  | borrowed k =>
    cases hs
    have := (strFrom_text (Model.Json.text (ChannelRef.ser c)) d).1 (by rw [hk]; rfl)
    rw [j_read] at this
    exact (Value.str.inj (Option.some.inj this)).symm

/-- C127 does not hold as stated: a borrowed channel name can be written that cannot be read. -/
theorem C127_negation : ∃ c, ChannelRef.parse c = some c ∧
    Model.Json.channelRefFromStr (Model.Json.text (ChannelRef.ser c)) = none := by
  refine ⟨b!"#\"a\"", by decide, ?_⟩
  decide +kernel

/-- C127: from a reader, no text whatsoever gives a borrowed name, and all give the owned name that they give from a string. -/
theorem C127_reader (t : Bytes) :
    Model.Json.channelRefFromReader t = none ∧ Model.Json.channelFromReader t = Model.Json.channelFromStr t := by
  unfold Model.Json.channelRefFromReader Model.Json.channelFromReader Model.Json.channelFromStr Model.Json.strFromReader
  cases Model.Json.strFrom t with
  | none => exact ⟨rfl, rfl⟩
  | some s => exact ⟨rfl, rfl⟩

/-! Examples -/

example : Model.Json.channelFromStr (b!" \"\\u0023a\\\"\" ") = some (b!"#a\"") := by decide +kernel
example := (C127_value (b!"\"#museun\"") (b!"#museun")).1 (by decide +kernel)
example := C127_channel (b!"#\"a\"\n") ⟨b!"\"a\"\n", rfl⟩
example := (C127_borrowed (b!"\t\"#museun\"\n") (b!"#museun")).2
  ⟨⟨b!"museun", rfl⟩, by decide, b!"\t", b!"\n", by decide, by decide, rfl⟩
example := (C127_back_partial (b!"#museun") ⟨b!"museun", rfl⟩).2 (by decide)
example := C127_same (b!"#museun") (b!"#museun") (by decide +kernel)

/-- A text that stands for a name, but writes it with an escape, gives the owned form only. -/
example : Model.Json.channelFromStr (b!"\"\\u0023a\"") = some (b!"#a") ∧
    Model.Json.channelRefFromStr (b!"\"\\u0023a\"") = none ∧
    Model.Json.channelRefFromStr (b!"\"#a\"") = some (b!"#a") ∧
    Model.Json.channelRefFromReader (b!"\"#a\"") = none ∧
    Model.Json.channelFromReader (b!"\"#a\"") = some (b!"#a") ∧
    Model.Json.channelFromStr (b!"\"a\"") = none ∧ Model.Json.channelFromStr (b!"\"#a\" 1") = none := by
  decide +kernel

end Tmi.Props
