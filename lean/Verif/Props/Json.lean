/-
C126: messages as JSON texts.
-/
import Verif.Props.Chrono
import Verif.Proofs.Json

namespace Tmi.Props
open Tmi.Spec Tmi.Model Tmi.Proofs

/-- C126: what is written for a value is a JSON text, and stands for that value. -/
theorem C126_value (v : Value) : Json.read (Model.Json.text v) = some v := j_read v

/-- C126: a message that is saved as a JSON text is read back exactly if its values can be read back at all (C67). -/
theorem C126_message (tc : TimeCodec) (k : Spec.Kind) (M : Message) (v : Value) (h : k.write tc M = some v) :
    (Json.read (Model.Json.text v)).bind (k.read tc) = some M ↔ ReadsBack tc M := by
  rw [j_read v]
  exact C67_back tc k M v h

theorem reserialised_kind {tc : TimeCodec} {k : Spec.Kind} {M : Message} {v : Value} (h : k.write tc M = some v) :
    reserialised tc M = some (k.read tc v) := by
  cases k <;> cases M <;> simp only [Kind.write, Option.some.injEq, reduceCtorEq] at h <;> subst h <;> rfl

/-- C126: every message that was parsed from a line comes back from its JSON text, with the times as chrono writes them,
if the months of its subscriber badges are numbers (the others: C50). -/
theorem C126_parsed (b : Build) (s : Bytes) (M : Message) (h : Message.parse b s = .ok (some M))
    (hn : NumericMonths (badgesIn M)) (k : Spec.Kind) (v : Value) (hv : k.write Chrono.codec M = some v) :
    (Json.read (Model.Json.text v)).bind (k.read Chrono.codec) = some M := by
  rw [j_read v]
  exact C50_rfc3339_partial b s M h hn _ (reserialised_kind hv)

/-- C126: the text is one line without control characters, whatever is in the message. -/
theorem C126_one_line (v : Value) : ∀ y ∈ Model.Json.text v, 0x20 ≤ y := text_bytes v

/-- C126: different messages have different texts. -/
theorem C126_different (v v' : Value) (h : Model.Json.text v = Model.Json.text v') : v = v' := by
  have := j_read v
  rw [h, j_read v'] at this
  exact (Option.some.inj this).symm

theorem text_ne (v : Value) : Model.Json.text v ≠ [] := by
  obtain ⟨x, l, h, _⟩ := text_head v
  rw [h]
  simp

theorem fields_lines : ∀ vs : List Value,
    fields LF (vs.flatMap fun v => Model.Json.text v ++ [LF]) = vs.map Model.Json.text ++ [[]]
  | [] => by rw [List.flatMap_nil, fields]; simp [cut]
  | v :: vs => by
    have hl : LF ∉ Model.Json.text v := by
      intro h
      have := text_bytes v _ h
      revert this
      decide
    rw [List.flatMap_cons, List.append_assoc, List.singleton_append, ← splitOn_fields, splitOn_some _ hl, splitOn_fields,
      fields_lines vs]
    rfl

/-- C126: a file with one message on each line, its lines being split at line feeds, gives back all messages in order. -/
theorem C126_log (tc : TimeCodec) (k : Spec.Kind) (Ms : List Message) (vs : List Value)
    (hw : Ms.map (k.write tc) = vs.map some) (hr : ∀ M ∈ Ms, ReadsBack tc M) :
    ((fields LF (vs.flatMap fun v => Model.Json.text v ++ [LF])).filter (· ≠ [])).map
      (fun l => (Json.read l).bind (k.read tc)) = Ms.map some := by
  rw [fields_lines, List.filter_append]
  have : (vs.map Model.Json.text).filter (· ≠ []) = vs.map Model.Json.text := by
    rw [List.filter_eq_self]
    intro t ht
    obtain ⟨v, _, rfl⟩ := List.mem_map.1 ht
    simpa using text_ne v
  rw [this]
  simp only [ne_eq, not_true_eq_false, decide_false, List.filter_cons, Bool.false_eq_true, if_false, List.filter_nil,
    List.append_nil, List.map_map]
  induction Ms generalizing vs with
  | nil => cases vs with
    | nil => rfl
    | cons v vs => cases hw
  | cons M Ms ih =>
    cases vs with
    | nil => cases hw
    | cons v vs =>
      simp only [List.map_cons, List.cons.injEq] at hw ⊢
      refine ⟨(C126_message tc k M v hw.1).2 (hr M (by simp)), ih vs hw.2 (fun m hm => hr m (by simp [hm])) ?_⟩
      rw [List.filter_eq_self] at this ⊢
      exact fun t ht => this t (List.mem_cons_of_mem _ ht)

/-! Examples: a text with quotes, a backslash, control characters and an emote. -/

/-- A deleted message with all kinds of characters in it. -/
def someDeleted : Message :=
  .clearMsg ⟨b!"#a", b!"1", b!"b", b!"3", b!"\"hi\"\\ \t\x01 ☃", false, ⟨1594556275, 123000000, by decide⟩⟩

/-- What is serialised for it. -/
def someDeletedValue : Value := (Spec.Kind.clearMsg.write Chrono.codec someDeleted).getD .null

theorem some_deleted : Spec.Kind.clearMsg.write Chrono.codec someDeleted = some someDeletedValue := rfl

example : Model.Json.text someDeletedValue = b!"{\"channel\":\"#a\",\"channel_id\":\"1\",\"sender\":\"b\",\"target_message_id\":\"3\",\"text\":\"\\\"hi\\\"\\\\ \\t\\u0001 ☃\",\"is_action\":false,\"timestamp\":\"2020-07-12T12:17:55.123Z\"}" := by
  decide +kernel
example := C126_value someDeletedValue
example := (C126_message Chrono.codec .clearMsg someDeleted someDeletedValue some_deleted).2 (by
  show Chrono.codec.read (Chrono.codec.show_ _) = some _
  decide +kernel)
example := C126_one_line someDeletedValue
example := C126_different someDeletedValue someDeletedValue rfl

theorem some_deleted_back : ReadsBack Chrono.codec someDeleted := by
  show Chrono.codec.read (Chrono.codec.show_ _) = some _
  decide +kernel

/-- The message is written twice. -/
example := C126_log Chrono.codec .clearMsg [someDeleted, someDeleted] [someDeletedValue, someDeletedValue] rfl
  (by simp [some_deleted_back])

/-- The ban of `sampleTimed`. -/
def someBan : Message := .clearChat ⟨b!"#a", b!"1", .ban (b!"b") (b!"2"), ⟨1594556275, 123000000, by decide⟩⟩

example := C126_parsed ⟨.scalar, true⟩ sampleTimed someBan (by decide +kernel) (by intro v hv; cases hv) .clearChat
  ((Spec.Kind.clearChat.write Chrono.codec someBan).getD .null) rfl

/-- Other JSON texts for a value: blanks, a surrogate pair, capital hexadecimal digits; and texts that are not JSON. -/
example : Json.read (b!" { \"a\" : [ 1 , -20,\"\\uD83D\\uDE00\\/\\u000A\" ] }\n") =
      some (.map [(b!"a", .seq [.num 1, .num (-20), .str (b!"😀/\n")])]) ∧
    Json.read (b!"[1,]") = none ∧ Json.read (b!"01") = none ∧ Json.read (b!"\"\\uDE00\"") = none ∧
    Json.read (b!"null null") = none := by
  have h : ∀ {a b c d e : Option Value}, a = some (.map [(b!"a", .seq [.num 1, .num (-20), .str (b!"😀/\n")])]) →
      b.isNone = true → c.isNone = true → d.isNone = true → e.isNone = true →
      a = some (.map [(b!"a", .seq [.num 1, .num (-20), .str (b!"😀/\n")])]) ∧ b = none ∧ c = none ∧ d = none ∧ e = none := by
    intro a b c d e h1 h2 h3 h4 h5
    simp only [Option.isNone_iff_eq_none] at h2 h3 h4 h5
    exact ⟨h1, h2, h3, h4, h5⟩
  exact h rfl (by decide +kernel) (by decide +kernel) (by decide +kernel) (by decide +kernel)

end Tmi.Props
