/-
C126: a file with one message on each line of which the end is missing.
-/
import Verif.Proofs.JsonCut
import Verif.Props.Json

namespace Tmi.Spec

/-- What can be read from a file, line by line; lines that cannot be read are passed over. -/
def readLines {α : Type} (read : Bytes → Option α) (t : Bytes) : List α := (fields LF t).filterMap read

end Tmi.Spec

namespace Tmi.Props
open Tmi.Spec Tmi.Model Tmi.Proofs

theorem write_map {tc : TimeCodec} {k : Spec.Kind} {M : Message} {v : Value} (h : k.write tc M = some v) :
    ∃ kvs, v = .map kvs := by
  cases k <;> cases M <;> simp only [Kind.write, Option.some.injEq, reduceCtorEq] at h <;> subst h <;> exact ⟨_, rfl⟩

theorem text_no_lf (v : Value) : LF ∉ Model.Json.text v := by
  intro h
  have := text_bytes v _ h
  revert this
  decide

/-- C126: a text that lacks its end, however much of it, is not taken for a message. -/
theorem C126_incomplete (tc : TimeCodec) (k : Spec.Kind) (M : Message) (v : Value) (h : k.write tc M = some v) (n : Nat)
    (hn : n < (Model.Json.text v).length) : Json.read ((Model.Json.text v).take n) = none := by
  obtain ⟨kvs, rfl⟩ := write_map h
  refine j_cut (q := (Model.Json.text (.map kvs)).drop n) (List.take_append_drop n _).symm ?_
  intro he
  have := congrArg List.length he
  simp only [List.length_drop, List.length_nil] at this
  omega

/-- C126: a file with one message on each line may be cut off at any byte, as by a crash: what is read from it is the messages
whose lines are complete, and perhaps one more if only the line feed is missing. -/
theorem C126_cut (tc : TimeCodec) (k : Spec.Kind) (Ms : List Message) (vs : List Value)
    (hw : Ms.map (k.write tc) = vs.map some) (hr : ∀ M ∈ Ms, ReadsBack tc M) (n : Nat) :
    ∃ j, readLines (fun l => (Json.read l).bind (k.read tc)) ((vs.flatMap fun v => Model.Json.text v ++ [LF]).take n) = Ms.take j ∧
      ((vs.flatMap fun v => Model.Json.text v ++ [LF]).take n).count LF ≤ j ∧
      j ≤ ((vs.flatMap fun v => Model.Json.text v ++ [LF]).take n).count LF + 1 := by
  induction Ms generalizing vs n with
  | nil =>
    cases vs with
    | nil => exact ⟨0, by simp [readLines, fields, cut, Json.read, Json.readValue, Json.blank], by simp, by simp⟩
    | cons v vs => cases hw
  | cons M Ms ih =>
    cases vs with
    | nil => cases hw
    | cons v vs =>
      simp only [List.map_cons, List.cons.injEq] at hw
      have hM := (C126_message tc k M v hw.1).2 (hr M (by simp))
      rw [List.flatMap_cons, List.append_assoc, List.singleton_append]
      by_cases hn : n ≤ (Model.Json.text v).length
      · rw [List.take_append_of_le_length hn]
        have hl : LF ∉ (Model.Json.text v).take n := fun h => text_no_lf v (List.mem_of_mem_take h)
        have hf : fields LF ((Model.Json.text v).take n) = [(Model.Json.text v).take n] := by
          rw [← splitOn_fields, splitOn_none hl]
        have h0 : ((Model.Json.text v).take n).count LF = 0 := List.count_eq_zero.2 hl
        rw [h0]
        by_cases he : n = (Model.Json.text v).length
        · refine ⟨1, ?_, by omega, by omega⟩
          rw [readLines, hf, he, List.take_length, List.filterMap_cons, hM]
          rfl
        · refine ⟨0, ?_, by omega, by omega⟩
          rw [readLines, hf, List.filterMap_cons, C126_incomplete tc k M v hw.1 n (by omega)]
          rfl
      · obtain ⟨m, rfl⟩ : ∃ m, n = (Model.Json.text v).length + (m + 1) := ⟨n - (Model.Json.text v).length - 1, by omega⟩
        obtain ⟨j, h1, h2, h3⟩ := ih vs hw.2 (fun m hm => hr m (by simp [hm])) m
        rw [List.take_append, List.take_of_length_le (by omega), show (Model.Json.text v).length + (m + 1) -
          (Model.Json.text v).length = m + 1 by omega, List.take_succ_cons]
        have h0 : (Model.Json.text v).count LF = 0 := List.count_eq_zero.2 (text_no_lf v)
        refine ⟨j + 1, ?_, ?_, ?_⟩
        · rw [readLines, ← splitOn_fields, splitOn_some _ (text_no_lf v), splitOn_fields, List.filterMap_cons, hM,
            List.take_succ_cons]
          exact congrArg (M :: ·) h1
        · rw [List.count_append, h0, List.count_cons_self]; omega
        · rw [List.count_append, h0, List.count_cons_self]; omega

/-- C126: whatever text a message was read from, with blanks, escapes, times with offsets and further entries in it, what is
then written for the message is read as the same message. -/
theorem C126_again (k : Spec.Kind) (t : Bytes) (M : Message) (h : (Json.read t).bind (k.read Chrono.codec) = some M) :
    ∃ c, k.write Chrono.codec M = some c ∧ (Json.read (Model.Json.text c)).bind (k.read Chrono.codec) = some M := by
  obtain ⟨v, _, hv⟩ := Option.bind_eq_some_iff.1 h
  obtain ⟨c, h1, h2⟩ := C67_rfc3339_again k v M hv
  exact ⟨c, h1, by rw [j_read c]; exact h2⟩

/-! Examples: of two messages, the second one lacks its end, or nothing but its line feed. -/

example := C126_incomplete Chrono.codec .clearMsg someDeleted someDeletedValue some_deleted 20 (by decide +kernel)
example := C126_cut Chrono.codec .clearMsg [someDeleted, someDeleted] [someDeletedValue, someDeletedValue] rfl
  (by simp [some_deleted_back]) 200
example : (readLines (fun l => (Json.read l).bind (Spec.Kind.clearMsg.read Chrono.codec))
    ((Model.Json.text someDeletedValue ++ [LF] ++ Model.Json.text someDeletedValue).take 200)).length = 1 ∧
    (readLines (fun l => (Json.read l).bind (Spec.Kind.clearMsg.read Chrono.codec))
    (Model.Json.text someDeletedValue ++ [LF] ++ Model.Json.text someDeletedValue)).length = 2 := by decide +kernel
example := C126_again .clearMsg (b!"{ \"x\": [1, 2], \"channel\":\"\\u0023a\",\"channel_id\":\"1\",\"sender\":\"b\",\"target_message_id\":\"3\",\"text\":\"hi\", \"is_action\":false,\"timestamp\":\"2020-07-12T14:17:55.123+02:00\" }")
  (.clearMsg ⟨b!"#a", b!"1", b!"b", b!"3", b!"hi", false, ⟨1594556275, 123000000, by decide⟩⟩) (by decide +kernel)
/-- A number of which the end is missing is another number: it matters that messages are objects. -/
example : (match Json.read ((Model.Json.text (.num 123)).take 2) with
    | some (.num n) => some n
    | _ => none) = some 12 := by decide +kernel

end Tmi.Props
