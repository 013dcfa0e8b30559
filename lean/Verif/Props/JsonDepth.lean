/-
C126: readers that limit how deep a JSON text is nested.
-/
import Verif.Spec.JsonDepth
import Verif.Props.Json

namespace Tmi.Props
open Tmi.Spec Tmi.Model Tmi.Proofs

theorem nest_option {α : Type} (f : α → Value) (o : Option α) (n : Nat) (h : ∀ a, Json.nesting (f a) ≤ n) :
    Json.nesting (serOption f o) ≤ n := by
  cases o with
  | none => exact Nat.zero_le n
  | some a => exact h a

theorem nest_elems {α : Type} (f : α → Value) (l : List α) (n : Nat) (h : ∀ a, Json.nesting (f a) ≤ n) :
    Json.nestingElems (l.map f) ≤ n := by
  induction l with
  | nil => exact Nat.zero_le n
  | cons a l ih => exact Nat.max_le.2 ⟨h a, ih⟩

theorem nest_seq {α : Type} (f : α → Value) (l : List α) (n : Nat) (h : ∀ a, Json.nesting (f a) ≤ n) :
    Json.nesting (serSeq f l) ≤ n + 1 := Nat.succ_le_succ (nest_elems f l n h)

theorem nest_map (kvs : List (Bytes × Value)) (n : Nat) (h : ∀ kv ∈ kvs, Json.nesting kv.2 ≤ n) :
    Json.nesting (.map kvs) ≤ n + 1 := by
  refine Nat.succ_le_succ ?_
  induction kvs with
  | nil => exact Nat.zero_le n
  | cons kv kvs ih =>
    exact Nat.max_le.2 ⟨h kv (by simp), ih (fun kv' h' => h kv' (by simp [h']))⟩

theorem nest_str (s : Bytes) (n : Nat) : Json.nesting (.str s) ≤ n := by simp [Json.nesting]
theorem nest_bool (s : Bool) (n : Nat) : Json.nesting (.bool s) ≤ n := by simp [Json.nesting]
theorem nest_num (s : Int) (n : Nat) : Json.nesting (.num s) ≤ n := by simp [Json.nesting]
theorem nest_nat (s : Nat) (n : Nat) : Json.nesting (serNat s) ≤ n := nest_num s n
theorem nest_time (tc : TimeCodec) (t : Timestamp) (n : Nat) : Json.nesting (tc.ser t) ≤ n := nest_str _ n

theorem nest_le {v : Value} {n m : Nat} (h : Json.nesting v ≤ n) (hm : n ≤ m) : Json.nesting v ≤ m := Nat.le_trans h hm

/-- The fields of a struct. -/
macro "nest_fields" : tactic => `(tactic|
  (refine nest_map _ _ ?_
   simp only [List.mem_cons, List.not_mem_nil, or_false, forall_eq_or_imp, forall_eq, nest_str, nest_bool, nest_num, nest_nat,
     nest_time, nest_option, implies_true, true_and, and_true]))

theorem nest_duration (d : Nat) : Json.nesting (serDuration d) ≤ 1 := by unfold serDuration; nest_fields
theorem nest_user (u : User) : Json.nesting u.ser ≤ 1 := by unfold User.ser; nest_fields
theorem nest_sub (u : Subscriber) : Json.nesting u.ser ≤ 1 := by unfold Subscriber.ser; nest_fields
theorem nest_data (u : BadgeData) : Json.nesting u.ser ≤ 1 := by unfold BadgeData.ser; nest_fields
theorem nest_promo (u : SubGiftPromo) : Json.nesting u.ser ≤ 1 := by unfold SubGiftPromo.ser; nest_fields

theorem nest_badge (u : Badge) : Json.nesting u.ser ≤ 2 := by
  cases u with
  | subscriber v => unfold Badge.ser; nest_fields; exact nest_sub v
  | other v => unfold Badge.ser; nest_fields; exact nest_data v
  | _ => unfold Badge.ser; exact nest_str _ _

theorem nest_action (u : Action) : Json.nesting u.ser ≤ 3 := by
  cases u with
  | clear => exact nest_str _ _
  | ban u i => unfold Action.ser; nest_fields; nest_fields
  | timeOut u i d => unfold Action.ser; nest_fields; nest_fields; exact nest_duration d

theorem nest_level (u : PinnedChatLevel) (n : Nat) : Json.nesting u.ser ≤ n := by
  cases u <;> exact nest_str _ _

theorem nest_pinned (u : PinnedChat) : Json.nesting u.ser ≤ 1 := by
  unfold PinnedChat.ser; nest_fields; exact nest_level _ _

theorem nest_reply (u : Reply) : Json.nesting u.ser ≤ 2 := by
  unfold Reply.ser; nest_fields; exact nest_user _

theorem nest_followers (u : FollowersOnly) : Json.nesting u.ser ≤ 3 := by
  cases u <;> unfold FollowersOnly.ser
  all_goals first
    | exact nest_str _ _
    | (nest_fields; try exact nest_option _ _ _ (fun d => nest_le (nest_duration d) (by omega)))
    | (nest_fields; nest_fields)

theorem nest_event (u : Event) : Json.nesting u.ser ≤ 3 := by
  cases u <;> unfold Event.ser
  all_goals first
    | exact nest_str _ _
    | (nest_fields; nest_fields; done)
    | (nest_fields; nest_fields; exact nest_user _)
    | (nest_fields; nest_fields; exact nest_option _ _ _ nest_promo)

theorem nest_badges (l : List Badge) : Json.nesting (serSeq Badge.ser l) ≤ 3 := nest_seq _ l 2 nest_badge

/-- C126: what is serialised for a message has at most four arrays and objects within one another. -/
theorem C126_depth (tc : TimeCodec) (k : Spec.Kind) (M : Message) (v : Value) (h : k.write tc M = some v) :
    Json.nesting v ≤ 4 := by
  cases k <;> cases M <;> simp only [Kind.write, Option.some.injEq, reduceCtorEq] at h <;> subst h
  · unfold ClearChat.ser; nest_fields; exact nest_action _
  · unfold ClearMsg.ser; nest_fields
  · unfold GlobalUserState.ser; nest_fields; exact ⟨nest_badges _, nest_seq _ _ 2 (fun s => nest_str s 2)⟩
  · unfold Join.ser; nest_fields
  · unfold Notice.ser; nest_fields
  · unfold Part.ser; nest_fields
  · unfold Ping.ser; nest_fields
  · unfold Pong.ser; nest_fields
  · unfold Privmsg.ser; nest_fields
    exact ⟨nest_le (nest_user _) (by omega), nest_option _ _ _ (fun r => nest_le (nest_reply r) (by omega)),
      nest_option _ _ _ (fun r => nest_le (nest_pinned r) (by omega)), nest_badges _⟩
  · unfold RoomState.ser; nest_fields
    exact ⟨nest_option _ _ _ nest_followers, nest_option _ _ _ (fun r => nest_le (nest_duration r) (by omega))⟩
  · unfold UserNotice.ser; nest_fields
    exact ⟨nest_option _ _ _ (fun r => nest_le (nest_user r) (by omega)), nest_event _, nest_badges _⟩
  · unfold UserState.ser; nest_fields; exact ⟨nest_badges _, nest_seq _ _ 2 (fun s => nest_str s 2)⟩
  · unfold Whisper.ser; nest_fields
    exact ⟨nest_le (nest_user _) (by omega), nest_badges _⟩

/-- C126: so a limit of four or more, such as the 127 of serde_json, never keeps a message from coming back. -/
theorem C126_limit (tc : TimeCodec) (k : Spec.Kind) (M : Message) (v : Value) (h : k.write tc M = some v) (limit : Nat)
    (hl : 4 ≤ limit) : (Json.readWithin limit (Model.Json.text v)).bind (k.read tc) = some M ↔ ReadsBack tc M := by
  unfold Json.readWithin
  rw [j_read v, Option.filter_some, if_pos (by simpa using Nat.le_trans (C126_depth tc k M v h) hl)]
  exact C67_back tc k M v h

/-! Examples: a time-out has an object in an object in an object in an object. -/

/-- A time-out. -/
def someTimeOut : Message :=
  .clearChat ⟨b!"#a", b!"1", .timeOut (b!"b") (b!"2") 1500000000, ⟨1594556275, 123000000, by decide⟩⟩

/-- What is serialised for it. -/
def someTimeOutValue : Value := (Spec.Kind.clearChat.write Chrono.codec someTimeOut).getD .null

example : Json.nesting someTimeOutValue = 4 := by decide +kernel
example := C126_depth Chrono.codec .clearChat someTimeOut someTimeOutValue rfl
example := (C126_limit Chrono.codec .clearMsg someDeleted someDeletedValue some_deleted 127 (by decide)).2 some_deleted_back
example : Json.readWithin 3 (Model.Json.text someTimeOutValue) = none := by decide +kernel

end Tmi.Props
