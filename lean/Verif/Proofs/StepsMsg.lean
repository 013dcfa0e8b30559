/-
The conversion into typed messages that counts its steps gives what the conversion gives, and takes few steps.
-/
import Verif.Model.StepsMsg
import Verif.Proofs.StepsBadges

namespace Tmi.Proofs.StepsP
open Model Spec
open Steps (Run)

/-! ### What it gives -/

/-- Without the count. -/
def toR {α : Type} (x : OptionT Run α) : OptionT R α := OptionT.mk (OptionT.run x).out

theorem run_out {α : Type} (x : OptionT Run α) : (OptionT.run x).out = OptionT.run (toR x) := rfl

theorem toR_bind {α β : Type} (x : OptionT Run α) (f : α → OptionT Run β) :
    toR (x >>= f) = toR x >>= fun a => toR (f a) := by
  show (OptionT.run (x >>= f)).out = OptionT.run (toR x >>= fun a => toR (f a))
  rw [OptionT.run_bind, OptionT.run_bind]
  show (_ >>= _ : Run _).out = _
  rw [out_bind]
  show _ = (OptionT.run x).out >>= _
  congr 1; funext o
  cases o <;> rfl

theorem toR_pure {α : Type} (a : α) : toR (pure a : OptionT Run α) = pure a := rfl
theorem toR_failure {α : Type} : toR (failure : OptionT Run α) = failure := rfl
theorem toR_ite {α : Type} (c : Prop) [Decidable c] (x y : OptionT Run α) :
    toR (if c then x else y) = if c then toR x else toR y := by split <;> rfl
theorem toR_get {α : Type} (x : Run α) : toR (Steps.get' x) = get' x.out := by
  show (x >>= fun a => pure (some a) : Run (Option α)).out = (x.out >>= fun a => pure (some a))
  rw [out_bind]; rfl
theorem toR_req {α : Type} (x : Run (Option α)) : toR (Steps.req x) = req x.out := rfl

theorem get_ok {α β : Type} (a : α) (f : α → OptionT R β) : get' (.ok a) >>= f = f a := rfl

theorem free_out {α : Type} (x : R α) : (Steps.free x).out = x := rfl
theorem number_out {α : Type} (read : Bytes → Option α) (v : Option Bytes) :
    (Steps.number read v).out = .ok (v.bind read) := rfl
theorem bool_out (v : Bytes) : (Steps.bool v).out = .ok (parseBool v) := rfl
theorem optBool_out (v : Option Bytes) : (Steps.optBool v).out = .ok (v.map parseBool) := rfl
theorem messageText_out (v : Bytes) : (Steps.messageText v).out = .ok (parseMessageText v) := rfl
theorem comma_out (v : Option Bytes) : (Steps.comma v).out = .ok ((v.map splitComma).getD []) := rfl

/-- Removes the count. -/
macro "no_count" : tactic => `(tactic| (
  set_option linter.unusedSimpArgs false in
  simp only [run_out, toR_bind, toR_pure, toR_failure, toR_ite, toR_get, toR_req, free_out, number_out, bool_out,
    optBool_out, messageText_out, comma_out, tag_out, text_out, badgesOf_out, get_ok, out_bind, out_pure, out_pay,
    out_ite, ok_bind]))

theorem parseClearChat_out (m : MsgRef) : (Steps.parseClearChat m).out = ClearChat.parse m := by
  unfold Steps.parseClearChat ClearChat.parse
  no_count
  congr 1
  refine bind_congr fun c => ?_
  split
  · rfl
  · refine bind_congr fun channel => bind_congr fun id => bind_congr fun text => bind_congr fun d => ?_
    cases text with
    | none => no_count; rfl
    | some name => cases d.bind parseDuration <;> (no_count; rfl)

theorem parseClearMsg_out (m : MsgRef) : (Steps.parseClearMsg m).out = ClearMsg.parse m := by
  unfold Steps.parseClearMsg ClearMsg.parse
  no_count; rfl

theorem parseGlobalUserState_out (m : MsgRef) : (Steps.parseGlobalUserState m).out = GlobalUserState.parse m := by
  unfold Steps.parseGlobalUserState GlobalUserState.parse
  no_count

theorem parseJoin_out (m : MsgRef) : (Steps.parseJoin m).out = Join.parse m := by
  unfold Steps.parseJoin Join.parse
  no_count

theorem parsePart_out (m : MsgRef) : (Steps.parsePart m).out = Part.parse m := by
  unfold Steps.parsePart Part.parse
  no_count

theorem parseNotice_out (m : MsgRef) : (Steps.parseNotice m).out = Notice.parse m := by
  unfold Steps.parseNotice Notice.parse
  no_count

theorem parsePing_out (m : MsgRef) : (Steps.parsePing m).out = Ping.parse m := by
  unfold Steps.parsePing Ping.parse
  no_count

theorem parsePong_out (m : MsgRef) : (Steps.parsePong m).out = Pong.parse m := by
  unfold Steps.parsePong Pong.parse
  no_count

theorem parseReply_out (m : MsgRef) : (Steps.parseReply m).out = parseReply m := by
  unfold Steps.parseReply parseReply
  no_count

theorem parsePinned_out (m : MsgRef) : (Steps.parsePinned m).out = parsePinned m := by
  unfold Steps.parsePinned parsePinned
  no_count; rfl

theorem parsePrivmsg_out (m : MsgRef) : (Steps.parsePrivmsg m).out = Privmsg.parse m := by
  unfold Steps.parsePrivmsg Privmsg.parse
  no_count
  simp only [parseReply_out, parsePinned_out]
  rfl

theorem followersOnlyOf_out (m : MsgRef) : (Steps.followersOnlyOf m).out = followersOnlyOf m := by
  unfold Steps.followersOnlyOf followersOnlyOf
  no_count
  refine bind_congr fun v => ?_
  cases v.bind parseI64 <;> (no_count; rfl)

theorem parseRoomState_out (m : MsgRef) : (Steps.parseRoomState m).out = RoomState.parse m := by
  unfold Steps.parseRoomState RoomState.parse
  no_count
  simp only [followersOnlyOf_out]

theorem parseUserState_out (m : MsgRef) : (Steps.parseUserState m).out = UserState.parse m := by
  unfold Steps.parseUserState UserState.parse
  no_count

theorem parseWhisper_out (m : MsgRef) : (Steps.parseWhisper m).out = Whisper.parse m := by
  unfold Steps.parseWhisper Whisper.parse
  no_count; rfl

theorem parsePromotion_out (m : MsgRef) : (Steps.parsePromotion m).out = parsePromotion m := by
  unfold Steps.parsePromotion parsePromotion
  no_count
  refine bind_congr fun v => bind_congr fun w => ?_
  cases v.bind parseU64 <;> cases w <;> rfl

theorem reqU64_out (m : MsgRef) (t : Tag) : toR (Steps.reqU64 m t) = reqU64 m t := by
  unfold Steps.reqU64 reqU64
  no_count; rfl

theorem parseEvent_out (m : MsgRef) (e : Bytes) (i : Option Bytes) :
    toR (Steps.parseEvent m e i) = parseEvent m e i := by
  unfold Steps.parseEvent parseEvent
  no_count
  simp only [reqU64_out, parsePromotion_out]

theorem senderOf_out (m : MsgRef) (a : Bool) : toR (Steps.senderOf m a) = senderOf m a := by
  unfold Steps.senderOf senderOf
  no_count

theorem parseUserNotice_out (m : MsgRef) : (Steps.parseUserNotice m).out = UserNotice.parse m := by
  unfold Steps.parseUserNotice UserNotice.parse
  no_count
  simp only [parseEvent_out, senderOf_out]
  rfl

theorem into_out {α : Type} (x : Run (Option α)) (f : α → Message) : (Steps.into x f).out = into x.out f := by
  unfold Steps.into into
  no_count; rfl

theorem fromIrc_out (m : MsgRef) : (Steps.fromIrc m).out = Message.fromIrc m := by
  unfold Steps.fromIrc Message.fromIrc
  no_count
  refine bind_congr fun c => ?_
  cases c <;> first
    | rfl
    | simp only [into_out, parseClearChat_out, parseClearMsg_out, parseGlobalUserState_out, parseJoin_out, parsePart_out,
        parseNotice_out, parsePing_out, parsePong_out, parsePrivmsg_out, parseRoomState_out, parseUserState_out,
        parseWhisper_out, parseUserNotice_out]

theorem parseMessage_out (b : Build) (s : Bytes) : (Steps.parseMessage b s).out = Message.parse b s := by
  unfold Steps.parseMessage Message.parse
  rw [out_bind, parse_out]
  refine bind_congr fun o => ?_
  cases o with
  | none => rfl
  | some m => exact fromIrc_out m

/-! ### How many steps it takes -/

/-- At most so many steps, and a property of what it gives, if it gives something. -/
def Under {α : Type} (x : OptionT Run α) (n : Nat) (P : α → Prop) : Prop :=
  (OptionT.run x).steps ≤ n ∧ ∀ a, (OptionT.run x).out = .ok (some a) → P a

theorem Under.bind {α β : Type} {x : OptionT Run α} {f : α → OptionT Run β} {n k : Nat} {P : α → Prop} {Q : β → Prop}
    (h : Under x n P) (hf : ∀ a, P a → Under (f a) k Q) : Under (x >>= f) (n + k) Q := by
  unfold Under
  rw [OptionT.run_bind]
  have : Within (OptionT.run x >>= fun o => o.elim (pure none) fun a => OptionT.run (f a)) (n + k)
      fun o => ∀ a, o = some a → Q a := by
    refine Within.bind (P := fun o => ∀ a, o = some a → P a) ⟨h.1, fun o e a ho => h.2 a (by rw [e, ho])⟩
      (fun o _ ho => ?_) (Nat.le_refl _)
    cases o with
    | none => exact .pure (by nofun)
    | some a => exact ⟨(hf a (ho a rfl)).1, fun o e b hb => (hf a (ho a rfl)).2 b (hb ▸ e)⟩
  exact ⟨this.1, fun a e => this.2 _ e a rfl⟩

theorem Under.pure {α : Type} {a : α} {P : α → Prop} (h : P a) : Under (pure a : OptionT Run α) 0 P :=
  ⟨Nat.le_refl 0, fun b e => by cases e; exact h⟩

theorem Under.fail {α β : Type} {f : α → OptionT Run β} {Q : β → Prop} : Under ((failure : OptionT Run α) >>= f) 0 Q :=
  ⟨Nat.le_refl 0, fun b e => by cases e⟩

theorem Under.weaken {α : Type} {x : OptionT Run α} {n k : Nat} {P : α → Prop} (h : Under x n P) (hk : n ≤ k) :
    Under x k P := ⟨Nat.le_trans h.1 hk, h.2⟩

theorem Under.guard {α : Type} {c : Prop} [Decidable c] {f x : OptionT Run α} {n : Nat} {P : α → Prop}
    (hf : Under f 0 P) (h : Under x n P) : Under (if c then f else x) n P := by
  split
  · exact hf.weaken (Nat.zero_le _)
  · exact h

theorem Under.ite {α : Type} {c : Prop} [Decidable c] {x y : OptionT Run α} {n : Nat} {P : α → Prop}
    (hx : Under x n P) (hy : Under y n P) : Under (if c then x else y) n P := by
  split
  · exact hx
  · exact hy

theorem Under.get {α : Type} {x : Run α} {n : Nat} {P : α → Prop} (h : Within x n P) : Under (Steps.get' x) n P := by
  show (x >>= fun a => Pure.pure (some a) : Run (Option α)).steps ≤ n ∧
    ∀ a, (x >>= fun a => Pure.pure (some a) : Run (Option α)).out = .ok (some a) → P a
  have : Within (x >>= fun a => Pure.pure (some a) : Run (Option α)) n fun o => ∀ a, o = some a → P a :=
    Within.bind (m := 0) h (fun a _ ha => Within.pure (by intro b e; cases e; exact ha)) (Nat.le_refl _)
  exact ⟨this.1, fun a e => this.2 _ e a rfl⟩

theorem Under.req {α : Type} {x : Run (Option α)} {n : Nat} {P : α → Prop}
    (h : Within x n fun o => ∀ a, o = some a → P a) : Under (Steps.req x) n P :=
  ⟨h.1, fun a e => h.2 _ e a rfl⟩

theorem within_any {α : Type} (x : Run α) : Within x x.steps fun _ => True := ⟨Nat.le_refl _, fun _ _ => trivial⟩

theorem tag_len (m : MsgRef) (hm : m.parts.tags.length ≤ 128) (t : Tag) (ht : t.asStr.length ≤ 35) :
    Within (Steps.tag m t) 4608 fun o => (o.getD []).length ≤ m.src.length := by
  have h := Nat.mul_le_mul hm (show t.asStr.length + 1 ≤ 36 by omega)
  unfold Steps.tag
  refine .bind (m := 0) (findTag_within ..) (fun o _ _ => ?_) (by omega)
  cases o with
  | none => exact .pure (Nat.zero_le _)
  | some p =>
    refine .free fun sp _ => ?_
    exact .free fun v hv => .pure (strSlice_len hv)

theorem getTag (m : MsgRef) (hm : m.parts.tags.length ≤ 128) (t : Tag) (ht : t.asStr.length ≤ 35) :
    Under (Steps.get' (Steps.tag m t)) 4608 fun o => (o.getD []).length ≤ m.src.length := .get (tag_len m hm t ht)

theorem reqTag (m : MsgRef) (hm : m.parts.tags.length ≤ 128) (t : Tag) (ht : t.asStr.length ≤ 35) :
    Under (Steps.req (Steps.tag m t)) 4608 fun v => v.length ≤ m.src.length :=
  .req ⟨(tag_len m hm t ht).1, fun o e a ho => by have := (tag_len m hm t ht).2 o e; rw [ho] at this; exact this⟩

theorem getFree {α : Type} (x : R α) : Under (Steps.get' (Steps.free x)) 0 fun _ => True :=
  .get (.pay (Nat.le_refl _) fun _ _ => trivial)

theorem reqFree {α : Type} (x : R (Option α)) : Under (Steps.req (Steps.free x)) 0 fun _ => True :=
  .req (.pay (Nat.le_refl _) fun _ _ _ _ => trivial)

theorem getText (m : MsgRef) : Under (Steps.get' (Steps.text m)) m.src.length fun _ => True := .get (text_within m)

theorem reqText (m : MsgRef) : Under (Steps.req (Steps.text m)) m.src.length fun _ => True :=
  .req ⟨(text_within m).1, fun _ _ _ _ => trivial⟩

theorem getNumber {α : Type} (read : Bytes → Option α) {v : Option Bytes} {n : Nat} (h : (v.getD []).length ≤ n) :
    Under (Steps.get' (Steps.number read v)) n fun _ => True := .get (.pay h fun _ _ => trivial)

theorem reqNumber {α : Type} (read : Bytes → Option α) {v : Option Bytes} {n : Nat} (h : (v.getD []).length ≤ n) :
    Under (Steps.req (Steps.number read v)) n fun _ => True := .req (.pay h fun _ _ _ _ => trivial)

theorem reqNumberOf {α : Type} (read : Bytes → Option α) {v : Bytes} {n : Nat} (h : v.length ≤ n) :
    Under (Steps.req (Steps.number read (some v))) n fun _ => True := reqNumber read h

theorem getBool {v : Bytes} {n : Nat} (h : v.length ≤ n) : Under (Steps.get' (Steps.bool v)) n fun _ => True :=
  .get (.pay h fun _ _ => trivial)

theorem getOptBool {v : Option Bytes} {n : Nat} (h : (v.getD []).length ≤ n) :
    Under (Steps.get' (Steps.optBool v)) n fun _ => True := .get (.pay h fun _ _ => trivial)

theorem getMessageText (v : Bytes) : Under (Steps.get' (Steps.messageText v)) 9 fun _ => True :=
  .get (.pay (Nat.le_refl _) fun _ _ => trivial)

theorem getComma {v : Option Bytes} {n : Nat} (h : (v.getD []).length ≤ n) :
    Under (Steps.get' (Steps.comma v)) n fun _ => True := .get (.pay h fun _ _ => trivial)

theorem getPay {α : Type} (n : Nat) (x : R α) : Under (Steps.get' (Steps.pay n x)) n fun _ => True :=
  .get (.pay (Nat.le_refl _) fun _ _ => trivial)

theorem reqPay {α : Type} (n : Nat) (x : R (Option α)) : Under (Steps.req (Steps.pay n x)) n fun _ => True :=
  .req (.pay (Nat.le_refl _) fun _ _ _ _ => trivial)

theorem getBadges (m : MsgRef) : Under (Steps.get' (Steps.badgesOf m)) (Steps.badgesOf m).steps fun _ => True :=
  .get (within_any _)

theorem Under.within {α : Type} {x : OptionT Run α} {n k : Nat} (h : Under x n fun _ => True) (hk : n ≤ k) :
    Within (OptionT.run x) k fun _ => True := ⟨Nat.le_trans h.1 hk, fun _ _ => trivial⟩

/-- Follows the parser line by line. -/
macro "follow" hm:ident : tactic => `(tactic| repeat (with_reducible first
  | exact Under.pure trivial
  | exact Under.fail
  | (apply Under.bind (Under.pure (P := fun _ => True) trivial); intro _ _)
  | apply Under.guard
  | (apply Under.bind (getFree _); intro _ _)
  | (apply Under.bind (reqFree _); intro _ _)
  | (apply Under.bind (getTag _ $hm _ (by decide)); intro _ _)
  | (apply Under.bind (reqTag _ $hm _ (by decide)); intro _ _)
  | (apply Under.bind (getText _); intro _ _)
  | (apply Under.bind (reqText _); intro _ _)
  | (apply Under.bind (getNumber _ (by assumption)); intro _ _)
  | (apply Under.bind (reqNumber _ (by assumption)); intro _ _)
  | (apply Under.bind (reqNumberOf _ (by assumption)); intro _ _)
  | (apply Under.bind (getComma (by assumption)); intro _ _)
  | (apply Under.bind (getBool (by assumption)); intro _ _)
  | (apply Under.bind (getOptBool (by assumption)); intro _ _)
  | (apply Under.bind (getMessageText _); intro _ _)
  | (apply Under.bind (getBadges _); intro _ _)
  | (apply Under.bind (reqPay _ _); intro _ _)
  | (apply Under.bind (getPay _ _); intro _ _)))

/-- Follows a whole parser. -/
macro "follow_all" hm:ident : tactic => `(tactic| (apply Under.within; (case h => (try dsimp only); follow $hm); omega))

theorem parseClearMsg_within (m : MsgRef) (hm : m.parts.tags.length ≤ 128) :
    Within (Steps.parseClearMsg m) (2 * m.src.length + 20000) fun _ => True := by
  unfold Steps.parseClearMsg
  follow_all hm

theorem parseGlobalUserState_within (m : MsgRef) (hm : m.parts.tags.length ≤ 128) :
    Within (Steps.parseGlobalUserState m) (m.src.length + 20000 + (Steps.badgesOf m).steps) fun _ => True := by
  unfold Steps.parseGlobalUserState
  follow_all hm

theorem parseJoin_within (m : MsgRef) (hm : m.parts.tags.length ≤ 128) :
    Within (Steps.parseJoin m) (0) fun _ => True := by
  unfold Steps.parseJoin
  follow_all hm

theorem parsePart_within (m : MsgRef) (hm : m.parts.tags.length ≤ 128) :
    Within (Steps.parsePart m) (0) fun _ => True := by
  unfold Steps.parsePart
  follow_all hm

theorem parseNotice_within (m : MsgRef) (hm : m.parts.tags.length ≤ 128) :
    Within (Steps.parseNotice m) (m.src.length + 4608) fun _ => True := by
  unfold Steps.parseNotice
  follow_all hm

theorem parsePing_within (m : MsgRef) (hm : m.parts.tags.length ≤ 128) :
    Within (Steps.parsePing m) (m.src.length) fun _ => True := by
  unfold Steps.parsePing
  follow_all hm

theorem parsePong_within (m : MsgRef) (hm : m.parts.tags.length ≤ 128) :
    Within (Steps.parsePong m) (m.src.length) fun _ => True := by
  unfold Steps.parsePong
  follow_all hm

theorem parseUserState_within (m : MsgRef) (hm : m.parts.tags.length ≤ 128) :
    Within (Steps.parseUserState m) (m.src.length + 20000 + (Steps.badgesOf m).steps) fun _ => True := by
  unfold Steps.parseUserState
  follow_all hm

theorem parseClearChat_within (m : MsgRef) (hm : m.parts.tags.length ≤ 128) :
    Within (Steps.parseClearChat m) (3 * m.src.length + 20000) fun _ => True := by
  unfold Steps.parseClearChat
  apply Under.within
  case h =>
    dsimp only
    follow hm
    show Under _ (m.src.length + 9216) _
    split
    all_goals (apply Under.weaken; case h => follow hm)
    all_goals omega
  omega

theorem parseReply_within (m : MsgRef) (hm : m.parts.tags.length ≤ 128) :
    Within (Steps.parseReply m) (7 * 4608) fun _ => True := by
  unfold Steps.parseReply
  follow_all hm

theorem parsePinned_within (m : MsgRef) (hm : m.parts.tags.length ≤ 128) :
    Within (Steps.parsePinned m) (3 * m.src.length + 5 * 4608 + 49) fun _ => True := by
  unfold Steps.parsePinned
  follow_all hm

set_option maxHeartbeats 1000000 in
theorem parsePrivmsg_within (m : MsgRef) (hm : m.parts.tags.length ≤ 128) :
    Within (Steps.parsePrivmsg m) (6 * m.src.length + 22 * 4608 + 60 + (Steps.badgesOf m).steps) fun _ => True := by
  unfold Steps.parsePrivmsg
  apply Under.within
  case h =>
    dsimp only
    follow hm
    apply Under.bind (.get (parseReply_within m hm)); intro _ _
    apply Under.bind (.get (parsePinned_within m hm)); intro _ _
    follow hm
  omega

theorem followersOnlyOf_within (m : MsgRef) (hm : m.parts.tags.length ≤ 128) :
    Within (Steps.followersOnlyOf m) (m.src.length + 4608) fun _ => True := by
  unfold Steps.followersOnlyOf
  refine .bind (tag_len m hm _ (by decide)) (fun v _ hv => ?_) (Nat.le_of_eq (Nat.add_comm ..))
  refine .bind (m := 0) (P := fun _ => True) (.pay hv fun _ _ => trivial) (fun o _ _ => ?_) (Nat.le_refl _)
  cases o with
  | none => exact .pure trivial
  | some n => exact .free fun _ _ => .pure trivial

theorem parseRoomState_within (m : MsgRef) (hm : m.parts.tags.length ≤ 128) :
    Within (Steps.parseRoomState m) (5 * m.src.length + 6 * 4608 + 6) fun _ => True := by
  unfold Steps.parseRoomState
  apply Under.within
  case h =>
    dsimp only
    follow hm
    apply Under.bind (.get (followersOnlyOf_within m hm)); intro _ _
    follow hm
  omega

theorem reqParams (m : MsgRef) : Under (Steps.req (Steps.free m.params)) 0 fun v => v.length ≤ m.src.length := by
  refine .req (.pay (Nat.le_refl _) fun o e v hv => ?_)
  subst hv
  unfold MsgRef.params at e
  cases h : m.parts.params with
  | none => rw [h] at e; cases e
  | some sp =>
    rw [h] at e
    simp only [optSlice] at e
    cases e2 : sp.get m.src with
    | error x => rw [e2] at e; cases e
    | ok w => rw [e2] at e; cases e; exact strSlice_len e2

theorem parseWhisper_within (m : MsgRef) (hm : m.parts.tags.length ≤ 128) :
    Within (Steps.parseWhisper m) (2 * m.src.length + 20000 + (Steps.badgesOf m).steps) fun _ => True := by
  unfold Steps.parseWhisper
  apply Under.within
  case h =>
    dsimp only
    apply Under.bind (getFree _); intro _ _
    apply Under.guard
    · exact Under.fail
    · apply Under.bind (reqParams m); intro v hv
      apply Under.bind ((reqPay _ _).weaken (Nat.mul_le_mul_left 2 hv)); intro _ _
      follow hm
  omega

theorem parsePromotion_within (m : MsgRef) (hm : m.parts.tags.length ≤ 128) :
    Within (Steps.parsePromotion m) (m.src.length + 2 * 4608) fun _ => True := by
  unfold Steps.parsePromotion
  refine .bind (m := m.src.length + 4608) (tag_len m hm _ (by decide)) (fun v _ hv => ?_) (by omega)
  refine .bind (m := 4608) (P := fun _ => True) (.pay hv fun _ _ => trivial) (fun o _ _ => ?_) (Nat.le_refl _)
  refine .bind (m := 0) (tag_len m hm _ (by decide)) (fun w _ _ => ?_) (Nat.le_refl _)
  cases o <;> cases w <;> exact .pure trivial

theorem getPromotion (m : MsgRef) (hm : m.parts.tags.length ≤ 128) :
    Under (Steps.get' (Steps.parsePromotion m)) (m.src.length + 2 * 4608) fun _ => True :=
  .get (parsePromotion_within m hm)

theorem reqU64_under (m : MsgRef) (hm : m.parts.tags.length ≤ 128) (t : Tag) (ht : t.asStr.length ≤ 35) :
    Under (Steps.reqU64 m t) (4608 + m.src.length) fun _ => True := by
  unfold Steps.reqU64
  exact Under.bind (getTag m hm t ht) fun v hv => reqNumber _ hv

theorem parseEvent_under (m : MsgRef) (hm : m.parts.tags.length ≤ 128) (e : Bytes) (i : Option Bytes) :
    Under (Steps.parseEvent m e i) (2 * m.src.length + 7 * 4608) fun _ => True := by
  unfold Steps.parseEvent
  iterate 11 (with_reducible apply Under.ite; · (
    apply Under.weaken
    case h => repeat (with_reducible first
      | exact Under.pure trivial
      | (apply Under.bind (reqU64_under _ hm _ (by decide)); intro _ _)
      | (apply Under.bind (getPromotion _ hm); intro _ _)
      | (apply Under.bind (getTag _ hm _ (by decide)); intro _ _)
      | (apply Under.bind (reqTag _ hm _ (by decide)); intro _ _)
      | (apply Under.bind (getNumber _ (by assumption)); intro _ _))
    omega))
  exact (Under.pure trivial).weaken (Nat.zero_le _)

theorem senderOf_under (m : MsgRef) (hm : m.parts.tags.length ≤ 128) (a : Bool) :
    Under (Steps.senderOf m a) (3 * 4608) fun _ => True := by
  unfold Steps.senderOf
  split
  · apply Under.weaken
    case h => follow hm
    omega
  · exact (Under.pure trivial).weaken (Nat.zero_le _)

set_option maxHeartbeats 1000000 in
theorem parseUserNotice_within (m : MsgRef) (hm : m.parts.tags.length ≤ 128) :
    Within (Steps.parseUserNotice m) (4 * m.src.length + 18 * 4608 + 160 + (Steps.badgesOf m).steps) fun _ => True := by
  unfold Steps.parseUserNotice
  apply Under.within
  case h =>
    dsimp only
    follow hm
    apply Under.bind (parseEvent_under m hm _ _); intro _ _
    apply Under.bind (senderOf_under m hm _); intro _ _
    follow hm
  omega

theorem into_within {α : Type} {x : Run (Option α)} {n k : Nat} (f : α → Message) (h : Within x n fun _ => True)
    (hk : n ≤ k) : Within (Steps.into x f) k fun _ => True :=
  .bind (m := 0) h (fun _ _ _ => .pure trivial) hk

theorem fromIrc_within (m : MsgRef) (hm : m.parts.tags.length ≤ 128) :
    Within (Steps.fromIrc m) (6 * m.src.length + 22 * 4608 + 60 + (Steps.badgesOf m).steps) fun _ => True := by
  unfold Steps.fromIrc
  refine .free fun c _ => ?_
  cases c
  all_goals first
    | exact .pure trivial
    | exact into_within _ (parseClearChat_within m hm) (by omega)
    | exact into_within _ (parseClearMsg_within m hm) (by omega)
    | exact into_within _ (parseGlobalUserState_within m hm) (by omega)
    | exact into_within _ (parseJoin_within m hm) (by omega)
    | exact into_within _ (parsePart_within m hm) (by omega)
    | exact into_within _ (parseNotice_within m hm) (by omega)
    | exact into_within _ (parsePing_within m hm) (by omega)
    | exact into_within _ (parsePong_within m hm) (by omega)
    | exact into_within _ (parsePrivmsg_within m hm) (by omega)
    | exact into_within _ (parseRoomState_within m hm) (by omega)
    | exact into_within _ (parseUserNotice_within m hm) (by omega)
    | exact into_within _ (parseUserState_within m hm) (by omega)
    | exact into_within _ (parseWhisper_within m hm) (by omega)

theorem badgesOf_within (m : MsgRef) (hm : m.parts.tags.length ≤ 128) :
    Within (Steps.badgesOf m) (2 * (m.src.length * m.src.length) + 49 * m.src.length + 9218) fun _ => True := by
  unfold Steps.badgesOf
  refine .bind (m := 2 * (m.src.length * m.src.length) + 49 * m.src.length + 4610) (tag_len m hm _ (by decide))
    (fun x _ hx => ?_) (by omega)
  refine .bind (m := 2 * (m.src.length * m.src.length) + 49 * m.src.length + 2) (tag_len m hm _ (by decide))
    (fun y _ hy => ?_) (by omega)
  cases x with
  | none => exact .pure trivial
  | some a =>
  cases y with
  | none => exact .pure trivial
  | some c =>
    change a.length ≤ _ at hx
    change c.length ≤ _ at hy
    refine (parseBadges_within a c).weaken ?_ fun _ _ => trivial
    have h1 := Nat.mul_le_mul hx (show 2 * c.length + 47 ≤ 2 * m.src.length + 47 by omega)
    rw [Nat.mul_add m.src.length, Nat.mul_left_comm] at h1
    omega

/-! ### What is counted -/

/-- At least so many steps, if it gives something. -/
def Over {α : Type} (x : OptionT Run α) (n : Nat) : Prop := ∀ a, (OptionT.run x).out = .ok (some a) → n ≤ (OptionT.run x).steps

theorem Over.bind {α β : Type} {x : OptionT Run α} {f : α → OptionT Run β} {n k : Nat} (h : Over x n)
    (hf : ∀ a, Over (f a) k) : Over (x >>= f) (n + k) := by
  intro r hr
  rw [OptionT.run_bind] at hr ⊢
  change (Run.bind (OptionT.run x) fun o => o.elim (pure none) fun a => OptionT.run (f a)).out = _ at hr
  change n + k ≤ (Run.bind (OptionT.run x) fun o => o.elim (pure none) fun a => OptionT.run (f a)).steps
  unfold Run.bind at hr ⊢
  cases e : (OptionT.run x).out with
  | error _ => rw [e] at hr; cases hr
  | ok o =>
    rw [e] at hr
    cases o with
    | none => cases hr
    | some a =>
      have h1 := h a e
      have h2 := hf a r hr
      show n + k ≤ (OptionT.run x).steps + (OptionT.run (f a)).steps
      omega

theorem Over.none {α : Type} (x : OptionT Run α) : Over x 0 := fun _ _ => Nat.zero_le _

theorem Over.fail {α β : Type} {f : α → OptionT Run β} {n : Nat} : Over ((failure : OptionT Run α) >>= f) n :=
  fun b e => by cases e

theorem Over.guard {α β : Type} {c : Prop} [Decidable c] {f : α → OptionT Run β} {x : OptionT Run β} {n : Nat}
    (h : Over x n) : Over (if c then (failure : OptionT Run α) >>= f else x) n := by
  split
  · exact Over.fail
  · exact h

theorem Over.weaken {α : Type} {x : OptionT Run α} {n k : Nat} (h : Over x n) (hk : k ≤ n) : Over x k :=
  fun a e => Nat.le_trans hk (h a e)

theorem Over.get {α : Type} (x : Run α) : Over (Steps.get' x) x.steps := by
  intro a _
  show x.steps ≤ (Run.bind x fun a => pure (some a)).steps
  unfold Run.bind
  cases x.out
  · exact Nat.le_refl _
  · exact Nat.le_add_right ..

theorem Over.req {α : Type} (x : Run (Option α)) : Over (Steps.req x) x.steps := fun _ _ => Nat.le_refl _

/-- Follows the parser line by line. -/
macro "count" : tactic => `(tactic| repeat (with_reducible first
  | apply Over.guard
  | (apply Over.bind (Over.get _); intro _)
  | (apply Over.bind (Over.req _); intro _)
  | (apply Over.bind (Over.none _); intro _)
  | exact Over.none _))

theorem Over.run {α : Type} {x : OptionT Run α} {n k : Nat} (h : Over x n) (hk : k ≤ n) (a : α)
    (e : (OptionT.run x).out = .ok (some a)) : k ≤ (OptionT.run x).steps := Nat.le_trans hk (h a e)

set_option maxHeartbeats 1000000 in
theorem parsePrivmsg_over (m : MsgRef) : ∀ v, (Steps.parsePrivmsg m).out = .ok (some v) → (Steps.text m).steps +
    (([.roomId, .msgId, .id, .userId, .displayName, .color, .customRewardId, .bits, .emotes, .tmiSentTs] :
      List Tag).map fun t => (Steps.tag m t).steps).sum + (Steps.badgesOf m).steps ≤ (Steps.parsePrivmsg m).steps := by
  unfold Steps.parsePrivmsg
  refine Over.run ?_ (Nat.le_refl _)
  dsimp only
  apply Over.weaken
  case h => count
  simp only [List.map, List.sum_cons, List.sum_nil]
  omega

end Tmi.Proofs.StepsP
