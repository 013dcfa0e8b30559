/-
The trees that `Debug` builds for the messages: their shape, and that different values have
different trees.
-/
import Verif.Proofs.DebugLeaves
import Verif.Spec.Debug

namespace Tmi.Proofs
open Model Spec

/-! ### Shapes -/

mutual
/-- As `Dbg.Good`, whatever the strings are. -/
def Dbg.Shaped : Dbg → Prop
  | .atom t => t ≠ [] ∧ Word t
  | .str _ => True
  | .node (.struct name more) items => Word name ∧ more = false ∧ items ≠ .nil ∧ Items.Shaped true items
  | .node (.tuple name) items => Word name ∧ items ≠ .nil ∧ Items.Shaped false items
  | .node .list items => Items.Shaped false items
def Items.Shaped (named : Bool) : Items → Prop
  | .nil => True
  | .cons l v rest => (if named then Label l else l = []) ∧ Dbg.Shaped v ∧ Items.Shaped named rest
end

mutual
theorem good_of_shaped : ∀ t : Dbg, Dbg.Shaped t → (∀ s ∈ t.strings, Utf8 s) → Dbg.Good t
  | .atom _, h, _ => h
  | .str s, _, hs => hs s (by simp [Dbg.strings])
  | .node (.struct _ _) i, h, hs =>
    ⟨h.1, h.2.1, h.2.2.1, good_of_shapedI true i h.2.2.2 (fun s m => hs s (by rw [Dbg.strings]; exact m))⟩
  | .node (.tuple _) i, h, hs =>
    ⟨h.1, h.2.1, good_of_shapedI false i h.2.2 (fun s m => hs s (by rw [Dbg.strings]; exact m))⟩
  | .node .list i, h, hs => good_of_shapedI false i h (fun s m => hs s (by rw [Dbg.strings]; exact m))
theorem good_of_shapedI (named : Bool) : ∀ i : Items, Items.Shaped named i → (∀ s ∈ i.strings, Utf8 s) →
    Items.Good named i
  | .nil, _, _ => trivial
  | .cons l v rest, h, hs =>
    ⟨h.1, good_of_shaped v h.2.1 (fun s m => hs s (by rw [Items.strings]; exact List.mem_append_left _ m)),
      good_of_shapedI named rest h.2.2 (fun s m => hs s (by rw [Items.strings]; exact List.mem_append_right _ m))⟩
end

def FieldsOk : List (Bytes × Dbg) → Prop
  | [] => True
  | p :: t => Label p.1 ∧ Dbg.Shaped p.2 ∧ FieldsOk t

def ListOk : List Dbg → Prop
  | [] => True
  | v :: t => Dbg.Shaped v ∧ ListOk t

theorem shaped_fields : ∀ l : List (Bytes × Dbg), FieldsOk l → Items.Shaped true (Items.ofFields l)
  | [], _ => trivial
  | (_, _) :: t, h => ⟨h.1, h.2.1, shaped_fields t h.2.2⟩

theorem shaped_items : ∀ l : List Dbg, ListOk l → Items.Shaped false (Items.ofList l)
  | [], _ => trivial
  | _ :: t, h => ⟨rfl, h.1, shaped_items t h.2⟩

theorem shaped_struct {name : Bytes} {p : Bytes × Dbg} {t : List (Bytes × Dbg)} (hn : Word name)
    (h : FieldsOk (p :: t)) : Dbg.Shaped (.struct name (p :: t)) :=
  ⟨hn, rfl, by simp [Items.ofFields], shaped_fields _ h⟩

theorem shaped_tuple {name : Bytes} {v : Dbg} {t : List Dbg} (hn : Word name)
    (h : ListOk (v :: t)) : Dbg.Shaped (.tuple name (v :: t)) :=
  ⟨hn, by simp [Items.ofList], shaped_items _ h⟩

theorem shaped_list {α : Type} {f : α → Dbg} (hf : ∀ a, Dbg.Shaped (f a)) (l : List α) : Dbg.Shaped (dbgList f l) := by
  refine shaped_items _ ?_
  induction l with
  | nil => trivial
  | cons a t ih => exact ⟨hf a, ih⟩

theorem shaped_str (s : Bytes) : Dbg.Shaped (.str s) := trivial

theorem shaped_opt {α : Type} {f : α → Dbg} (hf : ∀ a, Dbg.Shaped (f a)) (o : Option α) : Dbg.Shaped (dbgOpt f o) := by
  cases o with
  | none => exact ⟨by decide, by decide⟩
  | some a => exact shaped_tuple (by decide) ⟨hf a, trivial⟩

theorem shaped_bool (v : Bool) : Dbg.Shaped (dbgBool v) := by
  cases v <;> exact ⟨by decide, by decide⟩

theorem digit_word {x : UInt8} (h : isDigitB x = true) : wordByte x = true := by
  have key : ∀ n : Fin 256, isDigitB (UInt8.ofFin n) = true → wordByte (UInt8.ofFin n) = true := by decide +kernel
  exact key x.toFin h

theorem word_nat (n : Nat) : Word (decNat n) := fun x hx => digit_word (decNat_digits n x hx)
theorem word_pad (w n : Nat) : Word (decPad w n) := fun x hx => digit_word (decPad_digits w n x hx)

theorem word_append {a b : Bytes} (ha : Word a) (hb : Word b) : Word (a ++ b) := by
  intro x hx
  rcases List.mem_append.1 hx with h | h
  · exact ha x h
  · exact hb x h

theorem shaped_nat (n : Nat) : Dbg.Shaped (dbgNat n) := ⟨decNat_ne_nil n, word_nat n⟩

theorem shaped_int (n : Int) : Dbg.Shaped (dbgInt n) := by
  unfold dbgInt decInt
  split
  · refine ⟨by simp, ?_⟩
    exact word_append (a := [0x2D]) (by decide) (word_nat _)
  · exact ⟨decNat_ne_nil _, word_nat _⟩

theorem word_duration (n : Nat) : Word (durationText n) := by
  obtain ⟨i, f, w, u, us, P, h⟩ := durationText_printed n
  rw [h]
  unfold fmtDecimal
  refine word_append (word_append (word_nat _) ?_) ?_
  · split
    · intro x hx; simp at hx
    · exact word_append (a := [0x2E]) (by decide) fun x hx => digit_word (fracDigits_digits w f P.frac x hx)
  · cases P <;> decide

theorem shaped_duration (n : Nat) : Dbg.Shaped (dbgDuration n) := by
  refine ⟨?_, word_duration n⟩
  obtain ⟨i, f, w, u, us, P, h⟩ := durationText_printed n
  rw [h]
  unfold fmtDecimal
  simp [decNat_ne_nil]

theorem word_year (y : Int) : Word (yearText y) := by
  unfold yearText
  split
  · exact word_pad _ _
  · split
    · exact word_append (a := [0x2D]) (by decide) (word_pad _ _)
    · exact word_append (a := [0x2B]) (by decide) (word_pad _ _)

theorem shaped_time (t : Timestamp) : Dbg.Shaped (dbgTime t) := by
  unfold dbgTime timestampText fractionText
  refine ⟨by simp, ?_⟩
  dsimp only
  refine word_append (word_append ?_ ?_) (by decide)
  · exact word_append (word_append (word_append (word_append (word_append (word_append (word_append (word_append
      (word_append (word_append (word_year _) (by decide)) (word_pad _ _)) (by decide)) (word_pad _ _)) (by decide))
      (word_pad _ _)) (by decide)) (word_pad _ _)) (by decide)) (word_pad _ _)
  · repeat' split
    all_goals first
      | exact fun _ h => absurd h (List.not_mem_nil)
      | exact word_append (a := [0x2E]) (by decide) (word_pad _ _)

theorem fields_nil : FieldsOk [] := trivial
theorem fields_cons {l : Bytes} {v : Dbg} {t : List (Bytes × Dbg)} (hl : Label l) (hv : Dbg.Shaped v) (ht : FieldsOk t) :
    FieldsOk ((l, v) :: t) := ⟨hl, hv, ht⟩
theorem list_nil : ListOk [] := trivial
theorem list_cons {v : Dbg} {t : List Dbg} (hv : Dbg.Shaped v) (ht : ListOk t) : ListOk (v :: t) := ⟨hv, ht⟩
theorem shaped_atom {t : Bytes} (h : t ≠ [] ∧ Word t) : Dbg.Shaped (.atom t) := h

/-- Decides the shape of a tree made by the builders. -/
macro "shape" : tactic => `(tactic| with_reducible repeat' first
  | assumption
  | exact fields_nil
  | exact list_nil
  | exact shaped_str _
  | exact shaped_bool _
  | exact shaped_nat _
  | exact shaped_int _
  | exact shaped_duration _
  | exact shaped_time _
  | apply fields_cons
  | apply list_cons
  | apply shaped_struct
  | apply shaped_tuple
  | (apply shaped_opt; intro _)
  | (apply shaped_list; intro _)
  | (apply shaped_atom; with_unfolding_all decide)
  | with_unfolding_all decide)

theorem shaped_prefix (p : Prefix) : Dbg.Shaped p.dbg := by unfold Prefix.dbg; shape
theorem shaped_command (c : Command) : Dbg.Shaped c.dbg := by cases c <;> (unfold Command.dbg; shape)
theorem shaped_subscriber (v : Subscriber) : Dbg.Shaped v.dbg := by unfold Subscriber.dbg; shape
theorem shaped_badgeData (v : BadgeData) : Dbg.Shaped v.dbg := by unfold BadgeData.dbg; shape
theorem shaped_badge (v : Badge) : Dbg.Shaped v.dbg := by
  match v with
  | .staff | .turbo | .broadcaster | .moderator => exact ⟨by decide, by decide⟩
  | .subscriber v => exact shaped_tuple (by decide) ⟨shaped_subscriber v, trivial⟩
  | .other v => exact shaped_tuple (by decide) ⟨shaped_badgeData v, trivial⟩
theorem shaped_user (v : User) : Dbg.Shaped v.dbg := by unfold User.dbg; shape
theorem shaped_action (v : Action) : Dbg.Shaped v.dbg := by cases v <;> (unfold Action.dbg; shape)
theorem shaped_clearChat (v : ClearChat) : Dbg.Shaped v.dbg := by
  have := shaped_action v.action
  unfold ClearChat.dbg; shape
theorem shaped_clearMsg (v : ClearMsg) : Dbg.Shaped v.dbg := by unfold ClearMsg.dbg; shape
theorem shaped_badges (l : List Badge) : Dbg.Shaped (dbgList Badge.dbg l) := shaped_list shaped_badge l
theorem shaped_globalUserState (v : GlobalUserState) : Dbg.Shaped v.dbg := by
  have := shaped_badges v.badges
  unfold GlobalUserState.dbg; shape
theorem shaped_join (v : Join) : Dbg.Shaped v.dbg := by unfold Join.dbg; shape
theorem shaped_part (v : Part) : Dbg.Shaped v.dbg := by unfold Part.dbg; shape
theorem shaped_notice (v : Notice) : Dbg.Shaped v.dbg := by unfold Notice.dbg; shape
theorem shaped_ping (v : Ping) : Dbg.Shaped v.dbg := by unfold Ping.dbg; shape
theorem shaped_pong (v : Pong) : Dbg.Shaped v.dbg := by unfold Pong.dbg; shape
theorem shaped_reply (v : Reply) : Dbg.Shaped v.dbg := by
  have := shaped_user v.sender
  unfold Reply.dbg; shape
theorem shaped_level (l : PinnedChatLevel) : Dbg.Shaped (.atom l.asStr) := by
  cases l <;> exact ⟨by decide, by decide⟩
theorem shaped_pinnedChat (v : PinnedChat) : Dbg.Shaped v.dbg := by
  have := shaped_level v.paidLevel
  unfold PinnedChat.dbg; shape
theorem shaped_privmsg (v : Privmsg) : Dbg.Shaped v.dbg := by
  have := shaped_badges v.badges
  have := shaped_user v.sender
  have := shaped_opt shaped_reply v.replyTo
  have := shaped_opt shaped_pinnedChat v.pinnedChat
  unfold Privmsg.dbg; shape
theorem shaped_followersOnly (v : FollowersOnly) : Dbg.Shaped v.dbg := by
  cases v <;> (unfold FollowersOnly.dbg; shape)
theorem shaped_roomState (v : RoomState) : Dbg.Shaped v.dbg := by
  have := shaped_opt shaped_followersOnly v.followersOnly
  unfold RoomState.dbg; shape
theorem shaped_userState (v : UserState) : Dbg.Shaped v.dbg := by
  have := shaped_badges v.badges
  unfold UserState.dbg; shape
theorem shaped_whisper (v : Whisper) : Dbg.Shaped v.dbg := by
  have := shaped_badges v.badges
  have := shaped_user v.sender
  unfold Whisper.dbg; shape
theorem shaped_promo (v : SubGiftPromo) : Dbg.Shaped v.dbg := by unfold SubGiftPromo.dbg; shape
theorem shaped_event (v : Event) : Dbg.Shaped v.dbg := by
  cases v <;> (unfold Event.dbg; shape)
  all_goals first | exact shaped_promo _ | exact shaped_user _
theorem shaped_userNotice (v : UserNotice) : Dbg.Shaped v.dbg := by
  have := shaped_badges v.badges
  have := shaped_opt shaped_user v.sender
  have := shaped_event v.event
  unfold UserNotice.dbg; shape

/-! ### Different values, different trees -/

theorem str_dbg {a b : Bytes} : Dbg.str a = .str b ↔ a = b := by simp

theorem opt_dbg {α : Type} {f : α → Dbg} (hf : ∀ a b, f a = f b ↔ a = b) (a b : Option α) :
    dbgOpt f a = dbgOpt f b ↔ a = b := by
  cases a <;> cases b <;> simp [dbgOpt, Dbg.tuple, Items.ofList, hf]

theorem list_dbg {α : Type} {f : α → Dbg} (hf : ∀ a b, f a = f b ↔ a = b) (a b : List α) :
    dbgList f a = dbgList f b ↔ a = b := by
  have key : ∀ a b : List α, Items.ofList (a.map f) = Items.ofList (b.map f) ↔ a = b := by
    intro a
    induction a with
    | nil => intro b; cases b <;> simp [Items.ofList]
    | cons x t ih => intro b; cases b <;> simp [Items.ofList, hf, ih]
  simp [dbgList, Dbg.list, key]

theorem bool_dbg (a b : Bool) : dbgBool a = dbgBool b ↔ a = b := by
  cases a <;> cases b <;> simp [dbgBool]

theorem nat_dbg (a b : Nat) : dbgNat a = dbgNat b ↔ a = b := by
  simp only [dbgNat, Dbg.atom.injEq]
  exact ⟨decNat_inj, fun h => h ▸ rfl⟩

theorem int_dbg (a b : Int) : dbgInt a = dbgInt b ↔ a = b := by
  simp only [dbgInt, Dbg.atom.injEq]
  exact ⟨decInt_inj, fun h => h ▸ rfl⟩

theorem duration_dbg (a b : Nat) : dbgDuration a = dbgDuration b ↔ a = b := by
  constructor
  · intro h
    injection h with h
    exact duration_inj h
  · rintro rfl; rfl

theorem time_dbg (a b : Timestamp) : dbgTime a = dbgTime b ↔ a = b := by
  simp only [dbgTime, Dbg.atom.injEq]
  exact ⟨timestampText_inj, fun h => h ▸ rfl⟩

theorem optStr_dbg (a b : Option Bytes) : dbgOpt .str a = dbgOpt .str b ↔ a = b := opt_dbg (fun _ _ => str_dbg) a b
theorem optNat_dbg (a b : Option Nat) : dbgOpt dbgNat a = dbgOpt dbgNat b ↔ a = b := opt_dbg nat_dbg a b
theorem optDuration_dbg (a b : Option Nat) : dbgOpt dbgDuration a = dbgOpt dbgDuration b ↔ a = b := opt_dbg duration_dbg a b
theorem optBool_dbg (a b : Option Bool) : dbgOpt dbgBool a = dbgOpt dbgBool b ↔ a = b := opt_dbg bool_dbg a b
theorem listStr_dbg (a b : List Bytes) : dbgList .str a = dbgList .str b ↔ a = b := list_dbg (fun _ _ => str_dbg) a b

/-- Compares two trees field by field. -/
macro "fields" "[" ls:Lean.Parser.Tactic.simpLemma,* "]" : tactic => `(tactic|
  simp only [Dbg.struct, Dbg.tuple, Items.ofFields, Items.ofList, Dbg.node.injEq, Items.cons.injEq, true_and, and_true,
    Dbg.str.injEq, bool_dbg, nat_dbg, int_dbg, duration_dbg, time_dbg, optStr_dbg, optNat_dbg, optDuration_dbg, optBool_dbg,
    listStr_dbg, $ls,*])

theorem prefix_dbg (v w : Prefix) : v.dbg = w.dbg ↔ v = w := by
  cases v; cases w; unfold Prefix.dbg; fields [Prefix.mk.injEq]

theorem command_dbg (v w : Command) : v.dbg = w.dbg ↔ v = w := by
  cases v <;> cases w <;> simp [Command.dbg, Dbg.tuple, Items.ofList]

theorem subscriber_dbg (v w : Subscriber) : v.dbg = w.dbg ↔ v = w := by
  cases v; cases w; unfold Subscriber.dbg; fields [Subscriber.mk.injEq]

theorem badgeData_dbg (v w : BadgeData) : v.dbg = w.dbg ↔ v = w := by
  cases v; cases w; unfold BadgeData.dbg; fields [BadgeData.mk.injEq]

theorem badge_dbg (v w : Badge) : v.dbg = w.dbg ↔ v = w := by
  cases v <;> cases w <;> simp [Badge.dbg, Dbg.tuple, Items.ofList, subscriber_dbg, badgeData_dbg]

theorem badges_dbg (a b : List Badge) : dbgList Badge.dbg a = dbgList Badge.dbg b ↔ a = b := list_dbg badge_dbg a b

theorem user_dbg (v w : User) : v.dbg = w.dbg ↔ v = w := by
  cases v; cases w; unfold User.dbg; fields [User.mk.injEq]

theorem optUser_dbg (a b : Option User) : dbgOpt User.dbg a = dbgOpt User.dbg b ↔ a = b := opt_dbg user_dbg a b

theorem action_dbg (v w : Action) : v.dbg = w.dbg ↔ v = w := by
  cases v <;> cases w <;>
    simp [Action.dbg, Dbg.tuple, Dbg.struct, Items.ofFields, Items.ofList, duration_dbg]

theorem clearChat_dbg (v w : ClearChat) : v.dbg = w.dbg ↔ v = w := by
  cases v; cases w; unfold ClearChat.dbg; fields [ClearChat.mk.injEq, action_dbg]

theorem clearMsg_dbg (v w : ClearMsg) : v.dbg = w.dbg ↔ v = w := by
  cases v; cases w; unfold ClearMsg.dbg; fields [ClearMsg.mk.injEq]

theorem globalUserState_dbg (v w : GlobalUserState) : v.dbg = w.dbg ↔ v = w := by
  cases v; cases w; unfold GlobalUserState.dbg; fields [GlobalUserState.mk.injEq, badges_dbg]

theorem join_dbg (v w : Join) : v.dbg = w.dbg ↔ v = w := by
  cases v; cases w; unfold Join.dbg; fields [Join.mk.injEq]

theorem part_dbg (v w : Part) : v.dbg = w.dbg ↔ v = w := by
  cases v; cases w; unfold Part.dbg; fields [Part.mk.injEq]

theorem notice_dbg (v w : Notice) : v.dbg = w.dbg ↔ v = w := by
  cases v; cases w; unfold Notice.dbg; fields [Notice.mk.injEq]

theorem ping_dbg (v w : Ping) : v.dbg = w.dbg ↔ v = w := by
  cases v; cases w; unfold Ping.dbg; fields [Ping.mk.injEq]

theorem pong_dbg (v w : Pong) : v.dbg = w.dbg ↔ v = w := by
  cases v; cases w; unfold Pong.dbg; fields [Pong.mk.injEq]

theorem reply_dbg (v w : Reply) : v.dbg = w.dbg ↔ v = w := by
  cases v; cases w; unfold Reply.dbg; fields [Reply.mk.injEq, user_dbg]

theorem level_dbg (a b : PinnedChatLevel) : Dbg.atom a.asStr = .atom b.asStr ↔ a = b := by
  cases a <;> cases b <;> simp [PinnedChatLevel.asStr]

theorem pinnedChat_dbg (v w : PinnedChat) : v.dbg = w.dbg ↔ v = w := by
  cases v; cases w; unfold PinnedChat.dbg; fields [PinnedChat.mk.injEq, level_dbg]

theorem optReply_dbg (a b : Option Reply) : dbgOpt Reply.dbg a = dbgOpt Reply.dbg b ↔ a = b := opt_dbg reply_dbg a b
theorem optPinned_dbg (a b : Option PinnedChat) : dbgOpt PinnedChat.dbg a = dbgOpt PinnedChat.dbg b ↔ a = b :=
  opt_dbg pinnedChat_dbg a b

theorem privmsg_dbg (v w : Privmsg) : v.dbg = w.dbg ↔ v = w := by
  cases v; cases w; unfold Privmsg.dbg
  fields [Privmsg.mk.injEq, badges_dbg, user_dbg, optReply_dbg, optPinned_dbg]

theorem followersOnly_dbg (v w : FollowersOnly) : v.dbg = w.dbg ↔ v = w := by
  cases v <;> cases w <;> simp [FollowersOnly.dbg, Dbg.tuple, Items.ofList, optDuration_dbg]

theorem optFollowers_dbg (a b : Option FollowersOnly) :
    dbgOpt FollowersOnly.dbg a = dbgOpt FollowersOnly.dbg b ↔ a = b := opt_dbg followersOnly_dbg a b

theorem roomState_dbg (v w : RoomState) : v.dbg = w.dbg ↔ v = w := by
  cases v; cases w; unfold RoomState.dbg; fields [RoomState.mk.injEq, optFollowers_dbg]

theorem userState_dbg (v w : UserState) : v.dbg = w.dbg ↔ v = w := by
  cases v; cases w; unfold UserState.dbg; fields [UserState.mk.injEq, badges_dbg]

theorem whisper_dbg (v w : Whisper) : v.dbg = w.dbg ↔ v = w := by
  cases v; cases w; unfold Whisper.dbg; fields [Whisper.mk.injEq, badges_dbg, user_dbg]

theorem promo_dbg (v w : SubGiftPromo) : v.dbg = w.dbg ↔ v = w := by
  cases v; cases w; unfold SubGiftPromo.dbg; fields [SubGiftPromo.mk.injEq]

theorem optPromo_dbg (a b : Option SubGiftPromo) :
    dbgOpt SubGiftPromo.dbg a = dbgOpt SubGiftPromo.dbg b ↔ a = b := opt_dbg promo_dbg a b

theorem event_dbg (v w : Event) : v.dbg = w.dbg ↔ v = w := by
  cases v <;> cases w <;>
    simp [Event.dbg, Dbg.tuple, Dbg.struct, Items.ofFields, Items.ofList, bool_dbg, nat_dbg, optNat_dbg, user_dbg,
      optPromo_dbg]

theorem userNotice_dbg (v w : UserNotice) : v.dbg = w.dbg ↔ v = w := by
  cases v; cases w; unfold UserNotice.dbg; fields [UserNotice.mk.injEq, badges_dbg, optUser_dbg, event_dbg]

end Tmi.Proofs
