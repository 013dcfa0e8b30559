/-
C77 for every type: the printed text and the serialised form say the same.
-/
import Verif.Proofs.Tells

namespace Tmi.Proofs
open Model hiding Kind
open Spec

variable {esc : Nat → Bool} {alt : Bool} {tc : TimeCodec}

theorem t_badgeData (v : BadgeData) : Tells esc alt tc (b!"BadgeData") (v.dbg.text esc alt) v.ser :=
  t_struct (by simp) (by decide) (by
    f_with (t_str _)
    f_with (t_str _)
    f_may t_str
    exact f_nil (by decide))

theorem t_subscriber (v : Subscriber) : Tells esc alt tc (b!"Subscriber") (v.dbg.text esc alt) v.ser :=
  t_struct (by simp) (by decide) (by
    f_with (t_str _)
    f_with (t_str _)
    refine ⟨by simp, ?_⟩
    rw [List.map_cons, fieldText, dbgNat, atom_text, decNat_eq]
    exact .months v.monthsN)

theorem t_badge (v : Badge) : Tells esc alt tc (b!"Badge") (v.dbg.text esc alt) v.ser := by
  cases v with
  | subscriber v => exact t_variant (by decide) (by decide) (by decide) (by decide) (t_subscriber v)
  | other v => exact t_variant (by decide) (by decide) (by decide) (by decide) (t_badgeData v)
  | _ => exact t_unit _ _ (by decide) (by decide)

theorem t_user (v : User) : Tells esc alt tc (b!"User") (v.dbg.text esc alt) v.ser :=
  t_struct (by simp) (by decide) (by
    f_with (t_str _)
    f_with (t_str _)
    f_with (t_str _)
    exact f_nil (by decide))

theorem t_level (v : PinnedChatLevel) :
    Tells esc alt tc (b!"PinnedChatLevel") ((Dbg.atom v.asStr).text esc alt) v.ser := by
  cases v <;> exact t_unit _ _ (by decide) (by decide)

theorem t_action (v : Action) : Tells esc alt tc (b!"Action") (v.dbg.text esc alt) v.ser := by
  cases v with
  | clear => exact t_unit _ _ (by decide) (by decide)
  | ban _ _ => exact t_variant (by decide) (by decide) (by decide) (by decide) (t_struct (by simp) (by decide) (by
      f_with (t_str _)
      f_with (t_str _)
      exact f_nil (by decide)))
  | timeOut _ _ _ => exact t_variant (by decide) (by decide) (by decide) (by decide) (t_struct (by simp) (by decide) (by
      f_with (t_str _)
      f_with (t_str _)
      f_with (t_duration _)
      exact f_nil (by decide)))

theorem t_clearChat (v : ClearChat) : Tells esc alt tc (b!"ClearChat") (v.dbg.text esc alt) (v.ser tc) :=
  t_struct (by simp) (by decide) (by
    f_with (t_str _)
    f_with (t_str _)
    f_with (t_action _)
    f_with (t_time _)
    exact f_nil (by decide))

theorem t_clearMsg (v : ClearMsg) : Tells esc alt tc (b!"ClearMsg") (v.dbg.text esc alt) (v.ser tc) :=
  t_struct (by simp) (by decide) (by
    f_with (t_str _)
    f_with (t_str _)
    f_with (t_str _)
    f_with (t_str _)
    f_with (t_str _)
    f_with (t_bool _)
    f_with (t_time _)
    exact f_nil (by decide))

theorem t_globalUserState (v : GlobalUserState) : Tells esc alt tc (b!"GlobalUserState") (v.dbg.text esc alt) v.ser :=
  t_struct (by simp) (by decide) (by
    f_with (t_str _)
    f_with (t_str _)
    f_with (t_list t_badge _)
    f_with (t_list t_str _)
    f_may t_str
    exact f_nil (by decide))

theorem t_join (v : Join) : Tells esc alt tc (b!"Join") (v.dbg.text esc alt) v.ser :=
  t_struct (by simp) (by decide) (by
    f_with (t_str _)
    f_with (t_str _)
    exact f_nil (by decide))

theorem t_part (v : Part) : Tells esc alt tc (b!"Part") (v.dbg.text esc alt) v.ser :=
  t_struct (by simp) (by decide) (by
    f_with (t_str _)
    f_with (t_str _)
    exact f_nil (by decide))

theorem t_notice (v : Notice) : Tells esc alt tc (b!"Notice") (v.dbg.text esc alt) v.ser :=
  t_struct (by simp) (by decide) (by
    f_may t_str
    f_with (t_str _)
    f_may t_str
    exact f_nil (by decide))

theorem t_ping (v : Ping) : Tells esc alt tc (b!"Ping") (v.dbg.text esc alt) v.ser :=
  t_struct (by simp) (by decide) (by
    f_may t_str
    exact f_nil (by decide))

theorem t_pong (v : Pong) : Tells esc alt tc (b!"Pong") (v.dbg.text esc alt) v.ser :=
  t_struct (by simp) (by decide) (by
    f_may t_str
    exact f_nil (by decide))

theorem t_reply (v : Reply) : Tells esc alt tc (b!"Reply") (v.dbg.text esc alt) v.ser :=
  t_struct (by simp) (by decide) (by
    f_with (t_str _)
    f_with (t_str _)
    f_with (t_str _)
    f_with (t_user _)
    f_with (t_str _)
    exact f_nil (by decide))

theorem t_pinnedChat (v : PinnedChat) : Tells esc alt tc (b!"PinnedChat") (v.dbg.text esc alt) v.ser :=
  t_struct (by simp) (by decide) (by
    f_with (t_int _)
    f_with (t_str _)
    f_with (t_int _)
    f_with (t_level _)
    f_with (t_bool _)
    exact f_nil (by decide))

theorem t_privmsg (v : Privmsg) : Tells esc alt tc (b!"Privmsg") (v.dbg.text esc alt) (v.ser tc) :=
  t_struct (by simp) (by decide) (by
    f_with (t_str _)
    f_with (t_str _)
    f_may t_str
    f_with (t_str _)
    f_with (t_user _)
    f_may t_reply
    f_may t_pinnedChat
    f_with (t_str _)
    f_with (t_bool _)
    f_with (t_list t_badge _)
    f_may t_str
    f_may t_str
    f_may t_nat
    f_with (t_str _)
    f_with (t_time _)
    exact f_nil (by decide))

theorem t_followersOnly (v : FollowersOnly) : Tells esc alt tc (b!"FollowersOnly") (v.dbg.text esc alt) v.ser := by
  cases v with
  | disabled => exact t_unit _ _ (by decide) (by decide)
  | enabled d =>
    show Tells esc alt tc _ ((Dbg.tuple (b!"Enabled") [_]).text esc alt) _
    rw [tuple_parens _ _ _ _ (by simp)]
    exact .variant (by decide) (m_opt t_duration d (by decide))

theorem t_roomState (v : RoomState) : Tells esc alt tc (b!"RoomState") (v.dbg.text esc alt) v.ser :=
  t_struct (by simp) (by decide) (by
    f_with (t_str _)
    f_with (t_str _)
    f_may t_bool
    f_may t_followersOnly
    f_may t_bool
    f_may t_duration
    f_may t_bool
    exact f_nil (by decide))

theorem t_userState (v : UserState) : Tells esc alt tc (b!"UserState") (v.dbg.text esc alt) v.ser :=
  t_struct (by simp) (by decide) (by
    f_with (t_str _)
    f_with (t_str _)
    f_with (t_list t_badge _)
    f_with (t_list t_str _)
    f_may t_str
    exact f_nil (by decide))

theorem t_whisper (v : Whisper) : Tells esc alt tc (b!"Whisper") (v.dbg.text esc alt) v.ser :=
  t_struct (by simp) (by decide) (by
    f_with (t_str _)
    f_with (t_user _)
    f_with (t_str _)
    f_with (t_list t_badge _)
    f_with (t_str _)
    f_may t_str
    exact f_nil (by decide))

theorem t_subGiftPromo (v : SubGiftPromo) : Tells esc alt tc (b!"SubGiftPromo") (v.dbg.text esc alt) v.ser :=
  t_struct (by simp) (by decide) (by
    f_with (t_nat _)
    f_with (t_str _)
    exact f_nil (by decide))

theorem t_event (v : Event) : Tells esc alt tc (b!"Event") (v.dbg.text esc alt) v.ser := by
  cases v with
  | subOrResub _ _ _ _ _ => exact t_variant (by decide) (by decide) (by decide) (by decide) (t_struct (by simp) (by decide) (by
      f_with (t_bool _)
      f_with (t_nat _)
      f_may t_nat
      f_with (t_str _)
      f_with (t_str _)
      exact f_nil (by decide)))
  | raid _ _ => exact t_variant (by decide) (by decide) (by decide) (by decide) (t_struct (by simp) (by decide) (by
      f_with (t_nat _)
      f_with (t_str _)
      exact f_nil (by decide)))
  | subGift _ _ _ _ _ => exact t_variant (by decide) (by decide) (by decide) (by decide) (t_struct (by simp) (by decide) (by
      f_with (t_nat _)
      f_with (t_user _)
      f_with (t_str _)
      f_with (t_str _)
      f_with (t_nat _)
      exact f_nil (by decide)))
  | subMysteryGift _ _ _ => exact t_variant (by decide) (by decide) (by decide) (by decide) (t_struct (by simp) (by decide) (by
      f_with (t_nat _)
      f_with (t_nat _)
      f_with (t_str _)
      exact f_nil (by decide)))
  | anonSubMysteryGift _ _ => exact t_variant (by decide) (by decide) (by decide) (by decide) (t_struct (by simp) (by decide) (by
      f_with (t_nat _)
      f_with (t_str _)
      exact f_nil (by decide)))
  | giftPaidUpgrade _ _ _ => exact t_variant (by decide) (by decide) (by decide) (by decide) (t_struct (by simp) (by decide) (by
      f_with (t_str _)
      f_with (t_str _)
      f_may t_subGiftPromo
      exact f_nil (by decide)))
  | anonGiftPaidUpgrade _ => exact t_variant (by decide) (by decide) (by decide) (by decide) (t_struct (by simp) (by decide) (by
      f_may t_subGiftPromo
      exact f_nil (by decide)))
  | ritual _ => exact t_variant (by decide) (by decide) (by decide) (by decide) (t_struct (by simp) (by decide) (by
      f_with (t_str _)
      exact f_nil (by decide)))
  | bitsBadgeTier _ => exact t_variant (by decide) (by decide) (by decide) (by decide) (t_struct (by simp) (by decide) (by
      f_with (t_nat _)
      exact f_nil (by decide)))
  | announcement _ => exact t_variant (by decide) (by decide) (by decide) (by decide) (t_struct (by simp) (by decide) (by
      f_with (t_str _)
      exact f_nil (by decide)))
  | unknown => exact t_unit _ _ (by decide) (by decide)

theorem t_userNotice (v : UserNotice) : Tells esc alt tc (b!"UserNotice") (v.dbg.text esc alt) (v.ser tc) :=
  t_struct (by simp) (by decide) (by
    f_with (t_str _)
    f_with (t_str _)
    f_may t_user
    f_may t_str
    f_may t_str
    f_with (t_event _)
    f_with (t_str _)
    f_with (t_list t_badge _)
    f_with (t_str _)
    f_may t_str
    f_with (t_str _)
    f_with (t_time _)
    exact f_nil (by decide))

end Tmi.Proofs
