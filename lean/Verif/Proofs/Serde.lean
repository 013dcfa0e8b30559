/-
Lemmas on serialisation: each type reads back what it writes.
-/
import Verif.Model.Serde
import Verif.Spec.Serde
import Verif.Props.Num

namespace Tmi.Proofs
open Model Spec

/-! ### Standard types -/

theorem de_str (s : Bytes) : deStr (.str s) = some s := rfl

theorem de_bool (b : Bool) : deBool (.bool b) = some b := rfl

theorem de_u64 {n : Nat} (h : n < 2 ^ 64) : deU64 (serNat n) = some n := by
  simp only [deU64, serNat]
  rw [if_pos (by simp only [u64Max]; omega)]
  simp

theorem de_i64 {n : Int} (h : -2 ^ 63 ≤ n ∧ n < 2 ^ 63) : deI64 (.num n) = some n := by
  simp only [deI64]
  rw [if_pos (by simp only [i64Min, i64Max]; omega)]

theorem de_option {α : Type} {f : α → Value} {d : Value → Option α} {o : Option α}
    (hn : ∀ a, f a ≠ .null) (h : ∀ a, o = some a → d (f a) = some a) :
    deOption d (serOption f o) = some o := by
  cases o with
  | none => rfl
  | some a =>
    have h1 := h a rfl
    have h2 := hn a
    simp only [serOption]
    revert h1 h2
    generalize f a = v
    intro h1 h2
    cases v <;> simp_all [deOption]

theorem de_opt_str (o : Option Bytes) : deOption deStr (serOption Value.str o) = some o :=
  de_option (by simp) (by simp [deStr])

theorem de_opt_bool (o : Option Bool) : deOption deBool (serOption Value.bool o) = some o :=
  de_option (by simp) (by simp [deBool])

theorem de_opt_u64 {o : Option Nat} (h : ∀ n, o = some n → n < 2 ^ 64) :
    deOption deU64 (serOption serNat o) = some o :=
  de_option (by simp [serNat]) (fun n hn => de_u64 (h n hn))

theorem de_duration {d : Nat} (h : d < 2 ^ 64 * 1000000000) : deDuration (serDuration d) = some d := by
  unfold deDuration serDuration
  generalize hn : d / 1000000000 = n
  generalize hk : d % 1000000000 = k
  have h1 : ∀ f : Value → Option Nat,
      (field [(b!"secs", serNat n), (b!"nanos", serNat k)] (b!"secs") f = f (serNat n)) ∧
      (field [(b!"secs", serNat n), (b!"nanos", serNat k)] (b!"nanos") f = f (serNat k)) :=
    fun f => ⟨rfl, rfl⟩
  have h2 : deU32 (serNat k) = some k := by
    show (if (0 : Int) ≤ k ∧ (k : Int) ≤ 4294967295 then some (k : Int).toNat else none) = some k
    rw [if_pos (by omega)]
    simp
  have h3 : ([(b!"secs", serNat n), (b!"nanos", serNat k)] : List (Bytes × Value)).all
    (fun kv => kv.1 == b!"secs" || kv.1 == b!"nanos") = true := rfl
  have h4 : ((n : Int) + k / 1000000000 ≤ u64Max) = True := by
    simp only [u64Max, eq_iff_iff, iff_true]
    omega
  rw [show deFields _ (Value.map [(b!"secs", serNat n), (b!"nanos", serNat k)]) = some _ from rfl]
  simp only [Option.bind_eq_bind, Option.bind_some, (h1 _).1, (h1 _).2, de_u64 (show n < 2 ^ 64 by omega), h2, h3, h4,
    decide_true, Bool.and_true, if_true]
  rw [Option.some.injEq]
  omega

theorem de_opt_duration {o : Option Nat} (h : ∀ n, o = some n → n < 2 ^ 64 * 1000000000) :
    deOption deDuration (serOption serDuration o) = some o :=
  de_option (by simp [serDuration]) (fun n hn => de_duration (h n hn))

theorem de_seq {α : Type} {f : α → Value} {d : Value → Option α} {l : List α}
    (h : ∀ a ∈ l, d (f a) = some a) : deSeq d (serSeq f l) = some l := by
  simp only [deSeq, serSeq]
  induction l with
  | nil => rfl
  | cons a t ih =>
    simp only [List.map_cons, List.mapM_cons, h a (by simp)]
    simp [ih (fun x hx => h x (by simp [hx]))]

theorem de_seq_none {α : Type} {f : α → Value} {d : Value → Option α} {l : List α}
    (h : ∃ a ∈ l, d (f a) = none) : deSeq d (serSeq f l) = none := by
  simp only [deSeq, serSeq]
  induction l with
  | nil => simp at h
  | cons a t ih =>
    simp only [List.map_cons, List.mapM_cons]
    cases ha : d (f a) with
    | none => rfl
    | some x =>
      have : ∃ a ∈ t, d (f a) = none := by
        obtain ⟨y, hy, hd⟩ := h
        simp only [List.mem_cons] at hy
        rcases hy with rfl | hy
        · rw [ha] at hd; cases hd
        · exact ⟨y, hy, hd⟩
      simp [ih this]

theorem de_strs (l : List Bytes) : deSeq deStr (serSeq Value.str l) = some l :=
  de_seq (by simp [deStr])

/-- A time of whole milliseconds that chrono can represent. -/
def Representable (t : Timestamp) : Prop := ∃ ms, InChrono ms ∧ AtMilli t ms

theorem de_time {tc : TimeCodec} (hc : TimeCodec.Faithful tc) {t : Timestamp} (h : Representable t) :
    tc.de (tc.ser t) = some t := h.elim fun ms h => hc t ms h.1 h.2

/-! ### Messages -/

theorem BadgeData_direct (v : BadgeData) : BadgeData.de (BadgeData.ser v) = (do
    let name ← deStr (Value.str v.name)
    let version ← deStr (Value.str v.version)
    let extra ← deOption deStr (serOption Value.str v.extra)
    return { name, version, extra }) := by
  rfl

theorem User_direct (v : User) : User.de (User.ser v) = (do
    let id ← deStr (Value.str v.id)
    let login ← deStr (Value.str v.login)
    let name ← deStr (Value.str v.name)
    return { id, login, name }) := by
  rfl

theorem ClearMsg_direct (tc : TimeCodec) (v : ClearMsg) : ClearMsg.de tc (ClearMsg.ser tc v) = (do
    let channel ← deStr (Value.str v.channel)
    let channelId ← deStr (Value.str v.channelId)
    let sender ← deStr (Value.str v.sender)
    let targetMessageId ← deStr (Value.str v.targetMessageId)
    let text ← deStr (Value.str v.text)
    let isAction ← deBool (Value.bool v.isAction)
    let timestamp ← tc.de (tc.ser v.timestamp)
    return { channel, channelId, sender, targetMessageId, text, isAction, timestamp }) := by
  rfl

theorem GlobalUserState_direct (v : GlobalUserState) : GlobalUserState.de (GlobalUserState.ser v) = (do
    let id ← deStr (Value.str v.id)
    let name ← deStr (Value.str v.name)
    let badges ← (deSeq Badge.de) (serSeq Badge.ser v.badges)
    let emoteSets ← (deSeq deStr) (serSeq Value.str v.emoteSets)
    let color ← deOption deStr (serOption Value.str v.color)
    return { id, name, badges, emoteSets, color }) := by
  rfl

theorem Join_direct (v : Join) : Join.de (Join.ser v) = (do
    let channel ← deStr (Value.str v.channel)
    let user ← deStr (Value.str v.user)
    return { channel, user }) := by
  rfl

theorem Part_direct (v : Part) : Part.de (Part.ser v) = (do
    let channel ← deStr (Value.str v.channel)
    let user ← deStr (Value.str v.user)
    return { channel, user }) := by
  rfl

theorem Notice_direct (v : Notice) : Notice.de (Notice.ser v) = (do
    let channel ← deOption deStr (serOption Value.str v.channel)
    let text ← deStr (Value.str v.text)
    let id ← deOption deStr (serOption Value.str v.id)
    return { channel, text, id }) := by
  rfl

theorem Ping_direct (v : Ping) : Ping.de (Ping.ser v) = (do
    let nonce ← deOption deStr (serOption Value.str v.nonce)
    return { nonce }) := by
  rfl

theorem Pong_direct (v : Pong) : Pong.de (Pong.ser v) = (do
    let nonce ← deOption deStr (serOption Value.str v.nonce)
    return { nonce }) := by
  rfl

theorem Reply_direct (v : Reply) : Reply.de (Reply.ser v) = (do
    let threadParentMessageId ← deStr (Value.str v.threadParentMessageId)
    let threadParentUserLogin ← deStr (Value.str v.threadParentUserLogin)
    let messageId ← deStr (Value.str v.messageId)
    let sender ← User.de (User.ser v.sender)
    let text ← deStr (Value.str v.text)
    return { threadParentMessageId, threadParentUserLogin, messageId, sender, text }) := by
  rfl

theorem PinnedChat_direct (v : PinnedChat) : PinnedChat.de (PinnedChat.ser v) = (do
    let paidAmount ← deI64 (Value.num v.paidAmount)
    let paidCurrency ← deStr (Value.str v.paidCurrency)
    let paidExponent ← deI64 (Value.num v.paidExponent)
    let paidLevel ← PinnedChatLevel.de (PinnedChatLevel.ser v.paidLevel)
    let isSystemMessage ← deBool (Value.bool v.isSystemMessage)
    return { paidAmount, paidCurrency, paidExponent, paidLevel, isSystemMessage }) := by
  rfl

theorem Privmsg_direct (tc : TimeCodec) (v : Privmsg) : Privmsg.de tc (Privmsg.ser tc v) = (do
    let channel ← deStr (Value.str v.channel)
    let channelId ← deStr (Value.str v.channelId)
    let msgId ← deOption deStr (serOption Value.str v.msgId)
    let id ← deStr (Value.str v.id)
    let sender ← User.de (User.ser v.sender)
    let replyTo ← deOption Reply.de (serOption Reply.ser v.replyTo)
    let pinnedChat ← deOption PinnedChat.de (serOption PinnedChat.ser v.pinnedChat)
    let text ← deStr (Value.str v.text)
    let isAction ← deBool (Value.bool v.isAction)
    let badges ← (deSeq Badge.de) (serSeq Badge.ser v.badges)
    let color ← deOption deStr (serOption Value.str v.color)
    let customRewardId ← deOption deStr (serOption Value.str v.customRewardId)
    let bits ← deOption deU64 (serOption serNat v.bits)
    let emotes ← deStr (Value.str v.emotes)
    let timestamp ← tc.de (tc.ser v.timestamp)
    return { channel, channelId, msgId, id, sender, replyTo, pinnedChat, text, isAction, badges, color, customRewardId, bits, emotes, timestamp }) := by
  rfl

theorem RoomState_direct (v : RoomState) : RoomState.de (RoomState.ser v) = (do
    let channel ← deStr (Value.str v.channel)
    let channelId ← deStr (Value.str v.channelId)
    let emoteOnly ← deOption deBool (serOption Value.bool v.emoteOnly)
    let followersOnly ← deOption FollowersOnly.de (serOption FollowersOnly.ser v.followersOnly)
    let r9k ← deOption deBool (serOption Value.bool v.r9k)
    let slow ← deOption deDuration (serOption serDuration v.slow)
    let subsOnly ← deOption deBool (serOption Value.bool v.subsOnly)
    return { channel, channelId, emoteOnly, followersOnly, r9k, slow, subsOnly }) := by
  rfl

theorem UserState_direct (v : UserState) : UserState.de (UserState.ser v) = (do
    let channel ← deStr (Value.str v.channel)
    let userName ← deStr (Value.str v.userName)
    let badges ← (deSeq Badge.de) (serSeq Badge.ser v.badges)
    let emoteSets ← (deSeq deStr) (serSeq Value.str v.emoteSets)
    let color ← deOption deStr (serOption Value.str v.color)
    return { channel, userName, badges, emoteSets, color }) := by
  rfl

theorem Whisper_direct (v : Whisper) : Whisper.de (Whisper.ser v) = (do
    let recipient ← deStr (Value.str v.recipient)
    let sender ← User.de (User.ser v.sender)
    let text ← deStr (Value.str v.text)
    let badges ← (deSeq Badge.de) (serSeq Badge.ser v.badges)
    let emotes ← deStr (Value.str v.emotes)
    let color ← deOption deStr (serOption Value.str v.color)
    return { recipient, sender, text, badges, emotes, color }) := by
  rfl

theorem SubGiftPromo_direct (v : SubGiftPromo) : SubGiftPromo.de (SubGiftPromo.ser v) = (do
    let totalGifts ← deU64 (serNat v.totalGifts)
    let promoName ← deStr (Value.str v.promoName)
    return { totalGifts, promoName }) := by
  rfl

theorem ClearChat_direct (tc : TimeCodec) (v : ClearChat) : ClearChat.de tc (ClearChat.ser tc v) = (do
    let channel ← deStr (Value.str v.channel)
    let channelId ← deStr (Value.str v.channelId)
    let action ← Action.de (Action.ser v.action)
    let timestamp ← tc.de (tc.ser v.timestamp)
    return { channel, channelId, action, timestamp }) := by
  rfl

theorem UserNotice_direct (tc : TimeCodec) (v : UserNotice) : UserNotice.de tc (UserNotice.ser tc v) = (do
    let channel ← deStr (Value.str v.channel)
    let channelId ← deStr (Value.str v.channelId)
    let sender ← deOption User.de (serOption User.ser v.sender)
    let text ← deOption deStr (serOption Value.str v.text)
    let systemMessage ← deOption deStr (serOption Value.str v.systemMessage)
    let event ← Event.de (Event.ser v.event)
    let eventId ← deStr (Value.str v.eventId)
    let badges ← (deSeq Badge.de) (serSeq Badge.ser v.badges)
    let emotes ← deStr (Value.str v.emotes)
    let color ← deOption deStr (serOption Value.str v.color)
    let messageId ← deStr (Value.str v.messageId)
    let timestamp ← tc.de (tc.ser v.timestamp)
    return { channel, channelId, sender, text, systemMessage, event, eventId, badges, emotes, color, messageId, timestamp }) := by
  unfold UserNotice.de
  rw [show deFields _ (UserNotice.ser tc v) = some _ from rfl]
  simp only [Option.bind_eq_bind, Option.bind_some]
  simp (decide := true) only [field, optField, List.filter_cons, List.filter_nil, ↓reduceIte]

end Tmi.Proofs
