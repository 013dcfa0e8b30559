/-
Lemmas for C97: the texts of a message are parts of the line that do not overlap.
-/
import Verif.Spec.Room
import Verif.Proofs.Dispatch
import Verif.Proofs.Rebuild

namespace Tmi.Proofs
open Tmi.Model Tmi.Spec

/-- The length of an optional text. -/
def olen (o : Option Bytes) : Nat := (o.getD []).length

@[simp] theorem olen_some (v : Bytes) : olen (some v) = v.length := rfl
@[simp] theorem olen_none : olen none = 0 := rfl

theorem olen_getD (o : Option Bytes) : olen o = (o.getD []).length := rfl

@[simp] theorem total_nil : total [] = 0 := rfl
@[simp] theorem total_cons (a : Bytes) (t : List Bytes) : total (a :: t) = a.length + total t := rfl
@[simp] theorem total_append (a b : List Bytes) : total (a ++ b) = total a + total b := by
  simp [total, List.map_append, List.sum_append]
@[simp] theorem total_toList (o : Option Bytes) : total o.toList = olen o := by cases o <;> simp

/-- All values of the tags. -/
def valueLen (ps : List (Bytes × Bytes)) : Nat := (ps.map fun p => p.2.length).sum

theorem lookups_le : ∀ (ps : List (Bytes × Bytes)) (ks : List Bytes), ks.Nodup →
    (ks.map fun k => olen (lookup k ps)).sum ≤ valueLen ps
  | [], ks, _ => by
    induction ks with
    | nil => exact Nat.le_refl _
    | cons k ks ih => rename_i h; simpa [lookup] using ih (List.nodup_cons.1 h).2
  | (k, v) :: ps, ks, hn => by
    have hdrop : ∀ ks' : List Bytes, k ∉ ks' →
        (ks'.map fun j => olen (lookup j ((k, v) :: ps))).sum = (ks'.map fun j => olen (lookup j ps)).sum := by
      intro ks' h
      congr 1
      apply List.map_congr_left
      intro j hj
      rw [lookup, if_neg (fun e => h (by rw [e]; exact hj))]
    by_cases hk : k ∈ ks
    · obtain ⟨a, b, rfl⟩ := List.append_of_mem hk
      have h1 := lookups_le ps (a ++ b) (List.Nodup.sublist (by simp) hn)
      rw [List.nodup_append] at hn
      have ha : k ∉ a := fun h => hn.2.2 k h k (by simp) rfl
      have hb : k ∉ b := (List.nodup_cons.1 hn.2.1).1
      rw [List.map_append, List.map_cons, List.sum_append, List.sum_cons, hdrop a ha, hdrop b hb,
        show lookup k ((k, v) :: ps) = some v by simp [lookup]]
      rw [List.map_append, List.sum_append] at h1
      simp only [valueLen, List.map_cons, List.sum_cons, olen_some] at h1 ⊢
      omega
    · rw [hdrop ks hk]
      have := lookups_le ps ks hn
      simp only [valueLen, List.map_cons, List.sum_cons] at this ⊢
      omega

theorem splitTags_len (n : Nat) : ∀ s : Bytes, s.length ≤ n → valueLen (splitTags s) ≤ s.length := by
  induction n with
  | zero =>
    intro s hs
    have : s = [] := List.length_eq_zero_iff.1 (by omega)
    subst this
    rw [splitTags_nil]; exact Nat.le_refl _
  | succ n ih =>
    intro s hs
    rw [splitTags]
    split
    · exact Nat.zero_le _
    · rename_i k r hk
      obtain ⟨rfl, -⟩ := cut_eq_some hk
      split
      · simp [valueLen]; omega
      · rename_i v r' hv
        obtain ⟨rfl, -⟩ := cut_eq_some hv
        have := ih r' (by simp at hs; omega)
        simp only [valueLen, List.map_cons, List.sum_cons, List.length_append, List.length_cons] at this ⊢
        omega

/-- The parts of a line do not overlap. -/
theorem parts_le {s : Bytes} {l : Line} (h : line s = some l) (ks : List Bytes) (hn : ks.Nodup) :
    (ks.map fun k => olen (l.tag k)).sum + olen l.prefix? + olen l.channel + olen l.params ≤ s.length := by
  obtain ⟨t, -, ht, hs⟩ := line_rebuild h
  have h1 := lookups_le l.tags ks hn
  have h2 : valueLen l.tags ≤ olen t := by
    rw [ht]
    cases t with
    | none => exact Nat.le_refl _
    | some t => exact splitTags_len _ t (Nat.le_refl _)
  have h3 : olen t + olen l.prefix? + olen l.channel + olen l.params ≤ s.length := by
    rcases hs with hs | ⟨hp, hs⟩
    · rw [hs]
      cases t <;> cases l.prefix? <;> cases l.channel <;> cases l.params <;> simp <;> omega
    · rw [hs, hp]
      cases t <;> cases l.prefix? <;> cases l.channel <;> simp <;> omega
  show (ks.map fun k => olen (lookup k l.tags)).sum + _ + _ + _ ≤ _
  omega

theorem nick_le (l : Line) : olen l.nick ≤ olen l.prefix? := by
  unfold Line.nick
  cases l.prefix? with
  | none => exact Nat.le_refl _
  | some p =>
    show olen (nickOf p) ≤ p.length
    unfold nickOf
    cases h : cutLast BANG p with
    | some ab =>
      have := (cutLast_some h).1
      show ab.1.length ≤ _
      rw [this]; simp
    | none =>
      cases h' : cutLast AT p with
      | none => simp
      | some ab =>
        have := (cutLast_some h').1
        show ab.1.length ≤ _
        rw [this]; simp

theorem text_le (l : Line) : olen l.text ≤ olen l.params := by
  unfold Line.text
  cases l.params with
  | none => exact Nat.le_refl _
  | some p =>
    show (textOf p).length ≤ p.length
    unfold textOf
    cases h : cut COLON p with
    | none => exact Nat.le_refl _
    | some ab =>
      have := (cut_eq_some h).1
      rw [this]; simp; omega

theorem textOf_le {t text : Bytes} {a : Bool} (h : TextOf t text a) : text.length ≤ t.length := by
  rcases h with ⟨-, rfl⟩ | ⟨-, rfl, -⟩
  · simp; omega
  · exact Nat.le_refl _

theorem optText_le {o r : Option Bytes} (h : OptText o r) : olen r ≤ olen o := by
  cases r with
  | none => simp
  | some c => rw [((h c).1 rfl).1]; exact Nat.le_refl _

theorem joinWith_total (x : UInt8) : ∀ ps : List Bytes, total ps + ps.length ≤ (joinWith x ps).length + 1
  | [] => by simp [joinWith]
  | [p] => by simp [joinWith]
  | p :: q :: ps => by
    have := joinWith_total x (q :: ps)
    rw [joinWith]
    · simp at this ⊢; omega
    · simp

theorem fields_total (x : UInt8) (s : Bytes) : total (fields x s) + (fields x s).length ≤ s.length + 1 := by
  have := joinWith_total x (fields x s)
  rwa [(joinWith_fields x _ s (Nat.le_refl _)).1] at this

theorem emoteSets_le {l : Line} {r : List Bytes} (h : EmoteSetsOf l r) : total r ≤ olen (l.tag (b!"emote-sets")) := by
  unfold EmoteSetsOf at h
  cases hs : l.tag (b!"emote-sets") with
  | none => rw [hs] at h; simp [show r = [] from h]
  | some s =>
    rw [hs] at h
    have := fields_total COMMA s
    have h' := fields_ne_nil COMMA s
    have : 0 < (fields COMMA s).length := List.length_pos_iff.2 h'
    rw [show r = fields COMMA s from h]
    simp; omega

/-! ### Badges -/

/-- The lengths of the entries of a list. -/
def entriesLen (es : List (Bytes × Bytes)) : Nat := (es.map fun e => e.1.length + e.2.length).sum

theorem entries_total (s : Bytes) : entriesLen (entries s) + (entries s).length ≤ s.length := by
  have h := fields_total COMMA s
  have h' : 0 < (fields COMMA s).length := List.length_pos_iff.2 (fields_ne_nil COMMA s)
  have key : ∀ fs : List Bytes,
      entriesLen (fs.filterMap (cut SLASH)) + (fs.filterMap (cut SLASH)).length ≤ total fs := by
    intro fs
    induction fs with
    | nil => exact Nat.le_refl _
    | cons f fs ih =>
      rw [List.filterMap_cons]
      cases hc : cut SLASH f with
      | none => simp only [total_cons]; omega
      | some e =>
        have := (cut_eq_some (a := e.1) (b := e.2) hc).1
        rw [this]
        simp only [total_cons, entriesLen, List.map_cons, List.sum_cons, List.length_cons, List.length_append] at ih ⊢
        omega
  have := key (fields COMMA s)
  unfold entries
  omega

theorem badge_le {name version : Bytes} {extra : Option Bytes} {x : Badge} (h : BadgeOf name version extra x) :
    total (badgeTexts x) ≤ name.length + version.length + olen extra := by
  unfold BadgeOf at h
  split at h
  · subst h; exact Nat.zero_le _
  split at h
  · subst h; exact Nat.zero_le _
  split at h
  · subst h; exact Nat.zero_le _
  split at h
  · subst h; exact Nat.zero_le _
  split at h
  · rename_i hn
    obtain ⟨m, rfl, -⟩ := h
    rw [hn]
    cases extra <;> simp [badgeTexts] <;> omega
  · subst h
    simp [badgeTexts]; omega

/-- The badges, against the entries they were made of. -/
theorem badges_sum {info : List (Bytes × Bytes)} : ∀ (es : List (Bytes × Bytes)) (r : List Badge), r.length = es.length →
    (∀ (k : Nat) name version, es[k]? = some (name, version) →
      ∃ x, r[k]? = some x ∧ BadgeOf name version (lookup name info) x) →
    total (r.flatMap badgeTexts) ≤ entriesLen es + ((es.map (·.1)).map fun k => olen (lookup k info)).sum
  | [], [], _, _ => Nat.le_refl _
  | [], _ :: _, h, _ => by simp at h
  | _ :: _, [], h, _ => by simp at h
  | e :: es, x :: r, h, hb => by
    have ih := badges_sum es r (by simpa using h) fun k name version hk => by
      have := hb (k + 1) name version (by simpa using hk)
      simpa using this
    obtain ⟨x', hx, h0⟩ := hb 0 e.1 e.2 rfl
    cases hx
    have := badge_le h0
    simp only [List.flatMap_cons, total_append, entriesLen, List.map_cons, List.sum_cons] at ih ⊢
    omega

theorem lookup_le (ps : List (Bytes × Bytes)) (k : Bytes) : olen (lookup k ps) ≤ valueLen ps := by
  have := lookups_le ps [k] (by simp)
  simpa using this

theorem valueLen_entries (s : Bytes) : valueLen (entries s) ≤ s.length := by
  have h := entries_total s
  have : ∀ es : List (Bytes × Bytes), valueLen es ≤ entriesLen es := by
    intro es
    induction es with
    | nil => exact Nat.le_refl _
    | cons e es ih => simp only [valueLen, entriesLen, List.map_cons, List.sum_cons] at ih ⊢; omega
  have := this (entries s)
  omega

theorem badges_distinct {bs info : Option Bytes} {r : List Badge} (h : BadgesOf bs info r)
    (hd : ∀ v, bs = some v → ((entries v).map (·.1)).Nodup) :
    total (r.flatMap badgeTexts) ≤ olen bs + olen info := by
  cases bs with
  | none => rw [h.absent (.inl rfl)]; exact Nat.zero_le _
  | some b =>
    cases info with
    | none => rw [h.absent (.inr rfl)]; exact Nat.zero_le _
    | some i =>
      obtain ⟨h1, h2⟩ := h.present b i rfl rfl
      have h3 := badges_sum (info := entries i) _ _ h1 h2
      have h4 := lookups_le (entries i) _ (hd b rfl)
      have h5 := entries_total b
      have h6 := valueLen_entries i
      simp only [olen_some]
      omega

theorem badges_any {bs info : Option Bytes} {r : List Badge} (h : BadgesOf bs info r) :
    total (r.flatMap badgeTexts) ≤ olen bs + olen bs * olen info := by
  cases bs with
  | none => rw [h.absent (.inl rfl)]; exact Nat.zero_le _
  | some b =>
    cases info with
    | none => rw [h.absent (.inr rfl)]; exact Nat.zero_le _
    | some i =>
      obtain ⟨h1, h2⟩ := h.present b i rfl rfl
      have h3 := badges_sum (info := entries i) _ _ h1 h2
      have h5 := entries_total b
      have h6 := valueLen_entries i
      have key : ∀ ks : List Bytes, (ks.map fun k => olen (lookup k (entries i))).sum ≤ ks.length * i.length := by
        intro ks
        induction ks with
        | nil => exact Nat.zero_le _
        | cons k ks ih =>
          have := lookup_le (entries i) k
          simp only [List.map_cons, List.sum_cons, List.length_cons, Nat.add_mul, Nat.one_mul]
          omega
      have h7 := key ((entries b).map (·.1))
      rw [List.length_map] at h7
      have h8 : (entries b).length * i.length ≤ b.length * i.length := Nat.mul_le_mul_right _ (by omega)
      simp only [olen_some]
      omega

/-! ### Messages -/

attribute [local irreducible] olen total

theorem olen_eq {o : Option Bytes} {v : Bytes} (h : o = some v) : olen o = v.length := by rw [h, olen_some]

theorem promo_le {l : Line} {promo : Option SubGiftPromo} (h : PromoOf l promo) :
    olen (promo.map (·.promoName)) ≤ olen (l.tag (b!"msg-param-promo-name")) := by
  cases promo with
  | none => simp
  | some p => rw [((h p).1 rfl).2]; simp

/-- The tags that an event is made of. -/
def eventKeys : List Bytes := [b!"msg-param-sub-plan", b!"msg-param-sub-plan-name", b!"msg-param-profileImageURL",
  b!"msg-param-recipient-id", b!"msg-param-recipient-user-name", b!"msg-param-recipient-display-name",
  b!"msg-param-sender-login", b!"msg-param-sender-name", b!"msg-param-promo-name", b!"msg-param-ritual-name",
  b!"msg-param-color"]

theorem event_le {l : Line} {id : Bytes} {e : Event} {anon : Bool} (h : EventOf l id e anon) :
    total (eventTexts e) ≤ (eventKeys.map fun k => olen (l.tag k)).sum + 7 := by
  simp only [eventKeys, List.map_cons, List.map_nil, List.sum_cons, List.sum_nil]
  cases h with
  | subOrResub _ _ _ h1 h2 =>
    have h1 := olen_eq h1; have h2 := olen_eq h2
    simp [eventTexts]; omega
  | raid _ h1 =>
    have h1 := olen_eq h1
    simp [eventTexts]; omega
  | subGift _ _ h1 h2 h3 h4 h5 _ _ =>
    have h1 := olen_eq h1; have h2 := olen_eq h2; have h3 := olen_eq h3; have h4 := olen_eq h4; have h5 := olen_eq h5
    simp [eventTexts, userTexts]; omega
  | anonSubMysteryGift _ _ h1 =>
    have h1 := olen_eq h1
    simp [eventTexts]; omega
  | subMysteryGift _ _ _ h1 =>
    have h1 := olen_eq h1
    simp [eventTexts]; omega
  | giftPaidUpgrade h1 h2 h3 =>
    have h1 := olen_eq h1; have h2 := olen_eq h2; have h3 := promo_le h3
    simp only [eventTexts, total_append, total_cons, total_toList, total_nil]; omega
  | anonGiftPaidUpgrade h1 =>
    have h1 := promo_le h1
    simp only [eventTexts, total_toList]; omega
  | ritual h1 =>
    have h1 := olen_eq h1
    simp [eventTexts]; omega
  | bitsBadgeTier _ => simp [eventTexts]
  | announcement h1 =>
    rename_i color
    have : color.length ≤ olen (l.tag (b!"msg-param-color")) + 7 := by
      rw [h1]
      cases l.tag (b!"msg-param-color") <;> simp
    simp [eventTexts]; omega
  | unknown _ => simp [eventTexts]

/-- The tags that a reply is made of. -/
def replyKeys : List Bytes := [b!"reply-parent-msg-id", b!"reply-thread-parent-msg-id",
  b!"reply-thread-parent-user-login", b!"reply-parent-user-id", b!"reply-parent-user-login",
  b!"reply-parent-display-name", b!"reply-parent-msg-body"]

theorem reply_le {l : Line} {r : Reply} (h : ReplyOf l r) :
    total (replyTexts r) ≤ (replyKeys.map fun k => olen (l.tag k)).sum := by
  have r1 := olen_eq h.messageId; have r2 := olen_eq h.threadParentMessageId
  have r3 := olen_eq h.threadParentUserLogin; have r4 := olen_eq h.senderId; have r5 := olen_eq h.senderLogin
  have r6 := olen_eq h.senderName; have r7 := olen_eq h.text
  simp only [replyKeys, List.map_cons, List.map_nil, List.sum_cons, List.sum_nil, replyTexts, userTexts, total_append,
    total_cons, total_nil]
  omega

theorem privmsg_le {s : Bytes} {l : Line} {v : Privmsg} (hl : line s = some l) (h : PrivmsgOf l v) :
    total (messageTexts (.privmsg v)) + olen (l.tag (b!"badges")) + olen (l.tag (b!"badge-info")) ≤ s.length + 7 := by
  have hnick := nick_le l
  have htext := text_le l
  have hp := parts_le hl ([b!"room-id", b!"msg-id", b!"id", b!"user-id", b!"display-name",
    b!"pinned-chat-paid-currency", b!"color", b!"custom-reward-id", b!"emotes", b!"badges", b!"badge-info"] ++ replyKeys)
    (by decide)
  rw [List.map_append, List.sum_append] at hp
  simp only [List.map_cons, List.map_nil, List.sum_cons, List.sum_nil] at hp
  have h1 := olen_eq h.channel; have h2 := olen_eq h.channelId; have h3 := olen_eq h.id
  have h4 := olen_eq h.senderId; have h5 := olen_eq h.senderLogin; have h6 := olen_eq h.senderName
  obtain ⟨t, ht, ht'⟩ := h.text
  have h7 := olen_eq ht; have h8 := textOf_le ht'
  have h9 := optText_le h.color; have h10 := optText_le h.customRewardId
  have h11 : v.emotes.length = olen (l.tag (b!"emotes")) := by rw [h.emotes]; exact (olen_getD _).symm
  have h12 : olen (v.pinnedChat.map (·.paidCurrency)) ≤ olen (l.tag (b!"pinned-chat-paid-currency")) := by
    cases hv : v.pinnedChat with
    | none => simp
    | some q => rw [((h.pinnedChat q).1 hv).currency]; simp
  have h13 : total (match v.replyTo with | some r => replyTexts r | none => []) ≤
      (replyKeys.map fun k => olen (l.tag k)).sum := by
    cases hr : v.replyTo with
    | none => exact Nat.le_trans (Nat.le_of_eq total_nil) (Nat.zero_le _)
    | some r => exact reply_le ((h.replyTo r).1 hr)
  generalize (replyKeys.map fun k => olen (l.tag k)).sum = rk at hp h13
  simp only [messageTexts, userTexts, total_append, total_cons, total_nil, total_toList, ← h.msgId]
  generalize total (match v.replyTo with | some r => replyTexts r | none => []) = rt at h13 ⊢
  omega

set_option maxHeartbeats 1000000 in
/-- The texts of a typed message and the tags of its badges are parts of the line. -/
theorem message_le {s : Bytes} {l : Line} {M : Message} (hl : line s = some l) (h : MessageOf l M)
    (ho : ∀ m, M ≠ .other m) :
    total (messageTexts M) + olen (l.tag (b!"badges")) + olen (l.tag (b!"badge-info")) ≤ s.length + 7 := by
  have hnick := nick_le l
  have htext := text_le l
  cases M with
  | other m => exact absurd rfl (ho m)
  | reconnect =>
    have hp := parts_le hl [b!"badges", b!"badge-info"] (by decide)
    simp only [List.map_cons, List.map_nil, List.sum_cons, List.sum_nil] at hp
    simp only [messageTexts, total_nil]
    omega
  | clearChat v =>
    obtain ⟨-, h⟩ := h
    have hp := parts_le hl [b!"room-id", b!"target-user-id", b!"badges", b!"badge-info"] (by decide)
    simp only [List.map_cons, List.map_nil, List.sum_cons, List.sum_nil] at hp
    have h1 := olen_eq h.channel; have h2 := olen_eq h.channelId
    have ha := h.action
    cases hv : v.action with
    | clear => simp only [messageTexts, hv, total_append, total_cons, total_nil]; omega
    | ban user id =>
      rw [hv] at ha
      have h3 := olen_eq ha.1; have h4 := olen_eq ha.2.1
      simp only [messageTexts, hv, total_append, total_cons, total_nil]; omega
    | timeOut user id d =>
      rw [hv] at ha
      have h3 := olen_eq ha.1; have h4 := olen_eq ha.2.1
      simp only [messageTexts, hv, total_append, total_cons, total_nil]; omega
  | clearMsg v =>
    obtain ⟨-, h⟩ := h
    have hp := parts_le hl [b!"room-id", b!"login", b!"target-msg-id", b!"badges", b!"badge-info"] (by decide)
    simp only [List.map_cons, List.map_nil, List.sum_cons, List.sum_nil] at hp
    have h1 := olen_eq h.channel; have h2 := olen_eq h.channelId; have h3 := olen_eq h.sender
    have h4 := olen_eq h.targetMessageId
    obtain ⟨t, ht, ht'⟩ := h.text
    have h5 := olen_eq ht; have h6 := textOf_le ht'
    simp only [messageTexts, total_cons, total_nil]; omega
  | globalUserState v =>
    obtain ⟨-, h⟩ := h
    have hp := parts_le hl [b!"user-id", b!"display-name", b!"emote-sets", b!"color", b!"badges", b!"badge-info"] (by decide)
    simp only [List.map_cons, List.map_nil, List.sum_cons, List.sum_nil] at hp
    have h1 := olen_eq h.id; have h2 := olen_eq h.name; have h3 := emoteSets_le h.emoteSets; have h4 := optText_le h.color
    simp only [messageTexts, total_append, total_cons, total_nil, total_toList]; omega
  | join v =>
    obtain ⟨-, h⟩ := h
    have hp := parts_le hl [b!"badges", b!"badge-info"] (by decide)
    simp only [List.map_cons, List.map_nil, List.sum_cons, List.sum_nil] at hp
    have h1 := olen_eq h.channel; have h2 := olen_eq h.user
    simp only [messageTexts, total_cons, total_nil]; omega
  | part v =>
    obtain ⟨-, h⟩ := h
    have hp := parts_le hl [b!"badges", b!"badge-info"] (by decide)
    simp only [List.map_cons, List.map_nil, List.sum_cons, List.sum_nil] at hp
    have h1 := olen_eq h.channel; have h2 := olen_eq h.user
    simp only [messageTexts, total_cons, total_nil]; omega
  | notice v =>
    obtain ⟨-, h⟩ := h
    have hp := parts_le hl [b!"msg-id", b!"badges", b!"badge-info"] (by decide)
    simp only [List.map_cons, List.map_nil, List.sum_cons, List.sum_nil] at hp
    have h1 := olen_eq h.text
    simp only [messageTexts, total_append, total_cons, total_nil, total_toList, ← h.channel, ← h.id]; omega
  | ping v =>
    obtain ⟨-, h⟩ := h
    have hp := parts_le hl [b!"badges", b!"badge-info"] (by decide)
    simp only [List.map_cons, List.map_nil, List.sum_cons, List.sum_nil] at hp
    simp only [messageTexts, total_toList, ← h.nonce]; omega
  | pong v =>
    obtain ⟨-, h⟩ := h
    have hp := parts_le hl [b!"badges", b!"badge-info"] (by decide)
    simp only [List.map_cons, List.map_nil, List.sum_cons, List.sum_nil] at hp
    simp only [messageTexts, total_toList, ← h.nonce]; omega
  | roomState v =>
    obtain ⟨-, h⟩ := h
    have hp := parts_le hl [b!"room-id", b!"badges", b!"badge-info"] (by decide)
    simp only [List.map_cons, List.map_nil, List.sum_cons, List.sum_nil] at hp
    have h1 := olen_eq h.channel; have h2 := olen_eq h.channelId
    simp only [messageTexts, total_cons, total_nil]; omega
  | userState v =>
    obtain ⟨-, h⟩ := h
    have hp := parts_le hl [b!"display-name", b!"emote-sets", b!"color", b!"badges", b!"badge-info"] (by decide)
    simp only [List.map_cons, List.map_nil, List.sum_cons, List.sum_nil] at hp
    have h1 := olen_eq h.channel; have h2 := olen_eq h.userName; have h3 := emoteSets_le h.emoteSets
    have h4 := optText_le h.color
    simp only [messageTexts, total_append, total_cons, total_nil, total_toList]; omega
  | whisper v =>
    obtain ⟨-, h⟩ := h
    have hp := parts_le hl [b!"user-id", b!"display-name", b!"emotes", b!"color", b!"badges", b!"badge-info"] (by decide)
    simp only [List.map_cons, List.map_nil, List.sum_cons, List.sum_nil] at hp
    have h1 := olen_eq h.params
    simp only [List.length_append, List.length_cons] at h1
    have h2 := olen_eq h.senderId; have h3 := olen_eq h.senderLogin; have h4 := olen_eq h.senderName
    have h5 : v.emotes.length = olen (l.tag (b!"emotes")) := by rw [h.emotes]; exact (olen_getD _).symm
    have h6 := optText_le h.color
    simp only [messageTexts, userTexts, total_append, total_cons, total_nil, total_toList]; omega
  | privmsg v => exact privmsg_le hl h.2
  | userNotice v =>
    obtain ⟨-, h⟩ := h
    have hp := parts_le hl ([b!"room-id", b!"user-id", b!"login", b!"display-name", b!"system-msg", b!"msg-id", b!"emotes",
      b!"color", b!"id", b!"badges", b!"badge-info"] ++ eventKeys) (by decide)
    rw [List.map_append, List.sum_append] at hp
    simp only [List.map_cons, List.map_nil, List.sum_cons, List.sum_nil] at hp
    have h1 := olen_eq h.channel; have h2 := olen_eq h.channelId; have h3 := optText_le h.systemMessage
    have h4 := olen_eq h.eventId; have h5 := optText_le h.color; have h6 := olen_eq h.messageId
    have h7 : v.emotes.length = olen (l.tag (b!"emotes")) := by rw [h.emotes]; exact (olen_getD _).symm
    obtain ⟨anon, he, hs⟩ := h.event
    have h8 := event_le he
    generalize (eventKeys.map fun k => olen (l.tag k)).sum = ev at hp h8
    cases hv : v.sender with
    | none =>
      simp only [messageTexts, hv, total_append, total_cons, total_nil, total_toList, ← h.text]
      omega
    | some u =>
      rw [hv] at hs
      have s1 := olen_eq hs.2.1; have s2 := olen_eq hs.2.2.1; have s3 := olen_eq hs.2.2.2
      simp only [messageTexts, userTexts, hv, total_append, total_cons, total_nil, total_toList, ← h.text]
      omega

/-- The badges of a message. -/
theorem message_badges {l : Line} {M : Message} (h : MessageOf l M) :
    messageBadges M = [] ∨ BadgesOf (l.tag (b!"badges")) (l.tag (b!"badge-info")) (messageBadges M) := by
  cases M <;> first
    | exact .inl rfl
    | exact .inr h.2.badges

end Tmi.Proofs
