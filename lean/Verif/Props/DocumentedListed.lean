/-
C82 to C86 for lines with tags of any size: the tags are the ones that `tags()` lists.
-/
import Verif.Props.Documented
import Verif.Props.Listed

namespace Tmi.Props
open Model Spec Proofs

/-- C82 for whatever tags the message lists: when the sender of a USERNOTICE is missing. -/
theorem C82_listed_partial (b : Build) (s : Bytes) (hu : Utf8 s) (hlen : s.length < 4294967296) (m : MsgRef)
    (h : MsgRef.parse b s = .ok (some m)) (tags : List (Bytes × Bytes)) (hm : m.tags = .ok tags)
    (l : Line) (hl : line s = some l) (p : UserNotice) (hp : UserNotice.parse m = .ok (some p)) :
    (p.eventId ≠ b!"anongiftpaidupgrade" → p.eventId ∈ eventIds → p.sender = none → Anonymous { l with tags := tags }) ∧
    (p.eventId ∈ [b!"subgift", b!"anonsubgift", b!"submysterygift", b!"anonsubmysterygift"] →
      (p.sender = none ↔ Anonymous { l with tags := tags })) ∧
    (p.eventId = b!"anongiftpaidupgrade" ∨ p.eventId ∉ eventIds → p.sender = none) := by
  obtain ⟨l', hl', _, R⟩ := represents_listed hu hlen h hm
  cases hl.symm.trans hl'
  have P := (((ReturnsExactly.of (userNotice_exactly R)).2 p).1 hp).2
  refine ⟨(sender_known P).1, (sender_known P).2, fun he => (sender_of P).1.2 ?_⟩
  rcases he with he | he
  · left; rw [he]; decide
  · exact .inr (.inr he)

example := C82_listed_partial ⟨.scalar, true⟩ sampleGift (utf8_of sampleGift_ok) (within_of sampleGift_ok).len _
  (given_eq _ (by decide +kernel)) _ (got_eq _ (by decide +kernel)) _ (line_eq _ sampleGift_line) _
  (given_eq _ (by decide +kernel))

/-- C83 for whatever tags the message lists: the names are what Twitch was told exactly if that needs no escaping. -/
theorem C83_listed_partial (b : Build) (s : Bytes) (hu : Utf8 s) (hlen : s.length < 4294967296) (m : MsgRef)
    (h : MsgRef.parse b s = .ok (some m)) (tags : List (Bytes × Bytes)) (hm : m.tags = .ok tags) :
    (∀ p, UserNotice.parse m = .ok (some p) →
      (∀ login name promo, p.event = .giftPaidUpgrade login name promo →
        GivesPlain (lookup (b!"msg-param-sender-name") tags) name ∧
        ∀ q, promo = some q → GivesPlain (lookup (b!"msg-param-promo-name") tags) q.promoName) ∧
      (∀ promo, p.event = .anonGiftPaidUpgrade promo →
        ∀ q, promo = some q → GivesPlain (lookup (b!"msg-param-promo-name") tags) q.promoName)) ∧
    (∀ p, UserState.parse m = .ok (some p) → GivesPlain (lookup (b!"display-name") tags) p.userName) := by
  obtain ⟨l, _, _, R⟩ := represents_listed hu hlen h hm
  refine ⟨fun p hp => ?_, fun p hp => ?_⟩
  · have P := (((ReturnsExactly.of (userNotice_exactly R)).2 p).1 hp).2
    obtain ⟨h1, h2⟩ := upgrade_names P
    exact ⟨fun login name promo he => ⟨gives_plain (h1 _ _ _ he).1, fun q hq => gives_plain ((h1 _ _ _ he).2 q hq)⟩,
      fun promo he q hq => gives_plain (h2 promo he q hq)⟩
  · exact gives_plain (((ReturnsExactly.of (userState_exactly R)).2 p).1 hp).2.userName

example := C83_listed_partial ⟨.scalar, true⟩ sampleUpgrade (utf8_of sampleUpgrade_ok) (within_of sampleUpgrade_ok).len _
  (given_eq _ (by decide +kernel)) _ (got_eq _ (by decide +kernel))

/-- C84 for whatever tags the message lists: which CLEARCHATs that name a user are timeouts, and which are bans. -/
theorem C84_listed_partial (b : Build) (s : Bytes) (hu : Utf8 s) (hlen : s.length < 4294967296) (m : MsgRef)
    (h : MsgRef.parse b s = .ok (some m)) (tags : List (Bytes × Bytes)) (hm : m.tags = .ok tags)
    (l : Line) (hl : line s = some l) (user : Bytes) (htext : l.text = some user) (p : ClearChat)
    (hp : ClearChat.parse m = .ok (some p)) :
    (∀ d, Line.num { l with tags := tags } (b!"ban-duration") d → ∃ id, p.action = .timeOut user id (d * 1000000000)) ∧
    (lookup (b!"ban-duration") tags = none → ∃ id, p.action = .ban user id) ∧
    ((∃ id, p.action = .ban user id) ↔ ¬ ∃ d, Line.num { l with tags := tags } (b!"ban-duration") d) := by
  obtain ⟨l', hl', _, R⟩ := represents_listed hu hlen h hm
  cases hl.symm.trans hl'
  have P := (((ReturnsExactly.of (clearChat_exactly R)).2 p).1 hp).2
  have ht : Line.text { l with tags := tags } = some user := htext
  exact ⟨(timeout_of ht P).1, (timeout_of ht P).2, ban_of ht P⟩

example := C84_listed_partial ⟨.scalar, true⟩ sampleTimeout (utf8_of sampleTimeout_ok) (within_of sampleTimeout_ok).len _
  (given_eq _ (by decide +kernel)) _ (got_eq _ (by decide +kernel)) _ (line_eq _ sampleTimeout_line) (b!"bob")
  (by decide +kernel) _ (given_eq _ (by decide +kernel))

theorem message_listed {m : MsgRef} {l : Line} (R : Represents m l) {M : Message}
    (h : Message.fromIrc m = .ok (some M))
    (hM : commandOfMessage M ≠ none ∧ commandOfMessage M ≠ some (b!"ROOMSTATE")) : MessageOf l M := by
  have hd := (dispatch_of R.command).1 M h
  refine (((fromIrc_exactly R fun hc => ?_).2 M).1 h).1
  cases hcm : commandOfMessage M with
  | none => exact absurd hcm hM.1
  | some c =>
    rw [hcm] at hd
    simp only at hd
    rw [hcm, ← hd, hc] at hM
    exact absurd rfl hM.2

/-- C85 for whatever tags the message lists. -/
theorem C85_listed_partial (b : Build) (s : Bytes) (hu : Utf8 s) (hlen : s.length < 4294967296) (m : MsgRef)
    (h : MsgRef.parse b s = .ok (some m)) (tags : List (Bytes × Bytes)) (hm : m.tags = .ok tags) (M : Message)
    (hp : Message.fromIrc m = .ok (some M)) (sets : List Bytes) (hs : emoteSetList M = some sets) :
    (lookup (b!"emote-sets") tags = none ↔ sets = []) ∧
    (∀ names, names ≠ [] → (∀ n ∈ names, COMMA ∉ n) → lookup (b!"emote-sets") tags = some (joinWith COMMA names) →
      sets = names) ∧
    (lookup (b!"emote-sets") tags = some [] → sets = [[]]) := by
  obtain ⟨l, _, _, R⟩ := represents_listed hu hlen h hm
  have key := emote_sets_from (message_listed R hp) hs
  exact ⟨(sets_empty key).2.symm, (sets_of key).2, (sets_empty key).1⟩

example := C85_listed_partial ⟨.scalar, true⟩ sampleUserState (utf8_of sampleUserState_ok)
  (within_of sampleUserState_ok).len _ (given_eq _ (by decide +kernel)) _ (got_eq _ (by decide +kernel))
  (.userState ⟨b!"#c", b!"A\\sB", [.moderator], [b!"0", b!"33"], some (b!"#fff")⟩) (by decide +kernel) _ rfl

/-- C86 for whatever tags the message lists. -/
theorem C86_listed_partial (b : Build) (s : Bytes) (hu : Utf8 s) (hlen : s.length < 4294967296) (m : MsgRef)
    (h : MsgRef.parse b s = .ok (some m)) (tags : List (Bytes × Bytes)) (hm : m.tags = .ok tags) (M : Message)
    (hp : Message.fromIrc m = .ok (some M)) (bs : List Badge) (hs : badgeList M = some bs) :
    (lookup (b!"badge-info") tags = none → bs = []) ∧
    ∀ info, lookup (b!"badge-info") tags = some info →
      (lookup (b!"badges") tags = none → bs = []) ∧
      ∀ badges, lookup (b!"badges") tags = some badges → bs.map (·.toData.name) = (entries badges).map (·.1) := by
  obtain ⟨l, _, _, R⟩ := represents_listed hu hlen h hm
  have key := badges_from (message_listed R hp) hs
  exact ⟨fun hi => key.absent (.inr hi), fun info hi => badge_names key hi⟩

example := C86_listed_partial ⟨.scalar, true⟩ sampleUserState (utf8_of sampleUserState_ok)
  (within_of sampleUserState_ok).len _ (given_eq _ (by decide +kernel)) _ (got_eq _ (by decide +kernel))
  (.userState ⟨b!"#c", b!"A\\sB", [.moderator], [b!"0", b!"33"], some (b!"#fff")⟩) (by decide +kernel) _ rfl

end Tmi.Props
