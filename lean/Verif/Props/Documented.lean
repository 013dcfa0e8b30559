/-
Properties C82 to C86: what the documentation of the message types promises, and where it does not hold.
-/
import Verif.Props.Unescape
import Verif.Spec.Documented
import Verif.Proofs.Rebuild
import Verif.Proofs.CommandLine

namespace Tmi.Props
open Tmi.Model Tmi.Spec Tmi.Proofs

/-- A line with the given tags and command. -/
def taggedLine (tags : List (Bytes × Bytes)) (command rest : Bytes) : Bytes :=
  AT :: (renderTags tags ++ SP :: (command ++ SP :: rest))

theorem line_of_taggedLine (tags : List (Bytes × Bytes)) (c rest : Bytes)
    (h : ∀ p ∈ tags, (EQS ∉ p.1 ∧ SEMI ∉ p.2) ∧ SP ∉ p.1 ∧ SP ∉ p.2) (hc : SP ∉ c) (h0 : c ≠ [])
    (h2 : c.head? ≠ some COLON) :
    line (taggedLine tags c rest) = some
      { tags := tags, prefix? := none, command := c, channel := (takeChannel rest).1,
        params := if (takeChannel rest).2 = [] then none else some (takeChannel rest).2 } := by
  unfold taggedLine
  rw [line_tagged (renderTags_no_space _ fun p hp => (h p hp).2) hc h0 h2,
    splitTags_render _ fun p hp => (h p hp).1]

/-! ## C82: who sent a USERNOTICE -/

theorem sender_known {l : Line} {p : UserNotice} (h : UserNoticeOf l p) :
    (p.eventId ≠ b!"anongiftpaidupgrade" → p.eventId ∈ eventIds → p.sender = none → Anonymous l) ∧
    (p.eventId ∈ [b!"subgift", b!"anonsubgift", b!"submysterygift", b!"anonsubmysterygift"] →
      (p.sender = none ↔ Anonymous l)) := by
  have hs := (sender_of h).1
  have hid := h.eventId
  unfold Anonymous
  rw [hs, hid]
  simp only [Option.some.injEq]
  constructor
  · intro h1 h2
    rintro (h | h | h)
    · simp only [List.mem_cons, List.not_mem_nil, or_false] at h
      rcases h with h | h | h
      · exact .inl h
      · exact .inr (.inl h)
      · exact absurd h h1
    · exact .inr (.inr h.2)
    · exact absurd h2 h
  · intro h1
    simp only [List.mem_cons, List.not_mem_nil, or_false] at h1
    rcases h1 with h1 | h1 | h1 | h1 <;> rw [h1]
    · constructor
      · rintro (h | h | h)
        · exact absurd h (by decide)
        · exact .inr (.inr h.2)
        · exact absurd (by decide) h
      · rintro (h | h | h)
        · exact absurd h (by decide)
        · exact absurd h (by decide)
        · exact .inr (.inl ⟨by decide, h⟩)
    · exact ⟨fun _ => .inl rfl, fun _ => .inl (by decide)⟩
    · constructor
      · rintro (h | h | h)
        · exact absurd h (by decide)
        · exact .inr (.inr h.2)
        · exact absurd (by decide) h
      · rintro (h | h | h)
        · exact absurd h (by decide)
        · exact absurd h (by decide)
        · exact .inr (.inl ⟨by decide, h⟩)
    · exact ⟨fun _ => .inr (.inl rfl), fun _ => .inl (by decide)⟩

/-- C82: the sender of a USERNOTICE is missing only if they are anonymous, apart from `anongiftpaidupgrade` (where it is
the gifter who is anonymous) and events the library does not know; and the sender of an anonymous gift is missing. -/
theorem C82_sender_partial (b : Build) (s : Bytes) (hu : Utf8 s) (hw : Within s) (ht : TagsTerminated b s)
    (l : Line) (hl : line s = some l) (p : UserNotice)
    (h : parseAs UserNotice.parse b s = .ok (some p)) :
    (p.eventId ≠ b!"anongiftpaidupgrade" → p.eventId ∈ eventIds → p.sender = none → Anonymous l) ∧
    (p.eventId ∈ [b!"subgift", b!"anonsubgift", b!"submysterygift", b!"anonsubmysterygift"] →
      (p.sender = none ↔ Anonymous l)) := by
  obtain ⟨l', hl', _, h⟩ := ((C29_user_notice b s hu hw ht).2 p).1 h
  rw [hl] at hl'; simp at hl'; subst hl'
  exact sender_known h

example := C82_sender_partial ⟨.scalar, true⟩ sampleGift (utf8_of sampleGift_ok) (within_of sampleGift_ok) (terminated_of sampleGift_ok _)
  _ (line_eq _ sampleGift_line) _ (given_eq _ sampleGift_parsed)

/-- C82, where it fails: the sender of an `anongiftpaidupgrade`, or of an event the library does not know, is always
missing, whatever the line says about them. -/
theorem C82_dropped (b : Build) (s : Bytes) (hu : Utf8 s) (hw : Within s) (ht : TagsTerminated b s)
    (p : UserNotice) (h : parseAs UserNotice.parse b s = .ok (some p))
    (he : p.eventId = b!"anongiftpaidupgrade" ∨ p.eventId ∉ eventIds) : p.sender = none := by
  obtain ⟨l, hl, _⟩ := ((C29_user_notice b s hu hw ht).2 p).1 h
  refine (C29_sender b s hu hw ht l hl p h).1.2 ?_
  rcases he with he | he
  · left; rw [he]; decide
  · exact .inr (.inr he)

example := C82_dropped ⟨.scalar, true⟩ sampleUnknown (utf8_of sampleUnknown_ok) (within_of sampleUnknown_ok)
  (terminated_of sampleUnknown_ok _) _ (given_eq _ sampleUnknown_parsed) (.inr (by decide +kernel))

/-- A USERNOTICE with the given `msg-id` by a user who is not anonymous. -/
def noticeTags (id : Bytes) : List (Bytes × Bytes) :=
  [(b!"display-name", b!"Bob"), (b!"id", b!"i"), (b!"login", b!"bob"), (b!"msg-id", id), (b!"room-id", b!"1"),
   (b!"tmi-sent-ts", b!"1"), (b!"user-id", b!"2")]

/-- C82 is false: the senders of an `anongiftpaidupgrade` and of a `viewermilestone` are not anonymous, their id, login
and name are there, and they are missing from the message. -/
theorem C82_negation : ∀ id ∈ [b!"anongiftpaidupgrade", b!"viewermilestone"],
    ∃ l, line (taggedLine (noticeTags id) (b!"USERNOTICE") (b!"#c")) = some l ∧ ¬ Anonymous l ∧
      l.tag (b!"user-id") = some (b!"2") ∧ l.tag (b!"login") = some (b!"bob") ∧
      l.tag (b!"display-name") = some (b!"Bob") ∧
      (parseAs UserNotice.parse ⟨.scalar, true⟩ (taggedLine (noticeTags id) (b!"USERNOTICE") (b!"#c"))).map
        (·.map (·.sender)) = .ok (some none) := by
  intro id hid
  refine ⟨_, line_of_taggedLine _ _ _ ?_ (by decide) (by decide) (by decide), ?_⟩
  all_goals simp only [List.mem_cons, List.not_mem_nil, or_false] at hid
  all_goals rcases hid with rfl | rfl
  · decide +kernel
  · decide +kernel
  · unfold Anonymous; decide +kernel
  · unfold Anonymous; decide +kernel

/-- Non-vacuity of `C82_sender_partial`: a raid, and a gift by the anonymous user. -/
example : (parseAs UserNotice.parse ⟨.scalar, true⟩
    (b!"@display-name=Bob;id=i;login=bob;msg-id=raid;msg-param-viewerCount=2;msg-param-profileImageURL=u;room-id=1;tmi-sent-ts=1;user-id=2 USERNOTICE #c")).map
      (·.map (·.sender)) = .ok (some (some ⟨b!"2", b!"bob", b!"Bob"⟩)) := by decide +kernel
example : (parseAs UserNotice.parse ⟨.scalar, true⟩
    (b!"@display-name=AnAnonymousGifter;id=i;login=a;msg-id=submysterygift;msg-param-mass-gift-count=2;msg-param-sub-plan=1000;room-id=1;tmi-sent-ts=1;user-id=274598607 USERNOTICE #c")).map
      (·.map (·.sender)) = .ok (some none) := by decide +kernel

/-! ## C83: names and promotions -/

theorem escape_length_le : ∀ t : List Char, t.length ≤ (escape t).length
  | [] => Nat.zero_le _
  | c :: t => by
    have e : escape (c :: t) = escapeChar c ++ escape t := rfl
    have := escape_length_le t
    have : 1 ≤ (escapeChar c).length := by unfold escapeChar; repeat' split
                                           all_goals simp
    rw [e]; simp; omega

/-- Escaping leaves exactly the plain texts as they are. -/
theorem escape_eq_iff : ∀ t : List Char, escape t = t ↔ ∀ c ∈ t, Plain c
  | [] => by simp [escape]
  | c :: t => by
    have e : escape (c :: t) = escapeChar c ++ escape t := rfl
    have ih := escape_eq_iff t
    have hl := escape_length_le t
    rw [e, List.forall_mem_cons, ← ih]
    unfold Plain
    constructor
    · intro h
      unfold escapeChar at h
      have len : ∀ a b : Char, [a, b] ++ escape t ≠ c :: t := by
        intro a b h
        have := congrArg List.length h
        simp at this
        omega
      by_cases h1 : c = ';'
      · rw [if_pos h1] at h; exact absurd h (len _ _)
      rw [if_neg h1] at h
      by_cases h2 : c = ' '
      · rw [if_pos h2] at h; exact absurd h (len _ _)
      rw [if_neg h2] at h
      by_cases h3 : c = '\\'
      · rw [if_pos h3] at h; exact absurd h (len _ _)
      rw [if_neg h3] at h
      by_cases h4 : c = '\r'
      · rw [if_pos h4] at h; exact absurd h (len _ _)
      rw [if_neg h4] at h
      by_cases h5 : c = '\n'
      · rw [if_pos h5] at h; exact absurd h (len _ _)
      rw [if_neg h5] at h
      by_cases h6 : c = ','
      · rw [if_pos h6, h6] at h
        exact absurd (List.cons.inj h).1 (by decide)
      rw [if_neg h6] at h
      exact ⟨⟨h1, h2, h3, h4, h5, h6⟩, (List.cons.inj h).2⟩
    · rintro ⟨⟨h1, h2, h3, h4, h5, h6⟩, h⟩
      unfold escapeChar
      rw [if_neg h1, if_neg h2, if_neg h3, if_neg h4, if_neg h5, if_neg h6, h]
      rfl

theorem gives_plain {o : Option Bytes} {v : Bytes} (h : o = some v) : GivesPlain o v := by
  intro t ht
  rw [h] at ht
  simp only [Option.some.injEq] at ht
  rw [ht, ← escape_eq_iff]
  exact ⟨fun h => enc_injective h, fun h => by rw [h]⟩

theorem upgrade_names {l : Line} {p : UserNotice} (h : UserNoticeOf l p) :
    (∀ login name promo, p.event = .giftPaidUpgrade login name promo →
      l.tag (b!"msg-param-sender-name") = some name ∧
      ∀ q, promo = some q → l.tag (b!"msg-param-promo-name") = some q.promoName) ∧
    (∀ promo, p.event = .anonGiftPaidUpgrade promo →
      ∀ q, promo = some q → l.tag (b!"msg-param-promo-name") = some q.promoName) := by
  obtain ⟨anon, he, _⟩ := h.event
  refine ⟨fun login name promo hev => ?_, fun promo hev => ?_⟩
  · rw [hev] at he
    generalize p.eventId = id at he
    cases he with
    | giftPaidUpgrade h1 h2 h3 => exact ⟨h2, fun q hq => ((h3 q).1 hq).2⟩
  · rw [hev] at he
    generalize p.eventId = id at he
    cases he with
    | anonGiftPaidUpgrade h3 => exact fun q hq => ((h3 q).1 hq).2

/-- C83: the name of the promotion and of the gifter in a gift upgrade, and the name in a USERSTATE, are what Twitch was
told exactly if that needs no escaping. -/
theorem C83_names_partial (b : Build) (s : Bytes) (hu : Utf8 s) (hw : Within s) (ht : TagsTerminated b s)
    (l : Line) (hl : line s = some l) :
    (∀ p, parseAs UserNotice.parse b s = .ok (some p) →
      (∀ login name promo, p.event = .giftPaidUpgrade login name promo →
        GivesPlain (l.tag (b!"msg-param-sender-name")) name ∧
        ∀ q, promo = some q → GivesPlain (l.tag (b!"msg-param-promo-name")) q.promoName) ∧
      (∀ promo, p.event = .anonGiftPaidUpgrade promo →
        ∀ q, promo = some q → GivesPlain (l.tag (b!"msg-param-promo-name")) q.promoName)) ∧
    (∀ p, parseAs UserState.parse b s = .ok (some p) → GivesPlain (l.tag (b!"display-name")) p.userName) := by
  refine ⟨fun p h => ?_, fun p h => ?_⟩
  · obtain ⟨l', hl', _, h⟩ := ((C29_user_notice b s hu hw ht).2 p).1 h
    rw [hl] at hl'; simp at hl'; subst hl'
    obtain ⟨anon, he, _⟩ := h.event
    refine ⟨fun login name promo hev => ?_, fun promo hev => ?_⟩
    · rw [hev] at he
      generalize p.eventId = id at he
      cases he with
      | giftPaidUpgrade h1 h2 h3 => exact ⟨gives_plain h2, fun q hq => gives_plain ((h3 q).1 hq).2⟩
    · rw [hev] at he
      generalize p.eventId = id at he
      cases he with
      | anonGiftPaidUpgrade h3 => exact fun q hq => gives_plain ((h3 q).1 hq).2
  · obtain ⟨l', hl', _, h⟩ := ((C31_user_state b s hu hw ht).2 p).1 h
    rw [hl] at hl'; simp at hl'; subst hl'
    exact gives_plain h.userName

example := C83_names_partial ⟨.scalar, true⟩ sampleUpgrade (utf8_of sampleUpgrade_ok) (within_of sampleUpgrade_ok) (terminated_of sampleUpgrade_ok _)
  _ (line_eq _ sampleUpgrade_line)

/-- Tag values contain no space. -/
theorem line_tag_no_space {s : Bytes} {l : Line} (hl : line s = some l) {k v : Bytes} (h : l.tag k = some v) :
    SP ∉ v := by
  have hm := lookup_mem h
  have ht : l.tags = tagPairs s := by
    unfold line at hl
    simp only [] at hl
    split at hl
    · simp at hl
    · simp only [Option.some.injEq] at hl
      rw [← hl]; rfl
  rw [ht] at hm
  unfold tagPairs at hm
  cases hc : (takeTags s).1 with
  | none => rw [hc] at hm; simp at hm
  | some t =>
    rw [hc] at hm
    have hsp : SP ∉ t := by
      unfold takeTags at hc
      split at hc
      · split at hc
        · split at hc
          · rename_i hcut
            simp only [Option.some.injEq] at hc
            rw [← hc]
            exact (cut_eq_some hcut).2
          · simp at hc
        · simp at hc
      · simp at hc
    exact fun hx => hsp ((splitTags_mem _ t (Nat.le_refl _) _ hm).2.2.2 hx)

/-- C83, where it fails: none of them ever contains a space, so a promotion is never called "Subtember 2018", the example
in the documentation. -/
theorem C83_no_space (b : Build) (s : Bytes) (hu : Utf8 s) (hw : Within s) (ht : TagsTerminated b s) :
    (∀ p, parseAs UserNotice.parse b s = .ok (some p) →
      (∀ login name promo, p.event = .giftPaidUpgrade login name promo →
        SP ∉ name ∧ ∀ q, promo = some q → SP ∉ q.promoName) ∧
      (∀ promo, p.event = .anonGiftPaidUpgrade promo → ∀ q, promo = some q → SP ∉ q.promoName)) ∧
    (∀ p, parseAs UserState.parse b s = .ok (some p) → SP ∉ p.userName) := by
  refine ⟨fun p h => ?_, fun p h => ?_⟩
  · obtain ⟨l, hl, _, h⟩ := ((C29_user_notice b s hu hw ht).2 p).1 h
    obtain ⟨anon, he, _⟩ := h.event
    refine ⟨fun login name promo hev => ?_, fun promo hev => ?_⟩
    · rw [hev] at he
      generalize p.eventId = id at he
      cases he with
      | giftPaidUpgrade h1 h2 h3 =>
        exact ⟨line_tag_no_space hl h2, fun q hq => line_tag_no_space hl ((h3 q).1 hq).2⟩
    · rw [hev] at he
      generalize p.eventId = id at he
      cases he with
      | anonGiftPaidUpgrade h3 => exact fun q hq => line_tag_no_space hl ((h3 q).1 hq).2
  · obtain ⟨l, hl, _, h⟩ := ((C31_user_state b s hu hw ht).2 p).1 h
    exact line_tag_no_space hl h.userName

example := C83_no_space ⟨.scalar, true⟩ sampleUpgrade (utf8_of sampleUpgrade_ok) (within_of sampleUpgrade_ok) (terminated_of sampleUpgrade_ok _)

/-- The tags of an upgrade of a gift by "a b" in the promotion "Subtember 2018". -/
def promoTags : List (Bytes × Bytes) :=
  [(b!"display-name", b!"Bob"), (b!"id", b!"i"), (b!"login", b!"bob"), (b!"msg-id", b!"giftpaidupgrade"),
   (b!"msg-param-promo-gift-total", b!"4"), (b!"msg-param-promo-name", enc (escape "Subtember 2018".toList)),
   (b!"msg-param-sender-login", b!"ab"), (b!"msg-param-sender-name", enc (escape "a b".toList)),
   (b!"room-id", b!"1"), (b!"tmi-sent-ts", b!"1"), (b!"user-id", b!"2")]

/-- C83 is false: the name of a promotion, and that of a gifter, come back escaped. -/
theorem C83_negation : (parseAs UserNotice.parse ⟨.scalar, true⟩ (taggedLine promoTags (b!"USERNOTICE") (b!"#c"))).map
    (·.map (·.event)) =
      .ok (some (.giftPaidUpgrade (b!"ab") (b!"a\\sb") (some ⟨4, b!"Subtember\\s2018"⟩))) := by decide +kernel

/-- Non-vacuity of C83: the line of `C83_negation` has these tags, and a text that needs no escaping. -/
example : ∃ l, line (taggedLine promoTags (b!"USERNOTICE") (b!"#c")) = some l ∧
    l.tag (b!"msg-param-promo-name") = some (enc (escape "Subtember 2018".toList)) :=
  ⟨_, line_of_taggedLine _ _ _ (by decide +kernel) (by decide) (by decide) (by decide), by decide +kernel⟩
example : ∀ c ∈ "Subtember2018⸝".toList, Plain c := by unfold Plain; decide

/-! ## C84: timeouts and bans -/

theorem timeout_of {l : Line} {user : Bytes} (htext : l.text = some user) {p : ClearChat} (h : ClearChatOf l p) :
    (∀ d, l.num (b!"ban-duration") d → ∃ id, p.action = .timeOut user id (d * 1000000000)) ∧
    (l.tag (b!"ban-duration") = none → ∃ id, p.action = .ban user id) := by
  have ha := h.action
  cases hp : p.action with
  | clear => rw [hp] at ha; simp only at ha; rw [htext] at ha; simp at ha
  | ban u i =>
    rw [hp] at ha; simp only at ha
    rw [htext] at ha
    obtain ⟨h1, h2, h3⟩ := ha
    simp only [Option.some.injEq] at h1
    refine ⟨fun d ⟨v, hv, hn, hd⟩ => ?_, fun _ => ⟨i, by rw [h1]⟩⟩
    exact absurd ((h3 _).2 ⟨v, d, hv, hn, hd, rfl⟩) (by simp)
  | timeOut u i d' =>
    rw [hp] at ha; simp only at ha
    rw [htext] at ha
    obtain ⟨h1, h2, h3⟩ := ha
    simp only [Option.some.injEq] at h1
    refine ⟨fun d ⟨v, hv, hn, hd⟩ => ?_, fun hno => ?_⟩
    · have := (h3 _).2 ⟨v, d, hv, hn, hd, rfl⟩
      simp only [Option.some.injEq] at this
      exact ⟨i, by rw [h1, this]⟩
    · obtain ⟨v, n, hv, _⟩ := (h3 d').1 rfl
      rw [hno] at hv; simp at hv

/-- C84: a CLEARCHAT that names a user and whose `ban-duration` is a number (below 2^64) is a timeout of that many
seconds, and one without `ban-duration` is a ban. -/
theorem C84_timeout_partial (b : Build) (s : Bytes) (hu : Utf8 s) (hw : Within s) (ht : TagsTerminated b s)
    (l : Line) (hl : line s = some l) (user : Bytes) (htext : l.text = some user) (p : ClearChat)
    (h : parseAs ClearChat.parse b s = .ok (some p)) :
    (∀ d, l.num (b!"ban-duration") d → ∃ id, p.action = .timeOut user id (d * 1000000000)) ∧
    (l.tag (b!"ban-duration") = none → ∃ id, p.action = .ban user id) := by
  obtain ⟨l', hl', _, h⟩ := ((C28_clear_chat b s hu hw ht).2 p).1 h
  rw [hl] at hl'; simp at hl'; subst hl'
  exact timeout_of htext h

example := C84_timeout_partial ⟨.scalar, true⟩ sampleTimeout (utf8_of sampleTimeout_ok) (within_of sampleTimeout_ok) (terminated_of sampleTimeout_ok _)
  _ (line_eq _ sampleTimeout_line) (b!"bob") (by decide +kernel) _ (given_eq _ sampleTimeout_parsed)

theorem ban_of {l : Line} {user : Bytes} (htext : l.text = some user) {p : ClearChat} (h : ClearChatOf l p) :
    (∃ id, p.action = .ban user id) ↔ ¬ ∃ d, l.num (b!"ban-duration") d := by
  have hc := action_of h
  constructor
  · rintro ⟨id, hid⟩
    exact (hc.2.2.1.1 (by rw [hid]; rfl)).2
  · intro hn
    have := hc.2.2.1.2 ⟨by rw [htext]; simp, hn⟩
    have htar := hc.2.2.2
    rw [htext] at htar
    unfold ClearChat.target at htar
    cases hp : p.action with
    | clear => rw [hp] at this; simp [Action.isBan] at this
    | timeOut u i d => rw [hp] at this; simp [Action.isBan] at this
    | ban u i =>
      rw [hp] at htar
      simp at htar
      exact ⟨i, by rw [htar]⟩

/-- C84, exactly: with a `ban-duration` that is not a number below 2^64, a CLEARCHAT that names a user is a (permanent)
ban. -/
theorem C84_ban (b : Build) (s : Bytes) (hu : Utf8 s) (hw : Within s) (ht : TagsTerminated b s)
    (l : Line) (hl : line s = some l) (user : Bytes) (htext : l.text = some user) (p : ClearChat)
    (h : parseAs ClearChat.parse b s = .ok (some p)) :
    (∃ id, p.action = .ban user id) ↔ ¬ ∃ d, l.num (b!"ban-duration") d := by
  obtain ⟨l', hl', _, h⟩ := ((C28_clear_chat b s hu hw ht).2 p).1 h
  rw [hl] at hl'; simp at hl'; subst hl'
  exact ban_of htext h

example := C84_ban ⟨.scalar, true⟩ sampleTimeout (utf8_of sampleTimeout_ok) (within_of sampleTimeout_ok) (terminated_of sampleTimeout_ok _)
  _ (line_eq _ sampleTimeout_line) (b!"bob") (by decide +kernel) _ (given_eq _ sampleTimeout_parsed)

/-- The tags of a timeout of the given duration. -/
def timeoutTags (d : Bytes) : List (Bytes × Bytes) :=
  [(b!"ban-duration", d), (b!"room-id", b!"1"), (b!"target-user-id", b!"2"), (b!"tmi-sent-ts", b!"5")]

/-- C84 is false: a timeout whose duration is not written as a number is reported as a permanent ban. -/
theorem C84_negation : ∀ d ∈ [b!"10.5", b!"10s", b!"18446744073709551616", []],
    (∃ l, line (taggedLine (timeoutTags d) (b!"CLEARCHAT") (b!"#c :bob")) = some l ∧ l.tag (b!"ban-duration") = some d) ∧
    (parseAs ClearChat.parse ⟨.scalar, true⟩ (taggedLine (timeoutTags d) (b!"CLEARCHAT") (b!"#c :bob"))).map
      (·.map (·.action)) = .ok (some (.ban (b!"bob") (b!"2"))) := by
  intro d hd
  simp only [List.mem_cons, List.not_mem_nil, or_false] at hd
  rcases hd with rfl | rfl | rfl | rfl <;>
  exact ⟨⟨_, line_of_taggedLine _ _ _ (by decide +kernel) (by decide) (by decide) (by decide), rfl⟩, by decide +kernel⟩

/-- Non-vacuity of C84. -/
example : (parseAs ClearChat.parse ⟨.scalar, true⟩ (taggedLine (timeoutTags (b!"10")) (b!"CLEARCHAT") (b!"#c :bob"))).map
    (·.map (·.action)) = .ok (some (.timeOut (b!"bob") (b!"2") 10000000000)) := by decide +kernel

/-! ## C85: emote sets -/

theorem message_of (b : Build) (s : Bytes) (hu : Utf8 s) (hw : Within s) (ht : TagsTerminated b s)
    (l : Line) (hl : line s = some l) (M : Message) (h : Message.parse b s = .ok (some M))
    (hM : commandOfMessage M ≠ none ∧ commandOfMessage M ≠ some (b!"ROOMSTATE")) : MessageOf l M := by
  have hd := (C21_dispatch b s hu hw ht l hl).1 M h
  obtain ⟨l', hl', h, _⟩ := (C21_message b s hu hw ht (fun l' hl' hc => by
    rw [hl] at hl'
    simp only [Option.some.injEq] at hl'
    subst hl'
    cases hcm : commandOfMessage M with
    | none => exact absurd hcm hM.1
    | some c =>
      rw [hcm] at hd
      simp only at hd
      rw [hcm, ← hd, hc] at hM
      exact absurd rfl hM.2) M).1 h
  rw [hl] at hl'
  simp only [Option.some.injEq] at hl'
  rw [hl']; exact h

theorem emote_sets_from {l : Line} {M : Message}
    (key : commandOfMessage M ≠ none ∧ commandOfMessage M ≠ some (b!"ROOMSTATE") → MessageOf l M) {sets : List Bytes}
    (hs : emoteSetList M = some sets) : EmoteSetsOf l sets := by
  cases M with
  | globalUserState v =>
    simp only [emoteSetList, Option.some.injEq] at hs
    rw [← hs]; exact (key ⟨nofun, fun e => absurd (Option.some.inj e) (by decide)⟩).2.emoteSets
  | userState v =>
    simp only [emoteSetList, Option.some.injEq] at hs
    rw [← hs]; exact (key ⟨nofun, fun e => absurd (Option.some.inj e) (by decide)⟩).2.emoteSets
  | _ => simp [emoteSetList] at hs

theorem emote_sets_of (b : Build) (s : Bytes) (hu : Utf8 s) (hw : Within s) (ht : TagsTerminated b s)
    (l : Line) (hl : line s = some l) (M : Message) (h : Message.parse b s = .ok (some M)) (sets : List Bytes)
    (hs : emoteSetList M = some sets) : EmoteSetsOf l sets := by
  have key := message_of b s hu hw ht l hl M h
  exact emote_sets_from key hs

theorem sampleUserState_message : Message.parse ⟨.scalar, true⟩ sampleUserState =
    .ok (some (.userState ⟨b!"#c", b!"A\\sB", [.moderator], [b!"0", b!"33"], some (b!"#fff")⟩)) := by decide +kernel

theorem sets_of {l : Line} {sets : List Bytes} (key : EmoteSetsOf l sets) :
    (l.tag (b!"emote-sets") = none → sets = []) ∧
    ∀ names, names ≠ [] → (∀ n ∈ names, COMMA ∉ n) → l.tag (b!"emote-sets") = some (joinWith COMMA names) →
      sets = names := by
  unfold EmoteSetsOf at key
  constructor
  · intro hn; rw [hn] at key; exact key
  · intro names h1 h2 h3
    rw [h3] at key
    simp only at key
    rw [key, fields_joinWith COMMA names h1 h2]

/-- C85: any list of emote sets but the empty one is given back, and there is none without the tag. -/
theorem C85_sets_partial (b : Build) (s : Bytes) (hu : Utf8 s) (hw : Within s) (ht : TagsTerminated b s)
    (l : Line) (hl : line s = some l) (M : Message) (h : Message.parse b s = .ok (some M)) (sets : List Bytes)
    (hs : emoteSetList M = some sets) :
    (l.tag (b!"emote-sets") = none → sets = []) ∧
    ∀ names, names ≠ [] → (∀ n ∈ names, COMMA ∉ n) → l.tag (b!"emote-sets") = some (joinWith COMMA names) →
      sets = names := by
  exact sets_of (emote_sets_of b s hu hw ht l hl M h sets hs)

example := C85_sets_partial ⟨.scalar, true⟩ sampleUserState (utf8_of sampleUserState_ok) (within_of sampleUserState_ok) (terminated_of sampleUserState_ok _)
  _ (line_eq _ sampleUserState_line) _ sampleUserState_message _ rfl

theorem sets_empty {l : Line} {sets : List Bytes} (key : EmoteSetsOf l sets) :
    (l.tag (b!"emote-sets") = some [] → sets = [[]]) ∧ (sets = [] ↔ l.tag (b!"emote-sets") = none) := by
  unfold EmoteSetsOf at key
  cases ht : l.tag (b!"emote-sets") with
  | none => rw [ht] at key; simpa using key
  | some v =>
    rw [ht] at key
    simp only at key
    subst key
    refine ⟨fun e => ?_, ?_⟩
    · simp only [Option.some.injEq] at e
      rw [e, fields_none (by simp)]
    · simp [fields_ne_nil]

/-- C85, where it fails: with an empty tag there is one emote set, and its name is empty; there is never an empty list
when there is a tag. -/
theorem C85_empty (b : Build) (s : Bytes) (hu : Utf8 s) (hw : Within s) (ht : TagsTerminated b s)
    (l : Line) (hl : line s = some l) (M : Message) (h : Message.parse b s = .ok (some M)) (sets : List Bytes)
    (hs : emoteSetList M = some sets) :
    (l.tag (b!"emote-sets") = some [] → sets = [[]]) ∧ (sets = [] ↔ l.tag (b!"emote-sets") = none) := by
  exact sets_empty (emote_sets_of b s hu hw ht l hl M h sets hs)

example := C85_empty ⟨.scalar, true⟩ sampleUserState (utf8_of sampleUserState_ok) (within_of sampleUserState_ok) (terminated_of sampleUserState_ok _)
  _ (line_eq _ sampleUserState_line) _ sampleUserState_message _ rfl

/-- C85 is false: the list of no emote sets, joined with commas, does not come back. -/
theorem C85_negation : joinWith COMMA [] = [] ∧
    (parseAs UserState.parse ⟨.scalar, true⟩ (b!"@display-name=x;emote-sets= USERSTATE #c")).map (·.map (·.emoteSets))
      = .ok (some [[]]) := by decide +kernel

/-- Non-vacuity of C85. -/
example : (parseAs UserState.parse ⟨.scalar, true⟩ (b!"@display-name=x;emote-sets=0,33 USERSTATE #c")).map
    (·.map (·.emoteSets)) = .ok (some [b!"0", b!"33"]) ∧ joinWith COMMA [b!"0", b!"33"] = b!"0,33" := by decide +kernel

/-! ## C86: badges without badge-info -/

theorem badges_from {l : Line} {M : Message}
    (key : commandOfMessage M ≠ none ∧ commandOfMessage M ≠ some (b!"ROOMSTATE") → MessageOf l M) {bs : List Badge}
    (hs : badgeList M = some bs) : BadgesOf (l.tag (b!"badges")) (l.tag (b!"badge-info")) bs := by
  cases M with
  | globalUserState v =>
    simp only [badgeList, Option.some.injEq] at hs
    rw [← hs]; exact (key ⟨nofun, fun e => absurd (Option.some.inj e) (by decide)⟩).2.badges
  | userState v =>
    simp only [badgeList, Option.some.injEq] at hs
    rw [← hs]; exact (key ⟨nofun, fun e => absurd (Option.some.inj e) (by decide)⟩).2.badges
  | privmsg v =>
    simp only [badgeList, Option.some.injEq] at hs
    rw [← hs]; exact (key ⟨nofun, fun e => absurd (Option.some.inj e) (by decide)⟩).2.badges
  | userNotice v =>
    simp only [badgeList, Option.some.injEq] at hs
    rw [← hs]; exact (key ⟨nofun, fun e => absurd (Option.some.inj e) (by decide)⟩).2.badges
  | whisper v =>
    simp only [badgeList, Option.some.injEq] at hs
    rw [← hs]; exact (key ⟨nofun, fun e => absurd (Option.some.inj e) (by decide)⟩).2.badges
  | _ => simp [badgeList] at hs

theorem badges_of (b : Build) (s : Bytes) (hu : Utf8 s) (hw : Within s) (ht : TagsTerminated b s)
    (l : Line) (hl : line s = some l) (M : Message) (h : Message.parse b s = .ok (some M)) (bs : List Badge)
    (hs : badgeList M = some bs) : BadgesOf (l.tag (b!"badges")) (l.tag (b!"badge-info")) bs := by
  have key := message_of b s hu hw ht l hl M h
  exact badges_from key hs

theorem badge_names {l : Line} {bs : List Badge} (key : BadgesOf (l.tag (b!"badges")) (l.tag (b!"badge-info")) bs)
    {info : Bytes} (hi : l.tag (b!"badge-info") = some info) :
    (l.tag (b!"badges") = none → bs = []) ∧
    ∀ badges, l.tag (b!"badges") = some badges → bs.map (·.toData.name) = (entries badges).map (·.1) := by
  rw [hi] at key
  refine ⟨fun hn => key.absent (.inl hn), fun badges hb => ?_⟩
  rw [hb] at key
  rw [(C26_badges badges info).2 bs key, parseBadges_eq, List.map_map]
  apply List.map_congr_left
  intro nv _
  exact (C27_badge_roundtrip ⟨nv.1, nv.2, lookup nv.1 (entries info)⟩).2

/-- C86: whatever the `badge-info` tag says, if it is there, the badges of a message are those in its `badges` tag, by
name and in order. -/
theorem C86_names_partial (b : Build) (s : Bytes) (hu : Utf8 s) (hw : Within s) (ht : TagsTerminated b s)
    (l : Line) (hl : line s = some l) (M : Message) (h : Message.parse b s = .ok (some M)) (bs : List Badge)
    (hs : badgeList M = some bs) (info : Bytes) (hi : l.tag (b!"badge-info") = some info) :
    (l.tag (b!"badges") = none → bs = []) ∧
    ∀ badges, l.tag (b!"badges") = some badges → bs.map (·.toData.name) = (entries badges).map (·.1) := by
  exact badge_names (badges_of b s hu hw ht l hl M h bs hs) hi

example := C86_names_partial ⟨.scalar, true⟩ sampleUserState (utf8_of sampleUserState_ok) (within_of sampleUserState_ok) (terminated_of sampleUserState_ok _)
  _ (line_eq _ sampleUserState_line) _ sampleUserState_message _ rfl [] (by decide +kernel)

/-- C86, where it fails: without a `badge-info` tag, a message has no badges. -/
theorem C86_lost (b : Build) (s : Bytes) (hu : Utf8 s) (hw : Within s) (ht : TagsTerminated b s)
    (l : Line) (hl : line s = some l) (M : Message) (h : Message.parse b s = .ok (some M)) (bs : List Badge)
    (hs : badgeList M = some bs) (hi : l.tag (b!"badge-info") = none) : bs = [] :=
  (badges_of b s hu hw ht l hl M h bs hs).absent (.inr hi)

example := C86_lost ⟨.scalar, true⟩ (b!"@badges=vip/1;display-name=x USERSTATE #c") (utf8_of (by decide +kernel))
  (within_of (by decide +kernel)) (terminated_of (by decide +kernel) _) _ (line_eq _ (by decide +kernel))
  (.userState ⟨b!"#c", b!"x", [], [], none⟩) (by decide +kernel) [] rfl (by decide +kernel)

/-- C86 is false: a moderator without `badge-info` is not seen to be one. -/
theorem C86_negation :
    (parseAs UserState.parse ⟨.scalar, true⟩ (b!"@badges=moderator/1;display-name=x USERSTATE #c")).map
      (·.map (·.badges)) = .ok (some []) ∧
    (parseAs UserState.parse ⟨.scalar, true⟩ (b!"@badge-info=;badges=moderator/1;display-name=x USERSTATE #c")).map
      (·.map (·.badges)) = .ok (some [.moderator]) := by decide +kernel

end Tmi.Props
