/-
Property C57: the getters that unescape.
-/
import Verif.Props.Escape
import Verif.Props.Msg
import Verif.Spec.Unescape

namespace Tmi.Props
open Tmi.Model Tmi.Spec Tmi.Proofs

/-! ### Lemmas -/

theorem escape_append (a b : List Char) : escape (a ++ b) = escape a ++ escape b := by
  unfold escape; rw [List.flatMap_append]

theorem escapeChar_plain {c : Char} (h : c ∉ special) : escapeChar c = [if c = ',' then '⸝' else c] := by
  simp only [special, List.mem_cons, List.not_mem_nil, or_false, not_or] at h
  obtain ⟨h1, h2, h3, h4, h5⟩ := h
  unfold escapeChar
  rw [if_neg h1, if_neg h2, if_neg h3, if_neg h4, if_neg h5]
  by_cases h : c = ',' <;> simp [h]

theorem escape_plain : ∀ (p : List Char), (∀ c ∈ p, c ∉ special) →
    escape p = p.map fun c => if c = ',' then '⸝' else c
  | [], _ => rfl
  | c :: p, h => by
    have e : escape (c :: p) = escapeChar c ++ escape p := rfl
    rw [e, escapeChar_plain (h c List.mem_cons_self), escape_plain p fun x hx => h x (List.mem_cons_of_mem _ hx)]
    rfl

theorem escape_special {r : List Char} (h : r = [] ∨ ∃ c r', r = c :: r' ∧ c ∈ special) :
    escape r = [] ∨ ∃ t, escape r = '\\' :: t := by
  rcases h with rfl | ⟨c, r', rfl, hc⟩
  · exact .inl rfl
  · right
    have e : escape (c :: r') = escapeChar c ++ escape r' := rfl
    rw [e]
    simp only [special, List.mem_cons, List.not_mem_nil, or_false] at hc
    rcases hc with rfl | rfl | rfl | rfl | rfl <;> exact ⟨_, rfl⟩

theorem backslash_plain {p : List Char} (h : ∀ c ∈ p, c ∉ special) :
    '\\' ∉ p.map fun c => if c = ',' then '⸝' else c := by
  intro hm
  obtain ⟨c, hc, he⟩ := List.mem_map.1 hm
  by_cases h' : c = ','
  · rw [if_pos h'] at he; exact absurd he (by decide)
  · rw [if_neg h'] at he
    exact h c hc (by rw [he]; decide)

theorem split_special : ∀ t : List Char, ∃ p r, t = p ++ r ∧ (∀ c ∈ p, c ∉ special) ∧
    (r = [] ∨ ∃ c r', r = c :: r' ∧ c ∈ special)
  | [] => ⟨[], [], rfl, by simp, .inl rfl⟩
  | c :: t => by
    by_cases h : c ∈ special
    · exact ⟨[], c :: t, rfl, by simp, .inr ⟨c, t, rfl, h⟩⟩
    · obtain ⟨p, r, e, h1, h2⟩ := split_special t
      refine ⟨c :: p, r, by rw [e]; rfl, fun x hx => ?_, h2⟩
      rcases List.mem_cons.1 hx with rfl | hx
      · exact h
      · exact h1 x hx

theorem maybeUnescape_escape {p r : List Char} (hp : ∀ c ∈ p, c ∉ special)
    (hr : r = [] ∨ ∃ c r', r = c :: r' ∧ c ∈ special) :
    maybeUnescape (enc (escape (p ++ r))) =
      .ok (enc (p.map (fun c => if c = ',' then '⸝' else c) ++ r.map fun c => if c = '⸝' then ',' else c)) := by
  have hd : r.map (fun c => if c = '⸝' then ',' else c) = r.map deComma := by
    apply List.map_congr_left
    intro c _
    rfl
  rw [hd, escape_append, escape_plain p hp, ← unescapeGo_escape]
  rcases escape_special hr with h | ⟨t, h⟩
  · rw [h]
    have : unescapeGo [] false = [] := rfl
    rw [this, List.append_nil]
    exact maybeUnescape_none _ (backslash_plain hp)
  · rw [h]
    exact maybeUnescape_split _ t (backslash_plain hp)

theorem lookup_mem {k v : Bytes} : ∀ {l : List (Bytes × Bytes)}, lookup k l = some v → (k, v) ∈ l
  | [], h => by simp [lookup] at h
  | (k', v') :: l, h => by
    unfold lookup at h
    by_cases hk : k' = k
    · rw [if_pos hk] at h
      simp only [Option.some.injEq] at h
      subst hk; subst h
      exact List.mem_cons_self
    · rw [if_neg hk] at h
      exact List.mem_cons_of_mem _ (lookup_mem h)

theorem splitTags_utf8 : ∀ (n : Nat) (s : Bytes), s.length ≤ n → Utf8 s → ∀ kv ∈ splitTags s, Utf8 kv.2 := by
  intro n
  induction n with
  | zero =>
    intro s hs _ kv hkv
    rw [List.length_eq_zero_iff.1 (Nat.le_zero.1 hs), splitTags_nil] at hkv
    simp at hkv
  | succ n ih =>
    intro s hs hu kv hkv
    rw [splitTags] at hkv
    split at hkv
    · simp at hkv
    · rename_i k r hc
      have hl := cut_length hc
      obtain ⟨rfl, _⟩ := cut_eq_some hc
      have hur : Utf8 r := Utf8.right (x := EQS) (by decide) hu
      split at hkv
      · simp only [List.mem_singleton] at hkv
        rw [hkv]; exact hur
      · rename_i v r' hc'
        have hl' := cut_length hc'
        obtain ⟨rfl, _⟩ := cut_eq_some hc'
        rcases List.mem_cons.1 hkv with rfl | hkv
        · exact Utf8.left (x := SEMI) (by decide) hur
        · exact ih r' (by omega) (Utf8.right (x := SEMI) (by decide) hur) kv hkv

/-- Tag values are strings. -/
theorem line_tag_utf8 {s : Bytes} (hu : Utf8 s) {l : Line} (hl : line s = some l) {k v : Bytes}
    (h : l.tag k = some v) : Utf8 v := by
  have hm := lookup_mem h
  have ht : l.tags = tagPairs s := by
    unfold line at hl
    simp only [] at hl
    split at hl
    · simp at hl
    · simp only [Option.some.injEq] at hl
      rw [← hl]; rfl
  rw [ht] at hm
  unfold tagPairs at hm
  cases s with
  | nil => simp [takeTags] at hm
  | cons c r =>
    unfold takeTags at hm
    simp only [] at hm
    by_cases hc : c = AT
    · rw [if_pos hc] at hm
      cases hcut : cut SP r with
      | none => rw [hcut] at hm; simp at hm
      | some tr =>
        obtain ⟨t, rest⟩ := tr
        rw [hcut] at hm
        simp only [] at hm
        obtain ⟨rfl, _⟩ := cut_eq_some hcut
        subst hc
        have := Utf8.tail (x := AT) (by decide) hu
        exact splitTags_utf8 _ t (Nat.le_refl _) (Utf8.left (x := SP) (by decide) this) _ hm
    · rw [if_neg hc] at hm; simp at hm

/-! ## C57 -/

/-- C57, exactly: let `r` be the part of the text from the first character on that needs a backslash.  The getters give
back the text if and only if there is no comma before that part and no `⸝` in it. -/
theorem C57_exact (p r : List Char) (hp : ∀ c ∈ p, c ∉ special)
    (hr : r = [] ∨ ∃ c r', r = c :: r' ∧ c ∈ special) :
    maybeUnescape (enc (escape (p ++ r))) = .ok (enc (p ++ r)) ↔ ',' ∉ p ∧ '⸝' ∉ r := by
  rw [maybeUnescape_escape hp hr, Except.ok.injEq]
  constructor
  · intro h
    have h := enc_injective h
    obtain ⟨h1, h2⟩ := List.append_inj h (by simp)
    constructor
    · intro hm
      obtain ⟨i, hi, he⟩ := List.mem_iff_getElem.1 hm
      have := congrArg (·[i]?) h1
      simp [hi, he] at this
    · intro hm
      obtain ⟨i, hi, he⟩ := List.mem_iff_getElem.1 hm
      have := congrArg (·[i]?) h2
      simp [hi, he] at this
  · rintro ⟨h1, h2⟩
    congr 2
    · conv => rhs; rw [← List.map_id p]
      apply List.map_congr_left
      intro c hc
      exact if_neg (fun (h : c = ',') => h1 (h ▸ hc))
    · conv => rhs; rw [← List.map_id r]
      apply List.map_congr_left
      intro c hc
      exact if_neg (fun (h : c = '⸝') => h2 (h ▸ hc))

example := C57_exact "five".toList "; raiders".toList (by decide) (.inr ⟨';', " raiders".toList, by decide, by decide⟩)

/-- A text without commas and `⸝` is given back. -/
theorem C57_recoverable (t : List Char) (h1 : ',' ∉ t) (h2 : '⸝' ∉ t) : Recoverable t := by
  obtain ⟨p, r, rfl, hp, hr⟩ := split_special t
  exact ⟨p, r, rfl, hp, hr, fun h => h1 (List.mem_append_left _ h), fun h => h2 (List.mem_append_right _ h)⟩

example := C57_recoverable "five; raiders".toList (by decide) (by decide)

theorem gives_back {o : Option Bytes} {v : Bytes} (h : o = some v) : GivesBack o (maybeUnescape v) := by
  rintro t ⟨p, r, rfl, hp, hr, h1, h2⟩ ht
  rw [h] at ht
  simp only [Option.some.injEq] at ht
  rw [ht]
  exact (C57_exact p r hp hr).2 ⟨h1, h2⟩

/-- C57: the sender's name of a PRIVMSG, and the text and the author's name of the message it replies to. -/
theorem C57_privmsg_partial (b : Build) (s : Bytes) (hu : Utf8 s) (hw : Within s) (ht : TagsTerminated b s)
    (l : Line) (hl : line s = some l) (p : Privmsg) (h : parseAs Privmsg.parse b s = .ok (some p)) :
    GivesBack (l.tag (b!"display-name")) p.sender.getName ∧
    ∀ r, p.replyTo = some r →
      GivesBack (l.tag (b!"reply-parent-msg-body")) r.getText ∧
      GivesBack (l.tag (b!"reply-parent-display-name")) r.sender.getName := by
  obtain ⟨l', hl', _, h⟩ := ((C23_privmsg b s hu hw ht).2 p).1 h
  rw [hl] at hl'; simp at hl'; subst hl'
  refine ⟨gives_back h.senderName, fun r hr => ?_⟩
  have := (h.replyTo r).1 hr
  exact ⟨gives_back this.text, gives_back this.senderName⟩

example := C57_privmsg_partial ⟨.scalar, true⟩ samplePriv (utf8_of samplePriv_ok) (within_of samplePriv_ok) (terminated_of samplePriv_ok _)
  _ (line_eq _ samplePriv_line) _ (given_eq _ samplePriv_parsed)

/-- C57: the sender's name of a WHISPER. -/
theorem C57_whisper_partial (b : Build) (s : Bytes) (hu : Utf8 s) (hw : Within s) (ht : TagsTerminated b s)
    (l : Line) (hl : line s = some l) (p : Whisper) (h : parseAs Whisper.parse b s = .ok (some p)) :
    GivesBack (l.tag (b!"display-name")) p.sender.getName := by
  obtain ⟨l', hl', _, h⟩ := ((C32_whisper b s hu hw ht).2 p).1 h
  rw [hl] at hl'; simp at hl'; subst hl'
  exact gives_back h.senderName

example := C57_whisper_partial ⟨.scalar, true⟩ sampleWhisper (utf8_of sampleWhisper_ok) (within_of sampleWhisper_ok) (terminated_of sampleWhisper_ok _)
  _ (line_eq _ sampleWhisper_line) _ (given_eq _ sampleWhisper_parsed)

/-- C57: the name of a GLOBALUSERSTATE. -/
theorem C57_global_user_state_partial (b : Build) (s : Bytes) (hu : Utf8 s) (hw : Within s)
    (ht : TagsTerminated b s) (l : Line) (hl : line s = some l) (p : GlobalUserState)
    (h : parseAs GlobalUserState.parse b s = .ok (some p)) :
    GivesBack (l.tag (b!"display-name")) p.getName := by
  obtain ⟨l', hl', _, h⟩ := ((C31_global_user_state b s hu hw ht).2 p).1 h
  rw [hl] at hl'; simp at hl'; subst hl'
  exact gives_back h.name

example := C57_global_user_state_partial ⟨.scalar, true⟩ sampleGlobal (utf8_of sampleGlobal_ok) (within_of sampleGlobal_ok) (terminated_of sampleGlobal_ok _)
  _ (line_eq _ sampleGlobal_line) _ (given_eq _ sampleGlobal_parsed)

theorem user_notice_back {l : Line} {p : UserNotice} (h : UserNoticeOf l p) :
    (∀ t, Recoverable t → t ≠ [] → l.tag (b!"system-msg") = some (enc (escape t)) →
      p.getSystemMessage = .ok (some (enc t))) ∧
    (∀ u, p.sender = some u → GivesBack (l.tag (b!"display-name")) u.getName) ∧
    (∀ t, Recoverable t → p.eventId ∈ [b!"sub", b!"resub", b!"subgift", b!"anonsubgift"] →
      l.tag (b!"msg-param-sub-plan-name") = some (enc (escape t)) → p.event.getSubPlanName = .ok (some (enc t))) ∧
    (∀ months r plan name gifted, p.event = .subGift months r plan name gifted →
      GivesBack (l.tag (b!"msg-param-recipient-display-name")) r.getName) := by
  obtain ⟨anon, he, hs⟩ := h.event
  refine ⟨fun t hr hne htag => ?_, fun u hu' => ?_, fun t hr hid htag => ?_, fun months r plan name gifted hev => ?_⟩
  · have := (h.systemMessage (enc (escape t))).2 ⟨htag, ?_⟩
    · unfold UserNotice.getSystemMessage
      rw [this]
      simp only []
      rw [gives_back htag t hr htag]
      rfl
    · intro e
      cases t with
      | nil => exact hne rfl
      | cons c t =>
        have : escape (c :: t) = [] := enc_injective (a := escape (c :: t)) (b := []) e
        unfold escape at this
        rw [List.flatMap_cons, List.append_eq_nil_iff] at this
        have := this.1
        unfold escapeChar at this
        repeat' split at this
        all_goals simp at this
  · rw [hu'] at hs
    exact gives_back hs.2.2.2
  · generalize hid' : p.eventId = id at he hid
    generalize hev : p.event = ev at he
    cases he with
    | subOrResub _ _ _ _ hn =>
      rw [htag] at hn
      simp only [Option.some.injEq] at hn
      simp only [Event.getSubPlanName]
      rw [← hn, gives_back rfl t hr rfl]
      rfl
    | subGift _ _ _ _ _ _ hn =>
      rw [htag] at hn
      simp only [Option.some.injEq] at hn
      simp only [Event.getSubPlanName]
      rw [← hn, gives_back rfl t hr rfl]
      rfl
    | anonSubMysteryGift h =>
      exfalso
      rcases h with rfl | ⟨rfl, _⟩ <;> revert hid <;> decide
    | unknown h =>
      have hsub : ∀ x ∈ [b!"sub", b!"resub", b!"subgift", b!"anonsubgift"], x ∈ eventIds := by decide
      exact absurd (hsub _ hid) h
    | _ => exact absurd hid (by decide)
  · generalize hid' : p.eventId = id at he
    rw [hev] at he
    cases he with
    | subGift _ _ _ _ hn => exact gives_back hn

/-- C57: the system message, the sender's name, the plan's name and the recipient's name of a USERNOTICE. -/
theorem C57_user_notice_partial (b : Build) (s : Bytes) (hu : Utf8 s) (hw : Within s) (ht : TagsTerminated b s)
    (l : Line) (hl : line s = some l) (p : UserNotice) (h : parseAs UserNotice.parse b s = .ok (some p)) :
    (∀ t, Recoverable t → t ≠ [] → l.tag (b!"system-msg") = some (enc (escape t)) →
      p.getSystemMessage = .ok (some (enc t))) ∧
    (∀ u, p.sender = some u → GivesBack (l.tag (b!"display-name")) u.getName) ∧
    (∀ t, Recoverable t → p.eventId ∈ [b!"sub", b!"resub", b!"subgift", b!"anonsubgift"] →
      l.tag (b!"msg-param-sub-plan-name") = some (enc (escape t)) → p.event.getSubPlanName = .ok (some (enc t))) ∧
    (∀ months r plan name gifted, p.event = .subGift months r plan name gifted →
      GivesBack (l.tag (b!"msg-param-recipient-display-name")) r.getName) := by
  obtain ⟨l', hl', _, h⟩ := ((C29_user_notice b s hu hw ht).2 p).1 h
  rw [hl] at hl'; simp at hl'; subst hl'
  exact user_notice_back h

example := C57_user_notice_partial ⟨.scalar, true⟩ sampleGift (utf8_of sampleGift_ok) (within_of sampleGift_ok) (terminated_of sampleGift_ok _)
  _ (line_eq _ sampleGift_line) _ (given_eq _ sampleGift_parsed)

/-- C57: there is no system message if its tag is missing or empty. -/
theorem C57_no_system_message (b : Build) (s : Bytes) (hu : Utf8 s) (hw : Within s) (ht : TagsTerminated b s)
    (l : Line) (hl : line s = some l) (p : UserNotice) (h : parseAs UserNotice.parse b s = .ok (some p))
    (hn : l.tag (b!"system-msg") = none ∨ l.tag (b!"system-msg") = some []) : p.getSystemMessage = .ok none := by
  obtain ⟨l', hl', _, h⟩ := ((C29_user_notice b s hu hw ht).2 p).1 h
  rw [hl] at hl'; simp at hl'; subst hl'
  unfold UserNotice.getSystemMessage
  cases hm : p.systemMessage with
  | none => rfl
  | some v =>
    obtain ⟨h1, h2⟩ := (h.systemMessage v).1 hm
    rcases hn with hn | hn <;> rw [hn] at h1
    · cases h1
    · cases h1; exact absurd rfl h2

example := C57_no_system_message ⟨.scalar, true⟩ sampleGift (utf8_of sampleGift_ok) (within_of sampleGift_ok) (terminated_of sampleGift_ok _)
  _ (line_eq _ sampleGift_line) _ (given_eq _ sampleGift_parsed) (by decide +kernel)

/-- C57: there is no plan's name in an event that is not about a subscription. -/
theorem C57_no_sub_plan_name (b : Build) (s : Bytes) (hu : Utf8 s) (hw : Within s) (ht : TagsTerminated b s)
    (p : UserNotice) (h : parseAs UserNotice.parse b s = .ok (some p)) :
    p.eventId ∉ [b!"sub", b!"resub", b!"subgift", b!"anonsubgift"] → p.event.getSubPlanName = .ok none := by
  obtain ⟨l, hl, _, h⟩ := ((C29_user_notice b s hu hw ht).2 p).1 h
  obtain ⟨anon, he, -⟩ := h.event
  revert he
  generalize p.event = e
  generalize p.eventId = i
  intro he hi
  cases he with
  | subOrResub h1 => rcases h1 with ⟨-, rfl⟩ | ⟨-, rfl⟩ <;> simp at hi
  | subGift h1 => rcases h1 with rfl | rfl <;> simp at hi
  | _ => rfl

example := C57_no_sub_plan_name ⟨.scalar, true⟩ sampleRaid (utf8_of sampleRaid_ok) (within_of sampleRaid_ok) (terminated_of sampleRaid_ok _)
  _ (given_eq _ sampleRaid_parsed) (by decide +kernel)

/-- Every tag of the line is UTF-8. -/
def Readily (l : Line) : Prop := ∀ {k v : Bytes}, l.tag k = some v → Utf8 v

theorem Readily.unescape {l : Line} (hl : Readily l) {k v : Bytes} (h : l.tag k = some v) : ∃ x, maybeUnescape v = .ok x := by
  obtain ⟨cs, h⟩ := C19_total v (hl h)
  exact ⟨_, h⟩

theorem user_notice_total {l : Line} (hl : Readily l) {p : UserNotice} (h : UserNoticeOf l p) :
    (∃ x, p.getSystemMessage = .ok x) ∧
      (∀ u, p.sender = some u → ∃ x, u.getName = .ok x) ∧ (∃ x, p.event.getSubPlanName = .ok x) ∧
      ∀ months r plan name gifted, p.event = .subGift months r plan name gifted → ∃ x, r.getName = .ok x := by
  have key : ∀ {k v : Bytes}, l.tag k = some v → ∃ x, maybeUnescape v = .ok x := hl.unescape
  obtain ⟨anon, he, hs⟩ := h.event
  refine ⟨?_, fun u hu' => ?_, ?_, fun months r plan name gifted hev => ?_⟩
  · unfold UserNotice.getSystemMessage
    cases hsm : p.systemMessage with
    | none => exact ⟨_, rfl⟩
    | some v =>
      obtain ⟨x, hx⟩ := key ((h.systemMessage v).1 hsm).1
      simp only []
      rw [hx]
      exact ⟨_, rfl⟩
  · rw [hu'] at hs
    exact key hs.2.2.2
  · generalize hid' : p.eventId = id at he
    generalize hev : p.event = ev at he
    cases he with
    | subOrResub _ _ _ _ hn =>
      obtain ⟨x, hx⟩ := key hn
      simp only [Event.getSubPlanName]
      rw [hx]
      exact ⟨_, rfl⟩
    | subGift _ _ _ _ _ _ hn =>
      obtain ⟨x, hx⟩ := key hn
      simp only [Event.getSubPlanName]
      rw [hx]
      exact ⟨_, rfl⟩
    | _ => exact ⟨_, rfl⟩
  · generalize hid' : p.eventId = id at he
    rw [hev] at he
    cases he with
    | subGift _ _ _ _ hn => exact key hn

theorem privmsg_total {l : Line} (hl : Readily l) {p : Privmsg} (h : PrivmsgOf l p) :
    (∃ x, p.sender.getName = .ok x) ∧
      ∀ r, p.replyTo = some r → (∃ x, r.getText = .ok x) ∧ ∃ x, r.sender.getName = .ok x := by
  refine ⟨hl.unescape h.senderName, fun r hr => ?_⟩
  have := (h.replyTo r).1 hr
  exact ⟨hl.unescape this.text, hl.unescape this.senderName⟩

/-- C57: none of these getters ever panics. -/
theorem C57_total (b : Build) (s : Bytes) (hu : Utf8 s) (hw : Within s) (ht : TagsTerminated b s) :
    (∀ p, parseAs Privmsg.parse b s = .ok (some p) → (∃ x, p.sender.getName = .ok x) ∧
      ∀ r, p.replyTo = some r → (∃ x, r.getText = .ok x) ∧ ∃ x, r.sender.getName = .ok x) ∧
    (∀ p, parseAs Whisper.parse b s = .ok (some p) → ∃ x, p.sender.getName = .ok x) ∧
    (∀ p, parseAs GlobalUserState.parse b s = .ok (some p) → ∃ x, p.getName = .ok x) ∧
    (∀ p, parseAs UserNotice.parse b s = .ok (some p) → (∃ x, p.getSystemMessage = .ok x) ∧
      (∀ u, p.sender = some u → ∃ x, u.getName = .ok x) ∧ (∃ x, p.event.getSubPlanName = .ok x) ∧
      ∀ months r plan name gifted, p.event = .subGift months r plan name gifted → ∃ x, r.getName = .ok x) := by
  refine ⟨fun p h => ?_, fun p h => ?_, fun p h => ?_, fun p h => ?_⟩
  · obtain ⟨l, hl, _, h⟩ := ((C23_privmsg b s hu hw ht).2 p).1 h
    exact privmsg_total (line_tag_utf8 hu hl) h
  · obtain ⟨l, hl, _, h⟩ := ((C32_whisper b s hu hw ht).2 p).1 h
    exact Readily.unescape (line_tag_utf8 hu hl) h.senderName
  · obtain ⟨l, hl, _, h⟩ := ((C31_global_user_state b s hu hw ht).2 p).1 h
    exact Readily.unescape (line_tag_utf8 hu hl) h.name
  · obtain ⟨l, hl, _, h⟩ := ((C29_user_notice b s hu hw ht).2 p).1 h
    exact user_notice_total (line_tag_utf8 hu hl) h

example := C57_total ⟨.scalar, true⟩ samplePriv (utf8_of samplePriv_ok) (within_of samplePriv_ok) (terminated_of samplePriv_ok _)

/-- C57 is false for texts with a comma, where there is no backslash before it: the getter returns the `⸝` that stands
for it on the wire. -/
theorem C57_negation : maybeUnescape (enc (escape "Kappa,Keepo".toList)) = .ok (enc "Kappa⸝Keepo".toList) ∧
    maybeUnescape (enc (escape "a Kappa,Keepo".toList)) = .ok (enc "a Kappa,Keepo".toList) := by decide +kernel

/-- C57 is false: the name in a USERSTATE is not unescaped, unlike that in a GLOBALUSERSTATE. -/
theorem C57_negation_user_state :
    (parseAs UserState.parse ⟨.scalar, true⟩ (b!"@display-name=a\\sb USERSTATE #c")).map (·.map (·.userName))
      = .ok (some (b!"a\\sb")) ∧
    (parseAs GlobalUserState.parse ⟨.scalar, true⟩ (b!"@display-name=a\\sb;user-id=1 GLOBALUSERSTATE")).map
      (·.map (·.getName)) = .ok (some (.ok (b!"a b"))) := by decide +kernel

/-- Non-vacuity: a text with every escaped character, and a USERNOTICE with it. -/
example : Recoverable "five; raiders\\, \r\n".toList :=
  ⟨"five".toList, "; raiders\\, \r\n".toList, rfl, by decide, .inr ⟨_, _, rfl, by decide⟩, by decide, by decide⟩
example : (parseAs UserNotice.parse ⟨.scalar, true⟩
    (b!"@id=i;login=x;display-name=X;msg-id=resub;msg-param-cumulative-months=2;msg-param-sub-plan=1000;msg-param-sub-plan-name=Channel\\sSub;room-id=1;system-msg=five\\:\\sraiders\\\\⸝;tmi-sent-ts=1;user-id=2 USERNOTICE #c")).map
      (·.map fun p => (p.getSystemMessage, p.event.getSubPlanName))
    = .ok (some (.ok (some (b!"five; raiders\\,")), .ok (some (b!"Channel Sub")))) := by decide +kernel
example : (parseAs UserNotice.parse ⟨.scalar, true⟩
    (b!"@id=i;login=x;display-name=X;msg-id=raid;msg-param-viewerCount=2;msg-param-profileImageURL=u;room-id=1;system-msg=;tmi-sent-ts=1;user-id=2 USERNOTICE #c")).map
      (·.map fun p => p.getSystemMessage)
    = .ok (some (.ok none)) := by decide +kernel

end Tmi.Props
