/-
C57 for lines with tags of any size: the tags are the ones that `tags()` lists.
-/
import Verif.Props.Unescape
import Verif.Props.Listed
import Verif.Proofs.Strings

namespace Tmi.Props
open Model Spec Proofs

/-- C57 for whatever tags the message lists: the text that was escaped comes back from every getter.  Missing, as in the
other parts of C57: the texts that are not recoverable. -/
theorem C57_listed_partial (b : Build) (s : Bytes) (hu : Utf8 s) (hl : s.length < 4294967296) (m : MsgRef)
    (h : MsgRef.parse b s = .ok (some m)) (tags : List (Bytes × Bytes)) (hm : m.tags = .ok tags) :
    (∀ p, Privmsg.parse m = .ok (some p) → GivesBack (lookup (b!"display-name") tags) p.sender.getName ∧
      ∀ r, p.replyTo = some r → GivesBack (lookup (b!"reply-parent-msg-body") tags) r.getText ∧
        GivesBack (lookup (b!"reply-parent-display-name") tags) r.sender.getName) ∧
    (∀ p, Whisper.parse m = .ok (some p) → GivesBack (lookup (b!"display-name") tags) p.sender.getName) ∧
    (∀ p, GlobalUserState.parse m = .ok (some p) → GivesBack (lookup (b!"display-name") tags) p.getName) ∧
    (∀ p, UserNotice.parse m = .ok (some p) →
      (∀ t, Recoverable t → t ≠ [] → lookup (b!"system-msg") tags = some (enc (escape t)) →
        p.getSystemMessage = .ok (some (enc t))) ∧
      (∀ u, p.sender = some u → GivesBack (lookup (b!"display-name") tags) u.getName) ∧
      (∀ t, Recoverable t → p.eventId ∈ [b!"sub", b!"resub", b!"subgift", b!"anonsubgift"] →
        lookup (b!"msg-param-sub-plan-name") tags = some (enc (escape t)) →
        p.event.getSubPlanName = .ok (some (enc t))) ∧
      ∀ months r plan name gifted, p.event = .subGift months r plan name gifted →
        GivesBack (lookup (b!"msg-param-recipient-display-name") tags) r.getName) := by
  obtain ⟨l, _, _, _, hg, _, _, _, _, _, hp, _, hn, _, hw⟩ := C68_typed b s hu hl m h tags hm
  refine ⟨fun p e => ?_, fun p e => ?_, fun p e => ?_, fun p e => ?_⟩
  · have := ((hp.2 p).1 e).2
    refine ⟨gives_back this.senderName, fun r hr => ?_⟩
    have := (this.replyTo r).1 hr
    exact ⟨gives_back this.text, gives_back this.senderName⟩
  · exact gives_back ((hw.2 p).1 e).2.senderName
  · exact gives_back ((hg.2 p).1 e).2.name
  · exact user_notice_back ((hn.2 p).1 e).2

/-- C57 for whatever tags the message lists: none of these getters panics. -/
theorem C57_listed_total (b : Build) (s : Bytes) (hu : Utf8 s) (hl : s.length < 4294967296) (m : MsgRef)
    (h : MsgRef.parse b s = .ok (some m)) (tags : List (Bytes × Bytes)) (hm : m.tags = .ok tags) :
    (∀ p, Privmsg.parse m = .ok (some p) → (∃ x, p.sender.getName = .ok x) ∧
      ∀ r, p.replyTo = some r → (∃ x, r.getText = .ok x) ∧ ∃ x, r.sender.getName = .ok x) ∧
    (∀ p, Whisper.parse m = .ok (some p) → ∃ x, p.sender.getName = .ok x) ∧
    (∀ p, GlobalUserState.parse m = .ok (some p) → ∃ x, p.getName = .ok x) ∧
    (∀ p, UserNotice.parse m = .ok (some p) → (∃ x, p.getSystemMessage = .ok x) ∧
      (∀ u, p.sender = some u → ∃ x, u.getName = .ok x) ∧ (∃ x, p.event.getSubPlanName = .ok x) ∧
      ∀ months r plan name gifted, p.event = .subGift months r plan name gifted → ∃ x, r.getName = .ok x) := by
  have hsrc : Utf8 m.src := by rw [parse_src h]; exact hu
  obtain ⟨l, _, _, _, hg, _, _, _, _, _, hp, _, hn, _, hw⟩ := C68_typed b s hu hl m h tags hm
  have hr : Readily { l with tags := tags } := by
    intro k v hv
    exact (tags_utf8 hsrc hm _ (lookup_mem hv)).2
  exact ⟨fun p e => privmsg_total hr ((hp.2 p).1 e).2, fun p e => hr.unescape ((hw.2 p).1 e).2.senderName,
    fun p e => hr.unescape ((hg.2 p).1 e).2.name, fun p e => user_notice_total hr ((hn.2 p).1 e).2⟩

/-- Non-vacuity: a message whose tags are listed, and whose system message and plan are given back. -/
example : ∃ m tags, MsgRef.parse ⟨.scalar, true⟩ sampleGift = .ok (some m) ∧ m.tags = .ok tags ∧
    ∃ p, UserNotice.parse m = .ok (some p) ∧ ∃ x, p.event.getSubPlanName = .ok (some x) := by
  have h : (match MsgRef.parse ⟨.scalar, true⟩ sampleGift with
    | .ok (some m) => (match m.tags, UserNotice.parse m with
      | .ok _, .ok (some p) => (match p.event.getSubPlanName with
        | .ok (some _) => true
        | _ => false)
      | _, _ => false)
    | _ => false) = true := by decide +kernel
  generalize MsgRef.parse ⟨.scalar, true⟩ sampleGift = r at h ⊢
  split at h
  · split at h
    · split at h
      · exact ⟨_, _, rfl, by assumption, _, by assumption, _, by assumption⟩
      · cases h
    · cases h
  · cases h

end Tmi.Props
