/-
`Message::from_irc` against the specification.
-/
import Verif.Proofs.Notice

namespace Tmi.Proofs
open Tmi.Model Tmi.Spec Tmi.Props

theorem Exactly.reject {α : Type} {x : R (Option α)} {P : α → Prop} (h : Exactly x P)
    (hn : ∀ p, ¬ P p) : x = .ok none := by
  obtain ⟨r, hr⟩ := h.fine
  cases r with
  | none => exact hr
  | some p => exact absurd ((h.iff p).1 hr) (hn p)

theorem into_iff {α : Type} {x : R (Option α)} {f : α → Message} {M : Message} :
    into x f = .ok (some M) ↔ ∃ v, x = .ok (some v) ∧ f v = M := by
  unfold into
  cases x with
  | error e => simp [bind, Except.bind]
  | ok r =>
    cases r with
    | none => simp [bind, Except.bind, pure, Except.pure]
    | some v => simp [bind, Except.bind, pure, Except.pure]

theorem into_fine {α : Type} {x : R (Option α)} {f : α → Message} (h : Fine x) : Fine (into x f) := by
  obtain ⟨r, rfl⟩ := h
  exact ⟨_, rfl⟩

theorem typed_mem {c : Command} (h : c.asStr ∉ typedCommands) (m : MsgRef) (hc : m.command = .ok c) :
    Message.fromIrc m = .ok (some (.other m)) := by
  unfold Message.fromIrc
  rw [hc, bind_ok]
  cases c <;> first | rfl | (exact absurd (by decide) h)

/-- The typed message of a line, when the arithmetic of `followers-only` does not overflow. -/
theorem fromIrc_exactly {m : MsgRef} {l : Line} (hr : Represents m l)
    (ho : l.command = b!"ROOMSTATE" → ¬ FollowersOverflow l) :
    Fine (Message.fromIrc m) ∧
    ∀ M, Message.fromIrc m = .ok (some M) ↔ MessageOf l M ∧ ∀ m', M = .other m' → m' = m := by
  by_cases ht : l.command ∈ typedCommands
  · have hc := hr.command
    simp only [typedCommands, List.mem_cons, List.not_mem_nil, or_false] at ht
    have key : ∀ {c : Command} {α : Type} {x : R (Option α)} {P : α → Prop} {f : α → Message},
        l.command = c.asStr → (∀ s, c ≠ .other s) →
        (commandOf l.command = c → Message.fromIrc m = into x f) →
        Exactly x (fun v => l.command = c.asStr ∧ P v) →
        (∀ v, MessageOf l (f v) ↔ l.command = c.asStr ∧ P v) →
        (∀ M, MessageOf l M → ∃ v, M = f v) → (∀ v m', f v ≠ .other m') →
        Fine (Message.fromIrc m) ∧
        ∀ M, Message.fromIrc m = .ok (some M) ↔ MessageOf l M ∧ ∀ m', M = .other m' → m' = m := by
      intro c α x P f h1 h2 h3 h4 h5 h6 h7
      rw [h3 ((commandOf_known h2 _).2 h1)]
      refine ⟨into_fine h4.fine, fun M => ?_⟩
      rw [into_iff]
      constructor
      · rintro ⟨v, hv, rfl⟩
        exact ⟨(h5 v).2 ((h4.iff v).1 hv), fun m' h => absurd h (h7 v m')⟩
      · rintro ⟨hM, _⟩
        obtain ⟨v, rfl⟩ := h6 M hM
        exact ⟨v, (h4.iff v).2 ((h5 v).1 hM), rfl⟩
    have only : ∀ {c : Bytes}, l.command = c → ∀ M, MessageOf l M →
        commandOfMessage M = some c ∨ (c ∉ typedCommands ∧ commandOfMessage M = none) := by
      intro c hc M hM
      cases M <;> simp only [MessageOf, commandOfMessage] at hM ⊢
      case reconnect => left; rw [← hc, hM]
      case other => right; exact ⟨hc ▸ hM, trivial⟩
      all_goals left; rw [← hc, hM.1]
    have run : ∀ {c : Command} {y : R (Option Message)}, commandOf l.command = c →
        (m.command = .ok c → Message.fromIrc m = y) → Message.fromIrc m = y := by
      intro c y h h'
      exact h' (by rw [hc, h])
    rcases ht with h | h | h | h | h | h | h | h | h | h | h | h | h | h
    · refine key (c := .clearChat) (f := .clearChat) h (by simp) (fun e => run e fun h => ?_)
        (clearChat_exactly hr) (fun v => Iff.rfl) (fun M hM => ?_) (by simp)
      · unfold Message.fromIrc; rw [h, bind_ok]
      · rcases only h M hM with h' | h'
        · cases M <;> first | exact ⟨_, rfl⟩ | (exact absurd h' (by simp only [commandOfMessage]; decide))
        · exact absurd h'.1 (by decide)
    · refine key (c := .clearMsg) (f := .clearMsg) h (by simp) (fun e => run e fun h => ?_)
        (clearMsg_exactly hr) (fun v => Iff.rfl) (fun M hM => ?_) (by simp)
      · unfold Message.fromIrc; rw [h, bind_ok]
      · rcases only h M hM with h' | h'
        · cases M <;> first | exact ⟨_, rfl⟩ | (exact absurd h' (by simp only [commandOfMessage]; decide))
        · exact absurd h'.1 (by decide)
    · refine key (c := .globalUserState) (f := .globalUserState) h (by simp) (fun e => run e fun h => ?_)
        (globalUserState_exactly hr) (fun v => Iff.rfl) (fun M hM => ?_) (by simp)
      · unfold Message.fromIrc; rw [h, bind_ok]
      · rcases only h M hM with h' | h'
        · cases M <;> first | exact ⟨_, rfl⟩ | (exact absurd h' (by simp only [commandOfMessage]; decide))
        · exact absurd h'.1 (by decide)
    · refine key (c := .join) (f := .join) h (by simp) (fun e => run e fun h => ?_)
        (join_exactly hr) (fun v => Iff.rfl) (fun M hM => ?_) (by simp)
      · unfold Message.fromIrc; rw [h, bind_ok]
      · rcases only h M hM with h' | h'
        · cases M <;> first | exact ⟨_, rfl⟩ | (exact absurd h' (by simp only [commandOfMessage]; decide))
        · exact absurd h'.1 (by decide)
    · refine key (c := .notice) (f := .notice) h (by simp) (fun e => run e fun h => ?_)
        (notice_exactly hr) (fun v => Iff.rfl) (fun M hM => ?_) (by simp)
      · unfold Message.fromIrc; rw [h, bind_ok]
      · rcases only h M hM with h' | h'
        · cases M <;> first | exact ⟨_, rfl⟩ | (exact absurd h' (by simp only [commandOfMessage]; decide))
        · exact absurd h'.1 (by decide)
    · refine key (c := .part) (f := .part) h (by simp) (fun e => run e fun h => ?_)
        (part_exactly hr) (fun v => Iff.rfl) (fun M hM => ?_) (by simp)
      · unfold Message.fromIrc; rw [h, bind_ok]
      · rcases only h M hM with h' | h'
        · cases M <;> first | exact ⟨_, rfl⟩ | (exact absurd h' (by simp only [commandOfMessage]; decide))
        · exact absurd h'.1 (by decide)
    · refine key (c := .ping) (f := .ping) h (by simp) (fun e => run e fun h => ?_)
        (ping_exactly hr) (fun v => Iff.rfl) (fun M hM => ?_) (by simp)
      · unfold Message.fromIrc; rw [h, bind_ok]
      · rcases only h M hM with h' | h'
        · cases M <;> first | exact ⟨_, rfl⟩ | (exact absurd h' (by simp only [commandOfMessage]; decide))
        · exact absurd h'.1 (by decide)
    · refine key (c := .pong) (f := .pong) h (by simp) (fun e => run e fun h => ?_)
        (pong_exactly hr) (fun v => Iff.rfl) (fun M hM => ?_) (by simp)
      · unfold Message.fromIrc; rw [h, bind_ok]
      · rcases only h M hM with h' | h'
        · cases M <;> first | exact ⟨_, rfl⟩ | (exact absurd h' (by simp only [commandOfMessage]; decide))
        · exact absurd h'.1 (by decide)
    · refine key (c := .privmsg) (f := .privmsg) h (by simp) (fun e => run e fun h => ?_)
        (privmsg_exactly hr) (fun v => Iff.rfl) (fun M hM => ?_) (by simp)
      · unfold Message.fromIrc; rw [h, bind_ok]
      · rcases only h M hM with h' | h'
        · cases M <;> first | exact ⟨_, rfl⟩ | (exact absurd h' (by simp only [commandOfMessage]; decide))
        · exact absurd h'.1 (by decide)
    · have e : commandOf l.command = .reconnect := (commandOf_known (by simp) _).2 h
      have : Message.fromIrc m = .ok (some .reconnect) := by
        unfold Message.fromIrc; rw [hc, e, bind_ok]; rfl
      rw [this]
      refine ⟨⟨_, rfl⟩, fun M => ?_⟩
      constructor
      · intro h'; simp at h'; subst h'; exact ⟨h, fun m' h => by simp at h⟩
      · rintro ⟨hM, _⟩
        rcases only h M hM with h' | h'
        · cases M <;> first | rfl | (exact absurd h' (by simp only [commandOfMessage]; decide))
        · exact absurd h'.1 (by decide)
    · refine key (c := .roomState) (f := .roomState) h (by simp) (fun e => run e fun h => ?_)
        (roomState_exactly hr (ho h)) (fun v => Iff.rfl) (fun M hM => ?_) (by simp)
      · unfold Message.fromIrc; rw [h, bind_ok]
      · rcases only h M hM with h' | h'
        · cases M <;> first | exact ⟨_, rfl⟩ | (exact absurd h' (by simp only [commandOfMessage]; decide))
        · exact absurd h'.1 (by decide)
    · refine key (c := .userNotice) (f := .userNotice) h (by simp) (fun e => run e fun h => ?_)
        (userNotice_exactly hr) (fun v => Iff.rfl) (fun M hM => ?_) (by simp)
      · unfold Message.fromIrc; rw [h, bind_ok]
      · rcases only h M hM with h' | h'
        · cases M <;> first | exact ⟨_, rfl⟩ | (exact absurd h' (by simp only [commandOfMessage]; decide))
        · exact absurd h'.1 (by decide)
    · refine key (c := .userState) (f := .userState) h (by simp) (fun e => run e fun h => ?_)
        (userState_exactly hr) (fun v => Iff.rfl) (fun M hM => ?_) (by simp)
      · unfold Message.fromIrc; rw [h, bind_ok]
      · rcases only h M hM with h' | h'
        · cases M <;> first | exact ⟨_, rfl⟩ | (exact absurd h' (by simp only [commandOfMessage]; decide))
        · exact absurd h'.1 (by decide)
    · refine key (c := .whisper) (f := .whisper) h (by simp) (fun e => run e fun h => ?_)
        (whisper_exactly hr) (fun v => Iff.rfl) (fun M hM => ?_) (by simp)
      · unfold Message.fromIrc; rw [h, bind_ok]
      · rcases only h M hM with h' | h'
        · cases M <;> first | exact ⟨_, rfl⟩ | (exact absurd h' (by simp only [commandOfMessage]; decide))
        · exact absurd h'.1 (by decide)
  · have : Message.fromIrc m = .ok (some (.other m)) :=
      typed_mem (by rw [commandOf_asStr]; exact ht) m hr.command
    rw [this]
    refine ⟨⟨_, rfl⟩, fun M => ?_⟩
    constructor
    · intro h; simp at h; subst h
      exact ⟨ht, fun m' h => by simp at h; exact h.symm⟩
    · rintro ⟨h1, h2⟩
      cases M <;> simp only [MessageOf] at h1
      case other => rw [h2 _ rfl]
      case reconnect => exact absurd (by rw [h1]; decide) ht
      all_goals exact absurd (by rw [h1.1]; decide) ht

end Tmi.Proofs
