/-
C94: how much work it is to make a typed message of a line.
-/
import Verif.Proofs.StepsMsg
import Verif.Props.Steps
import Verif.Props.Serde

namespace Tmi.Props
open Model Spec Proofs

/-- C94: making a typed message of a parsed line takes at most six steps for each byte of the line, a fixed number of
steps, and what it takes to read the badges, once. -/
theorem C94_typed (b : Build) (s : Bytes) (m : MsgRef) (h : MsgRef.parse b s = .ok (some m)) :
    (Steps.fromIrc m).out = Message.fromIrc m ∧
    (Steps.fromIrc m).steps ≤ 6 * s.length + 101436 + (Steps.badgesOf m).steps := by
  have hm := (StepsP.parse_within b s).2 _ ((StepsP.parse_out b s).trans h) m rfl
  have hw := (StepsP.fromIrc_within m hm).1
  rw [parse_src h] at hw
  exact ⟨StepsP.fromIrc_out m, by omega⟩

example := C94_typed ⟨.scalar, true⟩ samplePriv _ (given_eq _ samplePriv_msg)

/-- C94: a line without badges is converted in time linear in its length. -/
theorem C94_plain (b : Build) (s : Bytes) (m : MsgRef) (h : MsgRef.parse b s = .ok (some m))
    (hb : m.tag .badges = .ok none ∨ m.tag .badges = .ok (some []) ∨ m.tag .badgeInfo = .ok none) :
    (Steps.fromIrc m).steps ≤ 6 * s.length + 104000 := by
  have h0 := (C94_typed b s m h).2
  have h1 : (Steps.tag m .badges).steps ≤ 128 * 7 := (C78_tag b s m h .badges).2
  have h2 : (Steps.tag m .badgeInfo).steps ≤ 128 * 11 := (C78_tag b s m h .badgeInfo).2
  have hs : (Steps.badgesOf m).steps ≤ 2304 := by
    show (Steps.Run.bind _ _).steps ≤ _
    rw [Steps.Run.bind, StepsP.tag_out]
    cases e : m.tag .badges with
    | error x => show (Steps.tag m .badges).steps ≤ _; omega
    | ok x =>
      show _ + (Steps.Run.bind _ _).steps ≤ _
      rw [Steps.Run.bind, StepsP.tag_out]
      cases e2 : m.tag .badgeInfo with
      | error y => show _ + (Steps.tag m .badgeInfo).steps ≤ _; omega
      | ok y =>
        rw [e, e2] at hb
        cases x with
        | none =>
          show _ + (_ + 0) ≤ _
          omega
        | some x =>
          cases y with
          | none =>
            show _ + (_ + 0) ≤ _
            omega
          | some y =>
            rcases hb with hb | hb | hb <;> cases hb
            show _ + (_ + 0) ≤ _
            omega
  omega

example := C94_plain ⟨.scalar, true⟩ sampleRoomState _ (given_eq _ sampleRoomState_msg) (.inl (by decide +kernel))

/-- C94: a line that comes from anywhere is parsed and converted in a number of steps that is at most quadratic in its
length: the badges are what makes it so. -/
theorem C94_parse (b : Build) (s : Bytes) :
    (Steps.parseMessage b s).out = Message.parse b s ∧
    (Steps.parseMessage b s).steps ≤ 2 * (s.length * s.length) + 63 * s.length + 112000 := by
  refine ⟨StepsP.parseMessage_out b s, ?_⟩
  have hp := (C78_parse b s).2
  show (Steps.Run.bind _ _).steps ≤ _
  rw [Steps.Run.bind, StepsP.parse_out]
  cases h : MsgRef.parse b s with
  | error x => show (Steps.parse b s).steps ≤ _; omega
  | ok o =>
    cases o with
    | none => show (Steps.parse b s).steps + 0 ≤ _; omega
    | some m =>
      show (Steps.parse b s).steps + (Steps.fromIrc m).steps ≤ _
      have h0 := (C94_typed b s m h).2
      have hm := (StepsP.parse_within b s).2 _ ((StepsP.parse_out b s).trans h) m rfl
      have hs := (StepsP.badgesOf_within m hm).1
      rw [parse_src h] at hs
      omega

theorem fromIrc_privmsg {m : MsgRef} {v : Privmsg} (h : Message.fromIrc m = .ok (some (.privmsg v))) :
    m.command = .ok .privmsg ∧ Privmsg.parse m = .ok (some v) := by
  unfold Message.fromIrc at h
  cases hc : m.command with
  | error e => rw [hc] at h; cases h
  | ok c =>
    rw [hc] at h
    change (match c with
      | .clearChat => _ | .clearMsg => _ | .globalUserState => _ | .join => _ | .notice => _ | .part => _ | .ping => _
      | .pong => _ | .privmsg => _ | .reconnect => _ | .roomState => _ | .userNotice => _ | .userState => _
      | .whisper => _ | _ => _) = _ at h
    cases c <;> first
      | (cases h; done)
      | (obtain ⟨a, h1, h2⟩ := into_some h; first | (cases h2; exact ⟨rfl, h1⟩) | cases h2)

/-- C94: the count leaves nothing out: for a chat message it has at least the lookups of the tags that every chat message
is asked for, and the search for the text. -/
theorem C94_count (m : MsgRef) (v : Privmsg) (h : Message.fromIrc m = .ok (some (.privmsg v))) :
    (Steps.text m).steps + (([.roomId, .msgId, .id, .userId, .displayName, .color, .customRewardId, .bits, .emotes,
      .tmiSentTs] : List Tag).map fun t => (Steps.tag m t).steps).sum + (Steps.badgesOf m).steps ≤
    (Steps.fromIrc m).steps := by
  obtain ⟨hc, hp⟩ := fromIrc_privmsg h
  refine Nat.le_trans (StepsP.parsePrivmsg_over m v ((StepsP.parsePrivmsg_out m).trans hp)) ?_
  show _ ≤ (Steps.Run.bind _ _).steps
  rw [Steps.Run.bind, StepsP.free_out, hc]
  show _ ≤ 0 + (Steps.Run.bind _ _).steps
  rw [Steps.Run.bind, StepsP.parsePrivmsg_out, hp]
  exact Nat.le_of_eq (Nat.zero_add _).symm

/-- The chat message of a result, if it is one. -/
def chatOf : R (Option Message) → Option Privmsg
  | .ok (some (.privmsg v)) => some v
  | _ => none

theorem chatOf_eq {r : R (Option Message)} {v : Privmsg} (h : chatOf r = some v) : r = .ok (some (.privmsg v)) := by
  unfold chatOf at h
  split at h
  · cases h; rfl
  · cases h

theorem samplePriv_chat : (chatOf (Message.fromIrc (given _ samplePriv_msg))).isSome = true := by decide +kernel

example := C94_count (given _ samplePriv_msg) _ (chatOf_eq (Option.some_get samplePriv_chat).symm)

/-- Non-vacuity of C94: the steps for a chat message and for the state of a room. -/
example : (Steps.fromIrc (given _ samplePriv_msg)).steps = 2292 ∧ (Steps.fromIrc (given _ sampleRoomState_msg)).steps = 154 ∧
    (Steps.parseMessage ⟨.scalar, true⟩ samplePriv).steps = 2740 := by
  decide +kernel

end Tmi.Props
