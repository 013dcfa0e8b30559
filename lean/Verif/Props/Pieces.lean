/-
Property C110: a message is made of pieces of its line, and only what has to be unescaped is copied.
-/
import Verif.Proofs.Pieces
import Verif.Proofs.Cow
import Verif.Props.Room

namespace Tmi.Props
open Tmi.Model Tmi.Spec Tmi.Proofs

/-! ## C110: a message is made of pieces of its line -/

/-- C110: every text of a typed message is a piece of the line, with the two exceptions of `Pieces`.  There is no
condition on the line. -/
theorem C110_message (b : Build) (s : Bytes) (M : Message) (h : Message.parse b s = .ok (some M)) : Pieces s M := by
  unfold Message.parse at h
  cases hp : MsgRef.parse b s with
  | error e => rw [hp] at h; cases h
  | ok o =>
    rw [hp, bind_ok] at h
    cases o with
    | none => cases h
    | some m =>
      have := fromIrc_pieces h
      rwa [parse_src hp] at this

/-- C110: every text that a raw message gives is a piece of the line. -/
theorem C110_raw (b : Build) (s : Bytes) (m : MsgRef) (h : MsgRef.parse b s = .ok (some m)) : RawPieces s m := by
  have := raw_pieces m
  rwa [parse_src h] at this

/-- C110: a text in which nothing is escaped is given back as it is: borrowed if it was borrowed. -/
theorem C110_borrowed (c : Cow) (h : BSLASH ∉ c.text) : c.maybeUnescape = .ok c := cow_plain c h

/-- C110: a text with a backslash is copied, and the copy is shorter, so that it fits into the room that is set aside
for it at the start. -/
theorem C110_copied (c : Cow) (hs : Utf8 c.text) (h : BSLASH ∈ c.text) :
    ∃ t, c.maybeUnescape = .ok (.owned t) ∧ t.length < c.text.length := cow_escaped c hs h

/-- C110: in both cases the text is the one that C18 to C20 speak of. -/
theorem C110_same (c : Cow) : c.maybeUnescape.map Cow.text = maybeUnescape c.text := maybeUnescape_text c

/-- C110: so the text is borrowed afterwards exactly if it was borrowed before and nothing in it changes. -/
theorem C110_exactly (s : Bytes) (hs : Utf8 s) (r : Cow) (h : (Cow.borrowed s).maybeUnescape = .ok r) :
    (r = .borrowed s ↔ maybeUnescape s = .ok s) ∧ (r ≠ .borrowed s ↔ ∃ t, r = .owned t) := by
  by_cases hb : BSLASH ∈ s
  · obtain ⟨t, ht, hl⟩ := cow_escaped (.borrowed s) hs hb
    have hm := C110_same (.borrowed s)
    rw [h] at ht
    cases ht
    rw [h] at hm
    refine ⟨⟨nofun, fun e => ?_⟩, fun _ => ⟨t, rfl⟩, nofun⟩
    rw [show (Cow.borrowed s).text = s from rfl, e] at hm
    injection hm with hm
    rw [show (Cow.owned t).text = t from rfl] at hm
    rw [hm] at hl
    exact absurd hl (Nat.lt_irrefl _)
  · have h1 := cow_plain (.borrowed s) hb
    have hm := C110_same (.borrowed s)
    rw [h] at h1
    cases h1
    rw [h] at hm
    exact ⟨⟨fun _ => hm.symm, fun _ => rfl⟩, fun e => absurd rfl e, fun ⟨t, e⟩ => by cases e⟩

/-- An announcement without a colour, by a subscriber whose months are not told. -/
def sampleShout : Bytes := b!"@badge-info=;badges=subscriber/2;display-name=A;id=7;login=a;msg-id=announcement;room-id=9;system-msg=;tmi-sent-ts=5;user-id=3 :tmi.twitch.tv USERNOTICE #c :hi"

/-- C110: neither exception can be dropped: here both texts are in the message, and neither is in the line. -/
theorem C110_exceptions : ∃ v, Message.parse ⟨.scalar, true⟩ sampleShout = .ok (some (.userNotice v)) ∧
    v.event = .announcement (b!"PRIMARY") ∧ v.badges = [.subscriber ⟨b!"2", b!"1", 1⟩] ∧
    ¬ b!"PRIMARY" <:+: sampleShout ∧ ¬ b!"1" <:+: sampleShout := by
  refine ⟨⟨b!"#c", b!"9", some ⟨b!"3", b!"a", b!"A"⟩, some (b!"hi"), none, .announcement (b!"PRIMARY"), b!"announcement",
    [.subscriber ⟨b!"2", b!"1", 1⟩], [], none, b!"7", ⟨0, 5000000, by decide⟩⟩, ?_, rfl, rfl, ?_, ?_⟩
  all_goals decide +kernel

example := C110_message ⟨.scalar, true⟩ sampleFan _ sampleFan_message

example : ∃ m, MsgRef.parse ⟨.scalar, true⟩ sampleFan = .ok (some m) ∧ RawPieces sampleFan m ∧
    m.tag .displayName = .ok (some (b!"A")) := by
  have h := given_eq (MsgRef.parse ⟨.scalar, true⟩ sampleFan) (by decide +kernel)
  exact ⟨_, h, C110_raw _ _ _ h, by decide +kernel⟩

example := C110_borrowed (.borrowed (b!"a b")) (by decide)

example : (Cow.borrowed (b!"a\\sb")).maybeUnescape = .ok (.owned (b!"a b")) := by decide +kernel

example := C110_copied (.borrowed (b!"a\\sb")) ⟨['a', '\\', 's', 'b'], by decide⟩ (by decide)

example := C110_exactly (b!"a\\sb") ⟨['a', '\\', 's', 'b'], by decide⟩ (.owned (b!"a b")) (by decide +kernel)

end Tmi.Props
