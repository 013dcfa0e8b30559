/-
C48 (channel names) and C50 (serialisation).
-/
import Verif.Proofs.Parsed
import Verif.Proofs.DebugLeaves

namespace Tmi.Props
open Spec Model Proofs

/-! ### C48: channel names -/

/-- Parsing succeeds exactly on the strings that start with `#`, and keeps the string. -/
theorem C48_parse (s c : Bytes) : Channel.parse s = some c ↔ c = s ∧ ∃ t, s = b!"#" ++ t := by
  unfold Channel.parse
  cases s with
  | nil => simp
  | cons x t =>
    by_cases h : x = 0x23
    · subst h; simp [eq_comm]
    · have hx : (x == 0x23) = false := by simpa using h
      simp [hx, h]

/-- The borrowed and the owned form accept the same strings with the same result. -/
theorem C48_agree (s : Bytes) : ChannelRef.parse s = Channel.parse s := rfl

/-- Deserialising yields a channel exactly from a string that starts with `#`. -/
theorem C48_deserialize (v : Value) (c : Bytes) :
    (Channel.de v = some c ↔ v = .str c ∧ ∃ t, c = b!"#" ++ t) ∧
    (ChannelRef.de v = some c ↔ v = .str c ∧ ∃ t, c = b!"#" ++ t) := by
  have h : Channel.de v = some c ↔ v = .str c ∧ ∃ t, c = b!"#" ++ t := by
    unfold Channel.de
    cases v with
    | str s =>
      simp only [deStr, Option.bind_some, C48_parse, Value.str.injEq]
      constructor
      · rintro ⟨rfl, h⟩; exact ⟨rfl, h⟩
      · rintro ⟨rfl, h⟩; exact ⟨rfl, h⟩
    | _ => simp [deStr]
  refine ⟨h, ?_⟩
  rw [show ChannelRef.de v = Channel.de v from rfl]
  exact h

/-- Every channel that can be made without `from_unchecked` serialises to its text and reads back. -/
theorem C48_roundtrip (s c : Bytes) (h : Channel.parse s = some c) :
    Channel.de (Channel.ser c) = some c ∧ ChannelRef.de (ChannelRef.ser c) = some c ∧
    Channel.parse (Channel.display c) = some c ∧
    Channel.parse (ChannelRef.display (Channel.asRef c)) = some (ChannelRef.toOwned (Channel.asRef c)) := by
  obtain ⟨rfl, ht⟩ := (C48_parse s c).mp h
  have h1 : Channel.de (Channel.ser c) = some c := ((C48_deserialize _ _).1).mpr ⟨rfl, ht⟩
  exact ⟨h1, h1, h, h⟩

/-- What is read off a channel is the string it was made of, whichever form it has. -/
theorem C48_text (s c : Bytes) (h : Channel.parse s = some c) :
    Channel.asStr c = s ∧ Channel.display c = s ∧ ChannelRef.asStr (Channel.asRef c) = s ∧
    ChannelRef.display (Channel.asRef c) = s ∧ Channel.asStr (ChannelRef.toOwned (Channel.asRef c)) = s := by
  obtain ⟨rfl, -⟩ := (C48_parse s c).mp h
  exact ⟨rfl, rfl, rfl, rfl, rfl⟩

example := C48_text (b!"#museun") (b!"#museun") rfl

example : Channel.parse (b!"#museun") = some (b!"#museun") ∧ Channel.parse (b!"museun") = none ∧
    Channel.parse [] = none ∧ Channel.de (.str (b!"museun")) = none ∧
    Channel.de (Channel.ser (b!"#museun")) = some (b!"#museun") := by
  decide

/-! ### C50: serialisation of typed messages -/

theorem into_some {α : Type} {x : R (Option α)} {f : α → Message} {M : Message}
    (h : into x f = .ok (some M)) : ∃ v, x = .ok (some v) ∧ M = f v := by
  unfold into at h
  cases x with
  | error e => simp [bind, Except.bind] at h
  | ok o =>
    cases o with
    | none => simp [bind, Except.bind, pure, Except.pure] at h
    | some v =>
      simp only [bind, Except.bind, pure, Except.pure, Option.map_some, Except.ok.injEq,
        Option.some.injEq] at h
      exact ⟨v, rfl, h.symm⟩

theorem reserialised_exact {tc : TimeCodec} (hc : TimeCodec.Faithful tc) {m : MsgRef} {M : Message}
    (h : Message.fromIrc m = .ok (some M)) {back : Option Message} (hb : reserialised tc M = some back) :
    (NumericMonths (badgesIn M) → back = some M) ∧ (¬ NumericMonths (badgesIn M) → back = none) := by
  have hnil : NumericMonths ([] : List Badge) := by intro v hv; cases hv
  unfold Message.fromIrc at h
  cases hcmd : m.command with
  | error e => simp [hcmd, bind, Except.bind] at h
  | ok c =>
    simp only [hcmd, bind, Except.bind] at h
    split at h
    · obtain ⟨v, hv, rfl⟩ := into_some h
      cases hb
      have hf := clearChat_fits hv
      exact ⟨fun _ => by rw [clearChat_rt hc hf.1 hf.2]; rfl, fun hn => absurd hnil hn⟩
    · obtain ⟨v, hv, rfl⟩ := into_some h
      cases hb
      exact ⟨fun _ => by rw [clearMsg_rt hc (clearMsg_fits hv)]; rfl, fun hn => absurd hnil hn⟩
    · obtain ⟨v, hv, rfl⟩ := into_some h
      cases hb
      exact ⟨fun hn => by rw [globalUserState_rt (globalUserState_fits hv) hn]; rfl,
        fun hn => by rw [globalUserState_none hn]; rfl⟩
    · obtain ⟨v, hv, rfl⟩ := into_some h
      cases hb
      exact ⟨fun _ => by rw [join_rt]; rfl, fun hn => absurd hnil hn⟩
    · obtain ⟨v, hv, rfl⟩ := into_some h
      cases hb
      exact ⟨fun _ => by rw [notice_rt]; rfl, fun hn => absurd hnil hn⟩
    · obtain ⟨v, hv, rfl⟩ := into_some h
      cases hb
      exact ⟨fun _ => by rw [part_rt]; rfl, fun hn => absurd hnil hn⟩
    · obtain ⟨v, hv, rfl⟩ := into_some h
      cases hb
      exact ⟨fun _ => by rw [ping_rt]; rfl, fun hn => absurd hnil hn⟩
    · obtain ⟨v, hv, rfl⟩ := into_some h
      cases hb
      exact ⟨fun _ => by rw [pong_rt]; rfl, fun hn => absurd hnil hn⟩
    · obtain ⟨v, hv, rfl⟩ := into_some h
      cases hb
      obtain ⟨h1, h2, h3, h4⟩ := privmsg_fits hv
      exact ⟨fun hn => by rw [privmsg_rt hc h1 hn h2 h3 h4]; rfl,
        fun hn => by rw [privmsg_none hn h2]; rfl⟩
    · cases h
      cases hb
    · obtain ⟨v, hv, rfl⟩ := into_some h
      cases hb
      have hf := roomState_fits hv
      exact ⟨fun _ => by rw [roomState_rt hf.1 hf.2]; rfl, fun hn => absurd hnil hn⟩
    · obtain ⟨v, hv, rfl⟩ := into_some h
      cases hb
      obtain ⟨h1, h2, h3⟩ := userNotice_fits hv
      exact ⟨fun hn => by rw [userNotice_rt hc h1 hn h2 h3]; rfl,
        fun hn => by rw [userNotice_none hn h2]; rfl⟩
    · obtain ⟨v, hv, rfl⟩ := into_some h
      cases hb
      exact ⟨fun hn => by rw [userState_rt (userState_fits hv) hn]; rfl,
        fun hn => by rw [userState_none hn]; rfl⟩
    · obtain ⟨v, hv, rfl⟩ := into_some h
      cases hb
      exact ⟨fun hn => by rw [whisper_rt (whisper_fits hv) hn]; rfl,
        fun hn => by rw [whisper_none hn]; rfl⟩
    · cases h
      cases hb

theorem fromIrc_of_parse {b : Build} {s : Bytes} {M : Message} (h : Message.parse b s = .ok (some M)) :
    ∃ m, MsgRef.parse b s = .ok (some m) ∧ Message.fromIrc m = .ok (some M) := by
  unfold Message.parse at h
  cases hm : MsgRef.parse b s with
  | error e => simp [hm, bind, Except.bind] at h
  | ok o =>
    cases o with
    | none => simp [hm, bind, Except.bind, pure, Except.pure] at h
    | some m => exact ⟨m, rfl, by simpa [hm, bind, Except.bind] using h⟩

/-- A parsed message reads back as an equal message if the months of its subscriber badges are numeric.
Missing from the full property: messages with a subscriber badge whose months are not (`C50_failure`). -/
theorem C50_roundtrip_partial (tc : TimeCodec) (hc : TimeCodec.Faithful tc) (b : Build) (s : Bytes)
    (M : Message) (h : Message.parse b s = .ok (some M)) (hn : NumericMonths (badgesIn M))
    (back : Option Message) (hb : reserialised tc M = some back) : back = some M := by
  obtain ⟨m, _, h⟩ := fromIrc_of_parse h
  exact (reserialised_exact hc h hb).1 hn

/-- A parsed message never reads back as a different message: deserialising fails exactly when the months
of one of its subscriber badges are not a number below 2^64. -/
theorem C50_failure (tc : TimeCodec) (hc : TimeCodec.Faithful tc) (b : Build) (s : Bytes)
    (M : Message) (h : Message.parse b s = .ok (some M))
    (back : Option Message) (hb : reserialised tc M = some back) :
    (back = none ↔ ∃ v, Badge.subscriber v ∈ badgesIn M ∧ ¬ ∃ n, IsNat v.months n ∧ n < 2 ^ 64) ∧
    (back = none ∨ back = some M) := by
  obtain ⟨m, _, h⟩ := fromIrc_of_parse h
  have hx := reserialised_exact hc h hb
  have key : (∃ v, Badge.subscriber v ∈ badgesIn M ∧ ¬ ∃ n, IsNat v.months n ∧ n < 2 ^ 64) ↔
      ¬ NumericMonths (badgesIn M) := by
    constructor
    · rintro ⟨v, hv, hx⟩ hn
      exact hx (hn v hv)
    · intro hn
      apply Classical.byContradiction
      intro h'
      exact hn fun v hv => Classical.byContradiction fun hx => h' ⟨v, hv, hx⟩
  rw [key]
  by_cases hn : NumericMonths (badgesIn M)
  · rw [hx.1 hn]
    exact ⟨⟨fun h => (by cases h), fun h => absurd hn h⟩, Or.inr rfl⟩
  · rw [hx.2 hn]
    exact ⟨⟨fun _ => hn, fun _ => rfl⟩, Or.inl rfl⟩

open Classical in
/-- A codec for times that satisfies the assumption: it writes what `Debug` prints, and reads exactly that. -/
noncomputable def isoCodec : TimeCodec :=
  ⟨timestampText, fun s => if h : ∃ t, timestampText t = s then some h.choose else none⟩

open Classical in
theorem isoCodec_back (t : Timestamp) : isoCodec.read (isoCodec.show_ t) = some t := by
  have h : ∃ t', timestampText t' = timestampText t := ⟨t, rfl⟩
  show (if h : ∃ t', timestampText t' = timestampText t then some h.choose else none) = some t
  rw [dif_pos h, Option.some.injEq]
  exact Proofs.timestampText_inj h.choose_spec

theorem isoCodec_faithful : TimeCodec.Faithful isoCodec := fun t _ _ _ => isoCodec_back t

def sampleMonths (months : Bytes) : Bytes :=
  b!"@badge-info=subscriber/" ++ months ++
  b!";badges=subscriber/12;display-name=ronni;user-id=1337 :tmi.twitch.tv GLOBALUSERSTATE"

/-- The full property is false: this line is a message, but its serialised form does not read back. -/
theorem C50_negation : ∃ M, Message.parse ⟨.scalar, true⟩ (sampleMonths (b!"founder")) = .ok (some M) ∧
    ∀ tc, reserialised tc M = some none := by
  refine ⟨.globalUserState ⟨b!"1337", b!"ronni", [.subscriber ⟨b!"12", b!"founder", 1⟩], [], none⟩,
    by decide +kernel, fun tc => ?_⟩
  rfl

/-- With numeric months the same line reads back. -/
example : ∃ M, Message.parse ⟨.scalar, true⟩ (sampleMonths (b!"14")) = .ok (some M) ∧
    NumericMonths (badgesIn M) ∧ reserialised isoCodec M = some (some M) := by
  refine ⟨.globalUserState ⟨b!"1337", b!"ronni", [.subscriber ⟨b!"12", b!"14", 14⟩], [], none⟩,
    by decide +kernel, ?_, rfl⟩
  intro v hv
  simp only [badgesIn, List.mem_singleton, Badge.subscriber.injEq] at hv
  subst hv
  exact ⟨14, (C33_u64 _ _).mp (by decide +kernel)⟩

end Tmi.Props
