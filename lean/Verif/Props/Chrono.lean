/-
C50, C67.  What is said about serialised messages holds for the text format of times that chrono uses.
-/
import Verif.Proofs.Chrono
import Verif.Proofs.Times
import Verif.Props.Serde
import Verif.Props.Shape

namespace Tmi.Props
open Model hiding Kind
open Spec Proofs Proofs.Chrono

/-- A time is written as the date and time of day of the Gregorian calendar, in UTC, and every time in the range of
chrono, leap seconds too, is read back from that. -/
theorem C50_times (t : Timestamp) : ShowsTime t (Chrono.codec.show_ t) ∧
    (daysTo (-262143) * 86400 ≤ t.secs ∧ t.secs < daysTo 262143 * 86400 →
      ∀ s, ShowsTime t s → Chrono.codec.read s = some t) :=
  ⟨timestampText_shows t, fun h _ hs => read_shown hs h⟩

example : Chrono.codec.show_ ⟨1483228799, 1000000007, by decide⟩ = b!"2016-12-31T23:59:60.000000007Z" := by decide +kernel
example : Chrono.codec.read (b!"2016-12-31T23:59:60.000000007Z") = some ⟨1483228799, 1000000007, by decide⟩ := by
  decide +kernel
example : Chrono.codec.read (b!"2021-02-29T00:00:00Z") = none := by decide +kernel

/-- Which texts are accepted as a point in time, and which point that is. -/
theorem C67_times (t : Timestamp) (s : Bytes) : Chrono.codec.read s = some t ↔ TimeOf t s := read_iff t s

example : TimeOf ⟨1594556275, 123000000, by decide⟩ (b!"2020-7-12t14:17:55.1230000009+02:00") :=
  (C67_times _ _).1 (by decide +kernel)
/-- The local time is beyond the last day that chrono has, the time in UTC is not. -/
example : ∀ t, ¬ TimeOf t (b!"+262143-01-01T00:30:00+01:00") := by
  intro t h
  have : Chrono.codec.read (b!"+262143-01-01T00:30:00+01:00") = none := by decide +kernel
  rw [(C67_times _ _).2 h] at this
  cases this

/-- A time may be given with an offset instead: the local time, and behind it how far ahead of UTC (`+`) or behind UTC
(`-`) that is, in hours and minutes.  It is the time in UTC that counts. -/
theorem C67_offsets (t l : Timestamp)
    (ht : daysTo (-262143) * 86400 ≤ t.secs ∧ t.secs < daysTo 262143 * 86400)
    (hl : daysTo (-262143) * 86400 ≤ l.secs ∧ l.secs < daysTo 262143 * 86400)
    (s : Bytes) (hs : ShowsTime l (s ++ b!"Z")) (hn : l.nanos = t.nanos)
    (h m : Nat) (hh : h < 24) (hm : m < 60) :
    (l.secs = t.secs + (h * 3600 + m * 60) →
      Chrono.codec.read (s ++ b!"+" ++ digitsOf 2 h ++ b!":" ++ digitsOf 2 m) = some t) ∧
    (l.secs = t.secs - (h * 3600 + m * 60) →
      Chrono.codec.read (s ++ b!"-" ++ digitsOf 2 h ++ b!":" ++ digitsOf 2 m) = some t) := by
  constructor
  · intro e
    have := read_shown_with hs ht hl (o := (h : Int) * 3600 + m * 60) (x := 0x2B)
      (w := digitsOf 2 h ++ b!":" ++ digitsOf 2 m) (by omega) hn.symm (by decide) (by decide)
      (by rw [offset_app (.inl rfl) hh hm]; simp)
    show Chrono.read _ = _
    simpa using this
  · intro e
    have := read_shown_with hs ht hl (o := -((h : Int) * 3600 + m * 60)) (x := 0x2D)
      (w := digitsOf 2 h ++ b!":" ++ digitsOf 2 m) (by omega) hn.symm (by decide) (by decide)
      (by rw [offset_app (.inr rfl) hh hm]; simp)
    show Chrono.read _ = _
    simpa using this

/-- 14:17:55.123 two hours ahead of UTC, which is 12:17:55.123 in UTC. -/
example : Chrono.codec.read (b!"2020-07-12T14:17:55.123+02:00") = some ⟨1594556275, 123000000, by decide⟩ :=
  (C67_offsets ⟨1594556275, 123000000, by decide⟩ ⟨1594563475, 123000000, by decide⟩ (by decide) (by decide)
    (b!"2020-07-12T14:17:55.123") (timestampText_shows ⟨1594563475, 123000000, by decide⟩ |> fun h => by
      rwa [show timestampText ⟨1594563475, 123000000, by decide⟩ = b!"2020-07-12T14:17:55.123" ++ b!"Z" by decide +kernel] at h)
    rfl 2 0 (by decide) (by decide)).1 (by decide)

/-- `C50_roundtrip_partial` for the format of chrono.  Missing as there: subscriber badges whose months are not numeric. -/
theorem C50_rfc3339_partial (b : Build) (s : Bytes) (M : Message) (h : Message.parse b s = .ok (some M))
    (hn : NumericMonths (badgesIn M)) (back : Option Message) (hb : reserialised Chrono.codec M = some back) :
    back = some M :=
  C50_roundtrip_partial _ codec_faithful b s M h hn back hb

/-- `C50_failure` for the format of chrono. -/
theorem C50_rfc3339_failure (b : Build) (s : Bytes) (M : Message) (h : Message.parse b s = .ok (some M))
    (back : Option Message) (hb : reserialised Chrono.codec M = some back) :
    (back = none ↔ ∃ v, Badge.subscriber v ∈ badgesIn M ∧ ¬ ∃ n, IsNat v.months n ∧ n < 2 ^ 64) ∧
    (back = none ∨ back = some M) :=
  C50_failure _ codec_faithful b s M h back hb

def sampleTimed : Bytes :=
  b!"@room-id=1;target-user-id=2;tmi-sent-ts=1594556275123 :tmi.twitch.tv CLEARCHAT #a :b"

/-- A line with a time: the message is found, and is read back from what is written. -/
example : ∃ M, Message.parse ⟨.scalar, true⟩ sampleTimed = .ok (some M) ∧ NumericMonths (badgesIn M) ∧
    reserialised Chrono.codec M = some (some M) := by
  refine ⟨.clearChat ⟨b!"#a", b!"1", .ban (b!"b") (b!"2"), ⟨1594556275, 123000000, by decide⟩⟩,
    by decide +kernel, ?_, by decide +kernel⟩
  simp [badgesIn, NumericMonths]

/-- `C67_exact` for the format of chrono: what is accepted as a message. -/
theorem C67_rfc3339 (k : Kind) (v : Value) (M : Message) :
    k.read Chrono.codec v = some M ↔
      ∃ c, k.write Chrono.codec M = some c ∧ k.form Chrono.codec v c ∧ ReadsBack Chrono.codec M :=
  C67_exact _ codec_stable k v M

/-- Whatever is accepted can be written, and what is written is read as the same message. -/
theorem C67_rfc3339_again (k : Kind) (v : Value) (M : Message) (h : k.read Chrono.codec v = some M) :
    ∃ c, k.write Chrono.codec M = some c ∧ k.read Chrono.codec c = some M :=
  C67_again _ codec_stable k v M h

/-- A time given with an offset, and with the parts in another order, is accepted. -/
example : Kind.clearMsg.read Chrono.codec (.map [(b!"timestamp", .str (b!"2020-07-12T14:17:55.123+02:00")),
      (b!"channel", .str (b!"#a")), (b!"channel_id", .str (b!"1")), (b!"sender", .str (b!"b")),
      (b!"target_message_id", .str (b!"3")), (b!"is_action", .bool false), (b!"text", .str (b!"hi"))]) =
    some (.clearMsg ⟨b!"#a", b!"1", b!"b", b!"3", b!"hi", false, ⟨1594556275, 123000000, by decide⟩⟩) := by
  decide +kernel

end Tmi.Props
