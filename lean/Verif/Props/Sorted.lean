/-
C129: messages can be put in order by their time.
-/
import Verif.Model.Order
import Verif.Spec.Sorted
import Verif.Proofs.Sorted
import Verif.Props.Documented
import Verif.Props.Chrono

namespace Tmi.Props
open Model Spec Proofs

/-! ## Timestamps -/

theorem sent_at (b : Build) (s : Bytes) (hu : Utf8 s) (hw : Within s) (ht : TagsTerminated b s)
    (l : Line) (hl : line s = some l) (M : Message) (h : Message.parse b s = .ok (some M)) (t : Timestamp)
    (hs : sentAt M = some t) : TimestampOf l t := by
  have key := message_of b s hu hw ht l hl M h
  cases M with
  | clearChat v =>
    simp only [sentAt, Option.some.injEq] at hs
    rw [← hs]; exact (key ⟨nofun, fun e => absurd (Option.some.inj e) (by decide)⟩).2.timestamp
  | clearMsg v =>
    simp only [sentAt, Option.some.injEq] at hs
    rw [← hs]; exact (key ⟨nofun, fun e => absurd (Option.some.inj e) (by decide)⟩).2.timestamp
  | privmsg v =>
    simp only [sentAt, Option.some.injEq] at hs
    rw [← hs]; exact (key ⟨nofun, fun e => absurd (Option.some.inj e) (by decide)⟩).2.timestamp
  | userNotice v =>
    simp only [sentAt, Option.some.injEq] at hs
    rw [← hs]; exact (key ⟨nofun, fun e => absurd (Option.some.inj e) (by decide)⟩).2.timestamp
  | _ => simp [sentAt] at hs

theorem at_milli {t : Timestamp} {ms : Int} (h : AtMilli t ms) :
    t.secs = ms / 1000 ∧ t.nanos = (ms % 1000).toNat * 1000000 := by
  obtain ⟨h1, h2⟩ := h
  omega

theorem cmp_millis {t t' : Timestamp} {ms ms' : Int} (h : AtMilli t ms) (h' : AtMilli t' ms') :
    t.cmp t' = compare ms ms' := by
  obtain ⟨h1, h2⟩ := h
  obtain ⟨h1', h2'⟩ := h'
  unfold Timestamp.cmp
  rw [show compare ms ms' = if ms < ms' then .lt else if ms = ms' then .eq else .gt from rfl]
  repeat' split
  all_goals first | rfl | (exfalso; omega)

/-- C129: the timestamps of two messages, of whatever kind, compare as the numbers of milliseconds in their lines do. -/
theorem C129_times (b b' : Build) (s s' : Bytes) (hu : Utf8 s) (hu' : Utf8 s') (hw : Within s) (hw' : Within s')
    (ht : TagsTerminated b s) (ht' : TagsTerminated b' s') (l l' : Line) (hl : line s = some l) (hl' : line s' = some l')
    (M M' : Message) (h : Message.parse b s = .ok (some M)) (h' : Message.parse b' s' = .ok (some M'))
    (t t' : Timestamp) (hs : sentAt M = some t) (hs' : sentAt M' = some t') :
    ∃ ms ms', SentMillis l ms ∧ SentMillis l' ms' ∧ (∀ n, SentMillis l n → n = ms) ∧ (∀ n, SentMillis l' n → n = ms') ∧
      t.cmp t' = compare ms ms' := by
  obtain ⟨v, ms, h1, h2, _, h4⟩ := sent_at b s hu hw ht l hl M h t hs
  obtain ⟨v', ms', h1', h2', _, h4'⟩ := sent_at b' s' hu' hw' ht' l' hl' M' h' t' hs'
  refine ⟨ms, ms', ⟨v, h1, h2⟩, ⟨v', h1', h2'⟩, ?_, ?_, cmp_millis h4 h4'⟩
  · rintro n ⟨x, hx, hn⟩
    rw [h1] at hx
    cases hx
    exact isInt_fun hn h2
  · rintro n ⟨x, hx, hn⟩
    rw [h1'] at hx
    cases hx
    exact isInt_fun hn h2'

def sampleEarlier : Bytes :=
  b!"@room-id=1;target-user-id=2;tmi-sent-ts=999 :tmi.twitch.tv CLEARCHAT #a :b"
def sampleLater : Bytes :=
  b!"@room-id=1;login=b;target-msg-id=x;tmi-sent-ts=01594556275123 :tmi.twitch.tv CLEARMSG #a :b"
theorem sampleEarlier_ok : checkLine sampleEarlier = true := by decide +kernel
theorem sampleEarlier_line : hasLine sampleEarlier = true := by decide +kernel
theorem sampleEarlier_gave : gave (Message.parse ⟨.scalar, true⟩ sampleEarlier) = true := by decide +kernel
theorem sampleLater_ok : checkLine sampleLater = true := by decide +kernel
theorem sampleLater_line : hasLine sampleLater = true := by decide +kernel
theorem sampleLater_gave : gave (Message.parse ⟨.scalar, true⟩ sampleLater) = true := by decide +kernel

example := C129_times ⟨.scalar, true⟩ ⟨.scalar, true⟩ sampleEarlier sampleLater (utf8_of sampleEarlier_ok)
  (utf8_of sampleLater_ok) (within_of sampleEarlier_ok) (within_of sampleLater_ok) (terminated_of sampleEarlier_ok _)
  (terminated_of sampleLater_ok _) _ _ (line_eq _ sampleEarlier_line) (line_eq _ sampleLater_line) _ _
  (given_eq _ sampleEarlier_gave) (given_eq _ sampleLater_gave) _ _
  (Option.some_get (by decide +kernel)).symm (Option.some_get (by decide +kernel)).symm

/-- The two are not equal, and the one with more digits is later, though its text has a smaller first digit. -/
example : ((sentAt (given _ sampleEarlier_gave)).bind fun t => (sentAt (given _ sampleLater_gave)).map t.cmp) = some .lt := by
  decide +kernel

/-! ## Texts -/

theorem year_digits {day y : Int} {m d : Nat} {ms : Int} (h : IsDate day y m d) (hms : FourDigits ms)
    (hd : day = ms / 1000 / 86400) : 0 ≤ y ∧ y < 10000 := by
  obtain ⟨a1, a2⟩ := date_in_year h
  obtain ⟨b1, b2⟩ := hms
  constructor
  · by_cases hy : 0 ≤ y
    · exact hy
    · exfalso
      have := daysTo_mono (y + 1) (0 - (y + 1)).toNat
      rw [show y + 1 + ((0 - (y + 1)).toNat : Int) = 0 by omega] at this
      omega
  · by_cases hy : y < 10000
    · exact hy
    · exfalso
      have := daysTo_mono 10000 (y - 10000).toNat
      rw [show 10000 + ((y - 10000).toNat : Int) = y by omega] at this
      omega

theorem texts_lt {t t' : Timestamp} {a b : Int} (h : AtMilli t a) (h' : AtMilli t' b) (ha : FourDigits a) (hb : FourDigits b)
    (hlt : a < b) : strCmp (timestampText t) (timestampText t') = if a % 1000 = 0 ∧ a / 1000 = b / 1000 then .gt else .lt := by
  obtain ⟨e1, e2⟩ := at_milli h
  obtain ⟨e1', e2'⟩ := at_milli h'
  have hx := timestampText_shows t
  have hy := timestampText_shows t'
  generalize timestampText t = x at *
  generalize timestampText t' = y at *
  cases hx with
  | leap _ _ _ _ _ _ _ _ _ _ _ hl _ => omega
  | mk day year month dom hour min sec hd hh hm hs hn ht =>
    cases hy with
    | leap _ _ _ _ _ _ _ _ _ _ _ hl _ => omega
    | mk day' year' month' dom' hour' min' sec' hd' hh' hm' hs' hn' ht' =>
      by_cases hsec : a / 1000 = b / 1000
      · have e : day * 86400 + hour * 3600 + min * 60 + sec = day' * 86400 + hour' * 3600 + min' * 60 + sec' := by omega
        obtain ⟨rfl, rfl, rfl, rfl⟩ : day = day' ∧ hour = hour' ∧ min = min' ∧ sec = sec' := by omega
        obtain ⟨rfl, rfl, rfl⟩ := date_unique hd hd'
        unfold showTime
        simp only [List.append_assoc]
        repeat rw [strCmp_same]
        have := fraction_lt (f := (a % 1000).toNat) (g := (b % 1000).toNat) (by omega) (by omega) [] []
        rw [List.append_nil] at this
        rw [e2, e2', this]
        by_cases hz : a % 1000 = 0
        · rw [if_pos (by omega), if_pos ⟨hz, hsec⟩]
        · rw [if_neg (by omega), if_neg (by omega)]
      · rw [if_neg (by omega)]
        exact seconds_lt _ _ hd hd' (year_digits hd ha (by omega)) (year_digits hd' hb (by omega)) hh hm hs hh' hm' hs'
          (by omega)

/-- C129: so do the texts of these timestamps in printed and in saved messages, in the years 0 to 9999: what was sent
earlier comes first in the dictionary, except that a whole second comes after the rest of that second. -/
theorem C129_texts (t t' : Timestamp) (a b : Int) (h : AtMilli t a) (h' : AtMilli t' b) (ha : FourDigits a)
    (hb : FourDigits b) (hlt : a < b) (esc : Nat → Bool) (alternate : Bool) :
    (Before ((dbgTime t).text esc alternate) ((dbgTime t').text esc alternate) ↔ ¬ (a % 1000 = 0 ∧ a / 1000 = b / 1000)) ∧
    (Before (Chrono.codec.show_ t) (Chrono.codec.show_ t') ↔ ¬ (a % 1000 = 0 ∧ a / 1000 = b / 1000)) ∧
    (a % 1000 = 0 ∧ a / 1000 = b / 1000 → Before (Chrono.codec.show_ t') (Chrono.codec.show_ t)) := by
  have e : ∀ t, (dbgTime t).text esc alternate = timestampText t := by
    intro t; cases alternate <;> simp [Dbg.text, dbgTime, Dbg.compact, Dbg.pretty]
  have key := texts_lt h h' ha hb hlt
  have iff : Before (timestampText t) (timestampText t') ↔ ¬ (a % 1000 = 0 ∧ a / 1000 = b / 1000) := by
    rw [← strCmp_lt, key]
    split <;> simp [*]
  refine ⟨by rw [e, e]; exact iff, iff, fun hz => ?_⟩
  show Before (timestampText t') (timestampText t)
  rw [← strCmp_lt, strCmp_swap, key, if_pos hz]
  rfl

/-- The hypotheses are met by two messages of one second; and by one at its start and one in it, whose texts are in the
other order. -/
example := C129_texts (.ofMillis 1594556275001) (.ofMillis 1594556275123) 1594556275001 1594556275123 ⟨by decide, by decide⟩ ⟨by decide, by decide⟩
  ⟨by decide, by decide⟩ ⟨by decide, by decide⟩ (by decide) (fun _ => false) false
example := (C129_texts (.ofMillis 1594556275000) (.ofMillis 1594556275123) 1594556275000 1594556275123 ⟨by decide, by decide⟩ ⟨by decide, by decide⟩
  ⟨by decide, by decide⟩ ⟨by decide, by decide⟩ (by decide) (fun _ => false) false).2.2 (by decide)
example : timestampText (.ofMillis 1594556275000) = b!"2020-07-12T12:17:55Z" ∧
    timestampText (.ofMillis 1594556275123) = b!"2020-07-12T12:17:55.123Z" := by decide +kernel

end Tmi.Props
