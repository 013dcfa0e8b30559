/-
C78, C79: how much work it is to parse a message, to look up a tag, to unescape a value and to read the badges.
-/
import Verif.Proofs.StepsBadges
import Verif.Props.Line

namespace Tmi.Props
open Model Spec Proofs

/-- C78: parsing takes at most eight steps for each byte of the line, and four hundred more: in particular it takes time
linear in the length of the line, whatever is on it and whichever of the parsers is used. -/
theorem C78_parse (b : Build) (s : Bytes) :
    (Steps.parse b s).out = MsgRef.parse b s ∧ (Steps.parse b s).steps ≤ 8 * s.length + 400 :=
  ⟨StepsP.parse_out b s, (StepsP.parse_within b s).1⟩

theorem mapM_ok_length {α β : Type} {f : α → R β} {l : List α} {r : List β} (h : l.mapM f = .ok r) :
    r.length = l.length := by
  induction l generalizing r with
  | nil => cases h; rfl
  | cons a l ih =>
    rw [List.mapM_cons] at h
    cases e : f a with
    | error x => rw [e] at h; cases h
    | ok v =>
      rw [e] at h
      cases e2 : l.mapM f with
      | error x => rw [e2] at h; cases h
      | ok w => rw [e2] at h; cases h; simp [ih e2]

/-- C78: the count leaves nothing out: without vectors every byte in front of the parameters is looked at, and every tag
is stored and copied. -/
theorem C78_count (b : Build) (hb : b.tagParser = .scalar) (s : Bytes) (hs : s.length < 2 ^ 32) (m : MsgRef)
    (h : MsgRef.parse b s = .ok (some m)) (tags : List (Bytes × Bytes)) (ht : m.tags = .ok tags)
    (params : Option Bytes) (hp : m.params = .ok params) :
    s.length + 2 * tags.length ≤ (Steps.parse b s).steps + (params.getD []).length := by
  have e : tags.length = m.parts.tags.length := by
    unfold MsgRef.tags at ht
    exact mapM_ok_length ht
  rw [e]
  exact StepsP.parse_spends b hb s hs _ ((StepsP.parse_out b s).trans h) m rfl params hp

example := C78_count ⟨.scalar, true⟩ rfl sampleRoomState (within_of sampleRoomState_ok).len _
  (given_eq _ sampleRoomState_msg) _ (got_eq _ (by decide +kernel)) _ (got_eq _ (by decide +kernel))

/-- C78: looking up a tag of a message takes a number of steps that depends on the name of the tag alone, not on the
message. -/
theorem C78_tag (b : Build) (s : Bytes) (m : MsgRef) (h : MsgRef.parse b s = .ok (some m)) (t : Tag) :
    (Steps.tag m t).out = m.tag t ∧ (Steps.tag m t).steps ≤ 128 * (t.asStr.length + 1) :=
  ⟨StepsP.tag_out m t, Nat.le_trans (StepsP.tag_within m t).1
    (Nat.mul_le_mul_right _ ((StepsP.parse_within b s).2 _ ((StepsP.parse_out b s).trans h) m rfl))⟩

example := C78_tag ⟨.scalar, true⟩ sampleRoomState _ (given_eq _ sampleRoomState_msg) .slow

/-- C78: the text of a message is found by looking at each byte at most once. -/
theorem C78_text (m : MsgRef) : (Steps.text m).out = m.text ∧ (Steps.text m).steps ≤ m.src.length :=
  ⟨StepsP.text_out m, (StepsP.text_within m).1⟩

/-- C78: unescaping takes time linear in the length of the value. -/
theorem C78_unescape (v : Bytes) :
    ((Steps.unescape v).out = .ok (unescape v) ∧ (Steps.unescape v).steps ≤ v.length) ∧
    (Steps.maybeUnescape v).out = maybeUnescape v ∧ (Steps.maybeUnescape v).steps ≤ 2 * v.length :=
  ⟨⟨StepsP.unescape_out v, (StepsP.unescape_within v).1⟩, StepsP.maybeUnescape_out v, (StepsP.maybeUnescape_within v).1⟩

/-- Non-vacuity of C78: the steps for a line with two tags, a prefix, a channel and parameters, for
a tag and for a value. -/
example :
    (∃ m, MsgRef.parse ⟨.scalar, true⟩ (b!"@id=1;mod=0 :a!b@c PRIVMSG #d :hi") = .ok (some m) ∧
      m.tags = .ok [(b!"id", b!"1"), (b!"mod", b!"0")] ∧ m.params = .ok (some (b!":hi")) ∧
      (Steps.tag m .id).steps = 3) ∧
    (Steps.parse ⟨.scalar, true⟩ (b!"@id=1;mod=0 :a!b@c PRIVMSG #d :hi")).steps = 64 ∧
    (Steps.maybeUnescape (b!"ab\\sc")).steps = 8 := by
  refine ⟨⟨_, rfl, ?_, ?_, ?_⟩, ?_, ?_⟩ <;> decide +kernel

theorem badgesOf_steps {m : MsgRef} {x y : Bytes} (hx : m.tag .badges = .ok (some x))
    (hy : m.tag .badgeInfo = .ok (some y)) : (Steps.badgesOf m).steps =
      (Steps.tag m .badges).steps + ((Steps.tag m .badgeInfo).steps + (Steps.parseBadges x y).steps) := by
  show (Steps.Run.bind _ _).steps = _
  rw [Steps.Run.bind, StepsP.tag_out, hx]
  show _ + (Steps.Run.bind _ _).steps = _
  rw [Steps.Run.bind, StepsP.tag_out, hy]

/-- C79 holds in part: the work of reading badges is at most proportional to the product of the lengths of the two tags
they are read from. -/
theorem C79_badges_partial (b : Build) (s : Bytes) (m : MsgRef) (h : MsgRef.parse b s = .ok (some m)) (x y : Bytes)
    (hx : m.tag .badges = .ok (some x)) (hy : m.tag .badgeInfo = .ok (some y)) :
    (Steps.badgesOf m).out = badgesOf m ∧
    (Steps.badgesOf m).steps ≤ x.length * (2 * y.length + 47) + 2 * y.length + 2500 := by
  refine ⟨StepsP.badgesOf_out m, ?_⟩
  have h1 : (Steps.tag m .badges).steps ≤ 128 * 7 := (C78_tag b s m h .badges).2
  have h2 : (Steps.tag m .badgeInfo).steps ≤ 128 * 11 := (C78_tag b s m h .badgeInfo).2
  have h3 := (StepsP.parseBadges_within x y).1
  rw [badgesOf_steps hx hy]
  omega

example := C79_badges_partial ⟨.scalar, true⟩ sampleUserState _ (given_eq _ sampleUserState_msg) (b!"moderator/1") []
  (by decide +kernel) (by decide +kernel)

/-- A line with `n` badges `a/` and information on `n` badges `b/`. -/
def manyBadges (n : Nat) : Bytes :=
  [AT] ++ renderTags [(b!"badges", StepsP.many 0x61 n), (b!"badge-info", StepsP.many 0x62 n)] ++ [SP] ++ b!"PING"

theorem manyBadges_length (n : Nat) : (manyBadges n).length = 6 * n + 25 := by
  simp [manyBadges, renderTags, StepsP.many_length]
  omega

theorem many_mem {x c : UInt8} {n : Nat} (h : c ∈ StepsP.many x n) : c = x ∨ c = SLASH ∨ c = COMMA := by
  induction n with
  | zero => cases h
  | succ n ih =>
    simp only [StepsP.many, List.mem_cons] at h
    rcases h with h | h | h | h
    · exact .inl h
    · exact .inr (.inl h)
    · exact .inr (.inr h)
    · exact ih h

/-- C79 is false: reading the badges of a line takes time that grows with the square of its length. -/
theorem C79_quadratic_negation (b : Build) (n : Nat) (hn : n < 20000) : ∃ m,
    MsgRef.parse b (manyBadges n) = .ok (some m) ∧ (manyBadges n).length = 6 * n + 25 ∧
    n * n ≤ (Steps.badgesOf m).steps := by
  have utf : ∀ (x : UInt8), x < 0x80 → Utf8 (StepsP.many x n) := fun x hx => Utf8.of_ascii fun c hc => by
    rcases many_mem hc with rfl | rfl | rfl
    · exact hx
    · decide
    · decide
  have hl := manyBadges_length n
  obtain ⟨r, hr, h1, h2⟩ := C08_tags_roundtrip b [(b!"badges", StepsP.many 0x61 n), (b!"badge-info", StepsP.many 0x62 n)]
    (b!"PING") (by simp) (by
      intro p hp
      simp only [List.mem_cons, List.not_mem_nil, or_false] at hp
      rcases hp with rfl | rfl
      · exact ⟨Utf8.of_ascii (a := b!"badges") (by decide), utf _ (by decide)⟩
      · exact ⟨Utf8.of_ascii (a := b!"badge-info") (by decide), utf _ (by decide)⟩) (Utf8.of_ascii (by decide)) (by
      intro p hp
      simp only [List.mem_cons, List.not_mem_nil, or_false] at hp
      rcases hp with rfl | rfl
      · show EQS ∉ b!"badges" ∧ SP ∉ b!"badges" ∧ (b!"badges").length < 65536; decide
      · show EQS ∉ b!"badge-info" ∧ SP ∉ b!"badge-info" ∧ (b!"badge-info").length < 65536; decide) (by
      intro p hp
      simp only [List.mem_cons, List.not_mem_nil, or_false] at hp
      rcases hp with rfl | rfl <;> refine ⟨fun hc => ?_, fun hc => ?_, ?_⟩
      · rcases many_mem hc with h | h | h <;> exact absurd h (by decide)
      · rcases many_mem hc with h | h | h <;> exact absurd h (by decide)
      · show (StepsP.many _ n).length < _; rw [StepsP.many_length]; omega
      · rcases many_mem hc with h | h | h <;> exact absurd h (by decide)
      · rcases many_mem hc with h | h | h <;> exact absurd h (by decide)
      · show (StepsP.many _ n).length < _; rw [StepsP.many_length]; omega) (by
      show (manyBadges n).length < _; omega)
  cases r with
  | none => exact absurd rfl (h2 _ _ rfl (by decide) (by decide))
  | some m =>
    refine ⟨m, hr, hl, ?_⟩
    have ht := h1 m rfl
    have hx : m.tag .badges = .ok (some (StepsP.many 0x61 n)) := tag_of_tags ht .badges
    have hy : m.tag .badgeInfo = .ok (some (StepsP.many 0x62 n)) := tag_of_tags ht .badgeInfo
    have hs := StepsP.parseBadges_many 0x61 0x62 (by decide) (by decide) (by decide) n _ (StepsP.parseBadges_out ..)
    rw [badgesOf_steps hx hy]
    omega

/-- C79 is false: there are lines that a server may send, of less than eight thousand bytes, whose badges take more than
two hundred steps for each byte of the line. -/
theorem C79_negation (b : Build) : ∃ s m, s.length < 8000 ∧ MsgRef.parse b s = .ok (some m) ∧
    200 * s.length < (Steps.badgesOf m).steps := by
  obtain ⟨m, h, hl, hs⟩ := C79_quadratic_negation b 1300 (by omega)
  exact ⟨_, m, by omega, h, by omega⟩

/-- Non-vacuity of C79: the badges of a message. -/
example : ∃ m, MsgRef.parse ⟨.scalar, true⟩ (b!"@badges=a/1,vip/1;badge-info=vip/7 PING") = .ok (some m) ∧
    m.tag .badges = .ok (some (b!"a/1,vip/1")) ∧ m.tag .badgeInfo = .ok (some (b!"vip/7")) ∧
    badgesOf m = .ok [.other ⟨b!"a", b!"1", none⟩, .other ⟨b!"vip", b!"1", some (b!"7")⟩] ∧
    (Steps.badgesOf m).steps = 146 := by
  refine ⟨_, rfl, ?_, ?_, ?_, ?_⟩ <;> decide +kernel

end Tmi.Props
