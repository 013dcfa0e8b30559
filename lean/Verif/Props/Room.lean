/-
Property C97: how much room a typed message takes.
-/
import Verif.Proofs.Room
import Verif.Proofs.Serve
import Verif.Props.Msg

namespace Tmi.Props
open Tmi.Model Tmi.Spec Tmi.Proofs

/-! ## C97: a typed message takes no more room than the line it was made of -/

/-- C97: apart from the badges, the texts of a message take no more room than the line: no part of the line is copied
twice.  (`7` is the length of the default colour of announcements.) -/
theorem C97_texts (b : Build) (s : Bytes) (hr : Readable b s)
    (ho : ∀ l, line s = some l → l.command = b!"ROOMSTATE" → ¬ FollowersOverflow l) (M : Message)
    (h : Message.parse b s = .ok (some M)) : total (messageTexts M) ≤ s.length + 7 := by
  obtain ⟨l, hl, hM, hm⟩ := (C21_message b s hr.1 hr.2.1 hr.2.2 ho M).1 h
  by_cases hx : ∃ m, M = .other m
  · obtain ⟨m, rfl⟩ := hx
    have := parse_src (hm m rfl)
    simp only [messageTexts, this, total_cons, total_nil]
    omega
  · have := message_le hl hM fun m e => hx ⟨m, e⟩
    omega

/-- C97 holds in part: a message takes no more room than its line if no badge is there twice. -/
theorem C97_distinct_partial (b : Build) (s : Bytes) (hr : Readable b s) (l : Line) (hl : line s = some l)
    (ho : l.command = b!"ROOMSTATE" → ¬ FollowersOverflow l) (hd : BadgesDistinct l) (M : Message)
    (h : Message.parse b s = .ok (some M)) : room M ≤ s.length + 7 := by
  have ho' : ∀ l, line s = some l → l.command = b!"ROOMSTATE" → ¬ FollowersOverflow l := by
    intro l' hl'
    rw [hl] at hl'
    cases hl'
    exact ho
  have h1 := C97_texts b s hr ho' M h
  obtain ⟨l', hl', hM, -⟩ := (C21_message b s hr.1 hr.2.1 hr.2.2 ho' M).1 h
  rw [hl] at hl'
  cases hl'
  unfold room
  rcases message_badges hM with hb | hb
  · rw [hb]
    simp only [List.flatMap_nil, total_nil]
    omega
  · by_cases hx : ∃ m, M = .other m
    · obtain ⟨m, rfl⟩ := hx
      simp only [messageBadges, List.flatMap_nil, total_nil]
      omega
    · have h2 := message_le hl hM fun m e => hx ⟨m, e⟩
      have h3 := badges_distinct hb hd
      omega

/-- C97, any line: the room is bounded by the length of the line and the product of the lengths of the tags with the
badges. -/
theorem C97_any (b : Build) (s : Bytes) (hr : Readable b s) (l : Line) (hl : line s = some l)
    (ho : l.command = b!"ROOMSTATE" → ¬ FollowersOverflow l) (M : Message) (h : Message.parse b s = .ok (some M)) :
    room M ≤ s.length + 7 + ((l.tag (b!"badges")).getD []).length * ((l.tag (b!"badge-info")).getD []).length := by
  have ho' : ∀ l, line s = some l → l.command = b!"ROOMSTATE" → ¬ FollowersOverflow l := by
    intro l' hl'
    rw [hl] at hl'
    cases hl'
    exact ho
  have h1 := C97_texts b s hr ho' M h
  obtain ⟨l', hl', hM, -⟩ := (C21_message b s hr.1 hr.2.1 hr.2.2 ho' M).1 h
  rw [hl] at hl'
  cases hl'
  unfold room
  rw [← olen_getD, ← olen_getD]
  rcases message_badges hM with hb | hb
  · rw [hb]
    simp only [List.flatMap_nil, total_nil]
    omega
  · by_cases hx : ∃ m, M = .other m
    · obtain ⟨m, rfl⟩ := hx
      simp only [messageBadges, List.flatMap_nil, total_nil]
      omega
    · have h2 := message_le hl hM fun m e => hx ⟨m, e⟩
      have h3 := badges_any hb
      generalize olen (l.tag (b!"badges")) * olen (l.tag (b!"badge-info")) = k at *
      omega

/-- A user with two badges. -/
def sampleFan : Bytes := b!"@badge-info=subscriber/22;badges=subscriber/12,vip/1;display-name=A USERSTATE #c"

theorem sampleFan_ok : checkLine sampleFan = true := by decide +kernel

theorem sampleFan_message : Message.parse ⟨.scalar, true⟩ sampleFan =
    .ok (some (.userState ⟨b!"#c", b!"A", [.subscriber ⟨b!"12", b!"22", 22⟩, .other ⟨b!"vip", b!"1", none⟩], [], none⟩)) := by
  decide +kernel

theorem sampleFan_room : line sampleFan = some ⟨[(b!"badge-info", b!"subscriber/22"), (b!"badges", b!"subscriber/12,vip/1"),
    (b!"display-name", b!"A")], none, b!"USERSTATE", some (b!"#c"), none⟩ := by decide +kernel

theorem sampleFan_distinct : BadgesDistinct ⟨[(b!"badge-info", b!"subscriber/22"), (b!"badges", b!"subscriber/12,vip/1"),
    (b!"display-name", b!"A")], none, b!"USERSTATE", some (b!"#c"), none⟩ := by
  intro v hv
  have hv' : some (b!"subscriber/12,vip/1") = some v := hv
  cases hv'
  decide +kernel

example := C97_texts ⟨.scalar, true⟩ sampleFan (readable_of sampleFan_ok _)
  (fun l hl hc => by rw [sampleFan_room] at hl; cases hl; exact absurd hc (by decide)) _ sampleFan_message

example := C97_distinct_partial ⟨.scalar, true⟩ sampleFan (readable_of sampleFan_ok _) _ sampleFan_room
  (fun hc => absurd hc (by decide)) sampleFan_distinct _ sampleFan_message

example := C97_any ⟨.scalar, true⟩ sampleFan (readable_of sampleFan_ok _) _ sampleFan_room
  (fun hc => absurd hc (by decide)) _ sampleFan_message

/-- The line of a user with `n` badges of the same name, of which `n` bytes are known. -/
def boasting (n : Nat) : Bytes :=
  AT :: (renderTags [(b!"badge-info", b!"a/" ++ List.replicate n 0x61), (b!"badges", renderEntries (List.replicate n (b!"a", []))),
    (b!"display-name", [])] ++ SP :: (COLON :: (b!"tmi.twitch.tv" ++ SP :: (b!"USERSTATE" ++ SP :: (HASH :: b!"c")))))

theorem renderEntries_length (n : Nat) : (renderEntries (List.replicate n (b!"a", []))).length ≤ 3 * n := by
  induction n with
  | zero => simp [renderEntries, joinWith]
  | succ n ih =>
    cases n with
    | zero => simp [renderEntries, joinWith]
    | succ n =>
      simp only [renderEntries, List.replicate_succ, List.map_cons] at ih ⊢
      rw [joinWith]
      · simp only [List.length_append, List.length_cons] at ih ⊢
        simp only [List.length_nil] at ih ⊢
        omega
      · simp

theorem renderEntries_mem {n : Nat} {c : UInt8} (h : c ∈ renderEntries (List.replicate n (b!"a", []))) :
    c = 0x61 ∨ c = SLASH ∨ c = COMMA := by
  apply Classical.byContradiction
  intro hn
  simp only [not_or] at hn
  refine mem_renderEntries hn.2.2 hn.2.1 ?_ h
  intro e he
  rw [(List.mem_replicate.1 he).2]
  simp [hn.1]

/-- C97 is false: the badge-info of a badge is copied for each badge of that name, so that the room that a message
takes grows with the square of the length of the line. -/
theorem C97_quadratic_negation (b : Build) (n : Nat) (hn : n < 20000) : ∃ M,
    (boasting n).length ≤ 4 * n + 80 ∧ Readable b (boasting n) ∧ Message.parse b (boasting n) = .ok (some M) ∧ n * n ≤ room M := by
  have hlen := renderEntries_length n
  have hl : line (boasting n) = some ⟨[(b!"badge-info", b!"a/" ++ List.replicate n 0x61),
      (b!"badges", renderEntries (List.replicate n (b!"a", []))), (b!"display-name", [])], some (b!"tmi.twitch.tv"),
      b!"USERSTATE", some (HASH :: b!"c"), none⟩ := by
    refine bare_line ?_ ?_ (by decide) (by decide) rfl (by decide)
    · simp only [List.mem_cons, List.not_mem_nil, or_false, forall_eq_or_imp, forall_eq]
      refine ⟨?_, ?_, ?_⟩ <;> constructor <;> decide
    · simp only [List.mem_cons, List.not_mem_nil, or_false, forall_eq_or_imp, forall_eq]
      refine ⟨⟨?_, ?_⟩, ⟨?_, ?_⟩, by simp [Unescaped]⟩
      · simp [List.mem_replicate, SP, SEMI]
      · simp [List.mem_replicate, SP, SEMI]
      · intro h; rcases renderEntries_mem h with h | h | h <;> exact absurd h (by decide)
      · intro h; rcases renderEntries_mem h with h | h | h <;> exact absurd h (by decide)
  have hshort : (boasting n).length ≤ 4 * n + 80 := by
    simp only [boasting, renderTags, List.length_cons, List.length_append, List.length_replicate, List.length_nil]
    omega
  have hutf : Utf8 (boasting n) := by
    have e : boasting n = b!"@badge-info=a/" ++ (List.replicate n 0x61 ++ (b!";badges=" ++
        (renderEntries (List.replicate n (b!"a", [])) ++ b!";display-name= :tmi.twitch.tv USERSTATE #c"))) := by
      simp [boasting, renderTags]
    rw [e]
    refine .append (.of_ascii (by decide)) (.append (.of_ascii ?_) (.append (.of_ascii (by decide))
      (.append (.of_ascii ?_) (.of_ascii (by decide)))))
    · intro x hx; rw [(List.mem_replicate.1 hx).2]; decide
    · intro x hx; rcases renderEntries_mem hx with rfl | rfl | rfl <;> decide
  have hpairs : tagPairs (boasting n) = [(b!"badge-info", b!"a/" ++ List.replicate n 0x61),
      (b!"badges", renderEntries (List.replicate n (b!"a", []))), (b!"display-name", [])] := by
    unfold line at hl
    unfold tagPairs
    simp only [] at hl
    split at hl
    · simp at hl
    · simp only [Option.some.injEq] at hl
      exact congrArg Line.tags hl
  have hr : Readable b (boasting n) := by
    refine ⟨hutf, ⟨by omega, by rw [hpairs]; simp, ?_⟩, ?_⟩
    · rw [hpairs]
      simp only [List.mem_cons, List.not_mem_nil, or_false, forall_eq_or_imp, forall_eq]
      simp
      omega
    · rintro - r hr
      unfold boasting at hr
      cases hr
      simp
  have hent : entries (b!"a/" ++ List.replicate n 0x61) = [(b!"a", List.replicate n 0x61)] := by
    have := entries_render (es := [(b!"a", List.replicate n 0x61)]) (by
      simp [COMMA, SLASH, List.mem_replicate])
    exact this
  have hbad : entries (renderEntries (List.replicate n (b!"a", []))) = List.replicate n (b!"a", []) :=
    entries_render fun e he => by rw [(List.mem_replicate.1 he).2]; decide
  have hM := (C21_message b (boasting n) hr.1 hr.2.1 hr.2.2 (fun l h hc => by
    rw [hl] at h; cases h; exact absurd (show b!"USERSTATE" = b!"ROOMSTATE" from hc) (by decide))
    (.userState ⟨HASH :: b!"c", [], List.replicate n (.other ⟨b!"a", [], some (List.replicate n 0x61)⟩), [], none⟩)).2
    ⟨_, hl, ⟨rfl, ⟨rfl, rfl, ⟨?_, ?_⟩, rfl, ?_⟩⟩, by simp⟩
  · refine ⟨_, hshort, hr, hM, ?_⟩
    have : ∀ k, total ((List.replicate k (Badge.other ⟨b!"a", [], some (List.replicate n (0x61 : UInt8))⟩)).flatMap badgeTexts) =
        k * (n + 1) := by
      intro k
      induction k with
      | zero => simp
      | succ k ih =>
        rw [List.replicate_succ, List.flatMap_cons, total_append, ih]
        simp [badgeTexts, Nat.add_mul]; omega
    show _ ≤ _ + total ((List.replicate n _).flatMap badgeTexts)
    rw [this, Nat.mul_add]
    omega
  · rintro (h | h)
    · exact absurd h (by simp [Line.tag, lookup])
    · exact absurd h (by simp [Line.tag, lookup])
  · intro v i hv hi
    have hv' : renderEntries (List.replicate n (b!"a", [])) = v := by
      simpa [Line.tag, lookup] using hv
    have hi' : b!"a/" ++ List.replicate n 0x61 = i := by
      simpa [Line.tag, lookup] using hi
    subst hv' hi'
    rw [hbad, hent]
    refine ⟨by simp, fun k name version hk => ?_⟩
    obtain ⟨hk', he⟩ := List.getElem?_eq_some_iff.1 hk
    rw [List.getElem_replicate] at he
    cases he
    refine ⟨_, by rw [List.getElem?_replicate, if_pos (by simpa using hk')], ?_⟩
    rfl
  · intro c
    simp [Line.tag, lookup]

/-- C97 is false: there is a line that the server may send, of less than five thousand bytes, whose message takes more
than a million. -/
theorem C97_negation (b : Build) : ∃ s M, s.length < 5000 ∧ Readable b s ∧
    Message.parse b s = .ok (some M) ∧ 1000000 < room M := by
  obtain ⟨M, h1, h0, h2, h3⟩ := C97_quadratic_negation b 1100 (by omega)
  exact ⟨_, M, by omega, h0, h2, by omega⟩

end Tmi.Props
