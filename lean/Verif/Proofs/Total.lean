/-
When parsing a line faults, exactly.
-/
import Verif.Proofs.Irc

namespace Tmi.Model
open Tmi.Spec

theorem takeTags_no_at {s : Bytes} (h : ∀ r, s ≠ AT :: r) : takeTags s = (none, s) := by
  unfold takeTags
  split
  · rename_i c r
    rw [if_neg (by rintro rfl; exact h r rfl)]
  · rfl

theorem takeTags_space {t : Bytes} (rest : Bytes) (ht : SP ∉ t) :
    takeTags (AT :: (t ++ SP :: rest)) = (some t, rest) := by
  unfold takeTags
  simp only [if_true, cut_append rest ht]

theorem takeTags_no_space {r : Bytes} (hr : SP ∉ r) : takeTags (AT :: r) = (none, AT :: r) := by
  unfold takeTags
  simp only [if_true, cut_none hr]

/-- The three shapes of a line with respect to its tag section. -/
theorem tag_shape (s : Bytes) :
    (∀ r, s ≠ AT :: r) ∨ (∃ t rest, s = AT :: (t ++ SP :: rest) ∧ SP ∉ t) ∨
    (∃ r, s = AT :: r ∧ SP ∉ r) := by
  by_cases hat : ∃ r, s = AT :: r
  · obtain ⟨r, rfl⟩ := hat
    by_cases hsp : SP ∈ r
    · obtain ⟨t, rest, rfl, h⟩ := mem_split hsp
      exact .inr (.inl ⟨t, rest, rfl, h⟩)
    · exact .inr (.inr ⟨r, rfl, hsp⟩)
  · exact .inl fun r hr => hat ⟨r, hr⟩

theorem parseTags_pos (b : Build) {s : Bytes} (hu : Utf8 s) (hl : s.length < 4294967296)
    (hc : (tagPairs s).length ≤ 128) (ht : TagsTerminated b s) :
    ∃ tags? pre, parseTags b s 0 = .ok (tags?, pre.length) ∧ pre ++ (takeTags s).2 = s ∧
      Utf8 (takeTags s).2 ∧ tags?.getD [] = locate 0 (tagPairs s) := by
  rcases tag_shape s with h | ⟨t, rest, rfl, h⟩ | ⟨r, rfl, h⟩
  · have htk := takeTags_no_at h
    have htp : tagPairs s = [] := by unfold tagPairs; rw [htk]
    exact ⟨none, [], parseTags_no_at b h, by rw [htk]; rfl, by rw [htk]; exact hu, by rw [htp]; rfl⟩
  · have htk := takeTags_space rest h
    have htp : tagPairs (AT :: (t ++ SP :: rest)) = splitTags t := by unfold tagPairs; rw [htk]
    simp only [List.length_cons, List.length_append] at hl
    rw [htp] at hc
    have huu := (hu.tail (by decide)).split (x := SP) (by decide)
    refine ⟨some (locate 0 (splitTags t)), AT :: (t ++ [SP]), ?_, by rw [htk]; simp,
      by rw [htk]; exact huu.2, by rw [htp]; rfl⟩
    rw [parseTags_space b rest h, sectionTags_eq b.checks t (by omega), if_pos hc]
    simp [bind_ok]
  · have htk := takeTags_no_space h
    have htp : tagPairs (AT :: r) = [] := by unfold tagPairs; rw [htk]
    refine ⟨none, [], ?_, by rw [htk]; rfl, by rw [htk]; exact hu, by rw [htp]; rfl⟩
    unfold parseTags
    split
    · rename_i h'; exact absurd (ht h' r rfl) h
    · exact simdParse_no_space (Arch.lawful _) _ _ h

/-- Parsing succeeds or declines when there are at most 128 tags and the tag section ends. -/
theorem parse_ok (b : Build) {s : Bytes} (hu : Utf8 s) (hl : s.length < 4294967296)
    (hc : (tagPairs s).length ≤ 128) (ht : TagsTerminated b s) :
    ∃ r, MsgRef.parse b s = .ok r ∧ (r = none ↔ line s = none) ∧
      ∀ m, r = some m → m.src = s ∧ m.checks = b.checks ∧
        m.parts.tags = locate 0 (tagPairs s) := by
  obtain ⟨tags?, pre1, ht1, ht2, ht3, ht4⟩ := parseTags_pos b hu hl hc ht
  have hl1 : (pre1 ++ (takeTags s).2).length < 4294967296 := by rw [ht2]; exact hl
  obtain ⟨rp, pre2, hp1, hp2, hp3, hp4⟩ := parsePrefix_eq ht3 hl1
  rw [ht2] at hp1 hp2 hp3
  have hl2 : (pre2 ++ (takePrefix (takeTags s).2).2).length < 4294967296 := by
    rw [hp3]; exact hl
  have hcm := parseCommand_eq hp4 hl2
  rw [hp3] at hcm
  unfold MsgRef.parse
  rw [ht1, bind_ok]
  simp only []
  rw [hp1, bind_ok]
  simp only []
  unfold line
  simp only []
  split at hcm
  · rename_i hcmd
    obtain ⟨pos, hcm⟩ := hcm
    rw [hcm, bind_ok, if_pos hcmd]
    exact ⟨none, rfl, by simp, by simp⟩
  · rename_i hcmd
    obtain ⟨rc, pre3, hc1, hc2, hc3, hc4⟩ := hcm
    rw [if_neg hcmd, hc1, bind_ok]
    simp only []
    have hl3 : (pre3 ++ (takeToken (takePrefix (takeTags s).2).2).2).length < 4294967296 := by
      rw [hc3]; exact hl
    obtain ⟨ch, pre4, hh1, hh2, hh3, hh4⟩ := parseChannel_eq hc4 hl3
    rw [hc3] at hh1 hh2 hh3
    rw [hh1, bind_ok]
    simp only []
    have hl4 : (pre4 ++ (takeChannel (takeToken (takePrefix (takeTags s).2).2).2).2).length
        < 4294967296 := by
      rw [hh3]; exact hl
    obtain ⟨sp, hq1, hq2⟩ := parseParams_eq hh4 hl4
    rw [hh3] at hq1 hq2
    rw [hq1, bind_ok]
    refine ⟨_, rfl, by simp, ?_⟩
    intro m hm
    simp at hm
    subst hm
    exact ⟨rfl, rfl, ht4⟩

theorem scalarLoop_total (checks : Bool) : ∀ (t : Bytes) (off : Nat) (st : TState)
    (tags : List TagPair), SP ∉ t →
    (∃ tags', scalarLoop checks t off st tags = .ok (off + t.length, tags')) ∨
    (∃ e, scalarLoop checks t off st tags = .error e)
  | [], off, st, tags, _ => .inl ⟨tags, by rw [scalarLoop]; rfl⟩
  | c :: t, off, st, tags, h => by
    rw [List.mem_cons, not_or] at h
    have ih := fun off st tags => scalarLoop_total checks t off st tags h.2
    have harith : off + (c :: t).length = off + 1 + t.length := by simp; omega
    rw [harith]
    by_cases h1 : c = EQS
    · cases st with
      | key ks => rw [scalarLoop, if_pos h1]; exact ih _ _ _
      | value ks ke => rw [scalarLoop, if_pos h1]; exact ih _ _ _
    · by_cases h2 : c = SEMI
      · cases st with
        | key ks => rw [scalarLoop, if_neg h1, if_pos h2]; exact ih _ _ _
        | value ks ke =>
          rw [scalarLoop, if_neg h1, if_pos h2]
          cases mkPair checks ks ke off with
          | error e => exact .inr ⟨e, rfl⟩
          | ok p =>
            rw [bind_ok]
            cases pushTag tags p with
            | error e => exact .inr ⟨e, rfl⟩
            | ok tags => rw [bind_ok]; exact ih _ _ _
      · rw [scalarLoop.eq_def]
        simp only [if_neg h1, if_neg h2, if_neg (Ne.symm h.1)]
        exact ih _ _ _

/-- The scalar tag parser leaves the position beyond the end of a line whose tag section does not
end; the next step then slices out of range. -/
theorem scalar_unterminated (checks : Bool) {r : Bytes} (hr : SP ∉ r) :
    ∃ e, MsgRef.parse ⟨.scalar, checks⟩ (AT :: r) = .error e := by
  have hp : parseTags ⟨.scalar, checks⟩ (AT :: r) 0 = scalarParse checks (AT :: r) 0 := rfl
  unfold MsgRef.parse
  rw [hp]
  unfold scalarParse
  rw [strFrom_zero, bind_ok]
  simp only [if_true]
  rcases scalarLoop_total checks r 0 (.key 0) [] hr with ⟨tags', h⟩ | ⟨e, h⟩
  · rw [h, bind_ok]
    have hs : strFrom (AT :: r) (0 + (0 + r.length + 2)) = .error .slice := by
      unfold strFrom isCharBoundary
      have h2 : 0 + (0 + r.length + 2) = r.length + 1 + 1 := by omega
      rw [h2]
      have h3 : (AT :: r)[r.length + 1 + 1]? = none := by
        rw [List.getElem?_eq_none_iff]; simp
      simp only [h3]
      simp
    refine ⟨.slice, ?_⟩
    simp only [pure, Except.pure]
    rw [bind_ok]
    simp only []
    unfold parsePrefix
    rw [hs]
    rfl
  · rw [h]
    exact ⟨e, rfl⟩

/-- Too many tags: the array index panics, in every build. -/
theorem too_many_tags (b : Build) {s : Bytes} (hl : s.length < 4294967296)
    (hc : 128 < (tagPairs s).length) : MsgRef.parse b s = .error .full := by
  rcases tag_shape s with h | ⟨t, rest, rfl, h⟩ | ⟨r, rfl, h⟩
  · have htk := takeTags_no_at h
    have htp : tagPairs s = [] := by unfold tagPairs; rw [htk]
    rw [htp] at hc
    simp at hc
  · have htk := takeTags_space rest h
    have htp : tagPairs (AT :: (t ++ SP :: rest)) = splitTags t := by unfold tagPairs; rw [htk]
    rw [htp] at hc
    simp only [List.length_cons, List.length_append] at hl
    unfold MsgRef.parse
    rw [parseTags_space b rest h, sectionTags_eq b.checks t (by omega), if_neg (by omega)]
    rfl
  · have htk := takeTags_no_space h
    have htp : tagPairs (AT :: r) = [] := by unfold tagPairs; rw [htk]
    rw [htp] at hc
    simp at hc

/-- The SIMD builds agree on every byte string. -/
theorem parseTags_simd_eq (a₁ a₂ : Arch) (p₁ p₂ : Nat) (checks : Bool) (s : Bytes) :
    parseTags ⟨.simd a₁ p₁, checks⟩ s 0 = parseTags ⟨.simd a₂ p₂, checks⟩ s 0 := by
  rcases tag_shape s with h | ⟨t, rest, rfl, h⟩ | ⟨r, rfl, h⟩
  · rw [parseTags_no_at _ h, parseTags_no_at _ h]
  · rw [parseTags_space _ rest h, parseTags_space _ rest h]
  · show simdParse checks a₁.backend p₁ (AT :: r) 0 = simdParse checks a₂.backend p₂ (AT :: r) 0
    rw [simdParse_no_space (Arch.lawful _) _ _ h, simdParse_no_space (Arch.lawful _) _ _ h]

/-- Which faults the byte automaton can raise. -/
theorem runTags_fault (checks : Bool) : ∀ (s : Bytes) (off : Nat) (st : TState)
    (tags : List TagPair) (e : Fault),
    (match st with | .key ks => ks ≤ off | .value ks ke => ks ≤ ke ∧ ke + 1 ≤ off) →
    (runTags checks s off st tags >>= finishTags checks (off + s.length)) = .error e →
    e = .full ∨ e = .overflow := by
  have hmk : ∀ {ks ke pos : Nat} {e : Fault}, mkPair checks ks ke pos = .error e → e = .overflow := by
    intro ks ke pos e h
    unfold mkPair addU32 usub at h
    split at h
    · rw [bind_ok] at h
      split at h
      · rw [bind_ok] at h
        split at h
        · simp [bind, Except.bind, pure, Except.pure] at h
        · simp [bind, Except.bind] at h; exact h.symm
      · simp [bind, Except.bind] at h; exact h.symm
    · split at h
      · simp [bind, Except.bind] at h; exact h.symm
      · rw [bind_ok] at h
        split at h
        · rw [bind_ok] at h
          split at h
          · simp [bind, Except.bind, pure, Except.pure] at h
          · simp [bind, Except.bind] at h; exact h.symm
        · simp [bind, Except.bind] at h; exact h.symm
  have hpush : ∀ {tags : List TagPair} {p : TagPair} {e : Fault},
      pushTag tags p = .error e → e = .full := by
    intro tags p e h
    unfold pushTag at h
    split at h
    · simp at h
    · simp at h; exact h.symm
  intro s
  induction s with
  | nil =>
    intro off st tags e hst h
    rw [runTags, bind_ok] at h
    cases st with
    | key ks => simp [finishTags] at h
    | value ks ke =>
      unfold finishTags at h
      simp only [] at h
      cases hp : mkPair checks ks ke (off + ([] : Bytes).length) with
      | error e' => rw [hp] at h; simp [bind, Except.bind] at h; subst h; exact .inr (hmk hp)
      | ok p => rw [hp, bind_ok] at h; exact .inl (hpush h)
  | cons c s ih =>
    intro off st tags e hst h
    have harith : off + (c :: s).length = off + 1 + s.length := by simp; omega
    rw [harith] at h
    cases st with
    | key ks =>
      simp only [] at hst
      rw [runTags] at h
      split at h
      · exact ih _ _ _ _ (by simp only []; omega) h
      · exact ih _ _ _ _ (by simp only []; omega) h
    | value ks ke =>
      simp only [] at hst
      rw [runTags] at h
      split at h
      · cases hp : mkPair checks ks ke off with
        | error e' => rw [hp] at h; simp [bind, Except.bind] at h; subst h; exact .inr (hmk hp)
        | ok p =>
          rw [hp, bind_ok] at h
          cases hq : pushTag tags p with
          | error e' => rw [hq] at h; simp [bind, Except.bind] at h; subst h; exact .inl (hpush hq)
          | ok tags' => rw [hq, bind_ok] at h; exact ih _ _ _ _ (by simp only []; omega) h
      · exact ih _ _ _ _ (by simp only []; omega) h

end Tmi.Model
