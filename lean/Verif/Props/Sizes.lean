/-
Properties C01, C02 and C17 for every line that is parsed, whatever the sizes of its keys and values.
-/
import Verif.Proofs.Sizes
import Verif.Props.Line

namespace Tmi.Props
open Tmi.Model Tmi.Spec Tmi.Proofs

/-- What is known about a line once `parse` has returned. -/
theorem returned_limits {b : Build} {s : Bytes} (hu : Utf8 s) (hl : s.length < 4294967296)
    {r : Option MsgRef} (h : MsgRef.parse b s = .ok r) :
    (tagPairs s).length ≤ 128 ∧ TagsTerminated b s := by
  have hn : ¬ (128 < (tagPairs s).length ∨ (b.tagParser = .scalar ∧ s.head? = some AT ∧ SP ∉ s)) := by
    intro hh
    obtain ⟨e, he⟩ := (C01_parse_panics_iff b s hu hl).2 hh
    rw [h] at he; simp at he
  refine ⟨Nat.le_of_not_lt fun hc => hn (.inl hc), ?_⟩
  intro hb t ht
  refine Classical.byContradiction fun hm => hn (.inr ⟨hb, by rw [ht]; rfl, ?_⟩)
  rw [ht]
  intro h'
  rcases List.mem_cons.1 h' with h' | h'
  · exact absurd h' (by decide)
  · exact hm h'

theorem allStrings_none (l : List (Option Bytes × Option Bytes)) :
    allStrings l = none ↔ ∃ kv ∈ l, kv.1 = none ∨ kv.2 = none := by
  induction l with
  | nil => simp [allStrings]
  | cons kv l ih =>
    obtain ⟨k, v⟩ := kv
    cases k with
    | none => simp [allStrings]
    | some k =>
      cases v with
      | none => simp [allStrings]
      | some v =>
        rw [allStrings, Option.map_eq_none_iff, ih]
        simp

/-- `parse` that returned, put together. -/
theorem returned_rest {b : Build} {s : Bytes} (hu : Utf8 s) (hl : s.length < 4294967296)
    {r : Option MsgRef} (h : MsgRef.parse b s = .ok r) :
    match line s with
    | none => r = none
    | some l => ∃ m, r = some m ∧ m.src = s ∧ m.checks = b.checks ∧
        m.parts.tags = locate 0 (tagPairs s) ∧ RestOf m l := by
  obtain ⟨hc, ht⟩ := returned_limits hu hl h
  have hr := parse_rest b hu hl hc ht
  cases hline : line s with
  | none =>
    rw [hline] at hr
    simp only [] at hr ⊢
    rw [h] at hr
    injection hr
  | some l =>
    rw [hline] at hr
    simp only [] at hr ⊢
    obtain ⟨m, hm, h1⟩ := hr
    rw [h] at hm
    injection hm with hm
    exact ⟨m, hm, h1⟩

theorem returned_some {b : Build} {s : Bytes} (hu : Utf8 s) (hl : s.length < 4294967296) {m : MsgRef}
    (h : MsgRef.parse b s = .ok (some m)) : ∃ l, line s = some l ∧ RestOf m l := by
  have hr := returned_rest hu hl h
  cases hline : line s with
  | none => rw [hline] at hr; cases hr
  | some l =>
    rw [hline] at hr
    obtain ⟨m', e, -, -, -, R⟩ := hr
    cases e
    exact ⟨l, rfl, R⟩

/-- C02, for every line below 4 GiB on which `parse` returns, whatever the sizes of its tags: the message is
refused exactly when the grammar has no command, and everything but the tags is as in the grammar. -/
theorem C02_returned (b : Build) (s : Bytes) (hu : Utf8 s) (hl : s.length < 4294967296)
    (r : Option MsgRef) (h : MsgRef.parse b s = .ok r) :
    (r = none ↔ line s = none) ∧
    (∀ m, r = some m → ∃ l, line s = some l ∧
      m.raw = s ∧
      m.prefix? = .ok (l.prefix?.map fun p => ⟨nickOf p, userOf p, hostOf p⟩) ∧
      (∃ c, m.command = .ok c ∧ c.asStr = l.command) ∧
      (l.command ≠ b!"353" → l.command ≠ b!"366" → m.channel = .ok l.channel) ∧
      m.params = .ok l.params ∧
      m.text = .ok (l.params.map textOf) ∧
      ((∀ kv ∈ l.tags, kv.1.length < 65536 ∧ kv.2.length < 65536) → m.tags = .ok l.tags)) := by
  have hr := returned_rest hu hl h
  obtain ⟨hc, ht⟩ := returned_limits hu hl h
  cases hline : line s with
  | none =>
    rw [hline] at hr
    simp only [] at hr
    exact ⟨by simp [hr], by simp [hr]⟩
  | some l =>
    rw [hline] at hr
    simp only [] at hr
    obtain ⟨m, rfl, hsrc, hch, htags, R⟩ := hr
    refine ⟨by simp, ?_⟩
    intro m' hm'
    injection hm' with hm'
    subst hm'
    refine ⟨l, rfl, hsrc, R.prefix?, ⟨_, R.command, commandOf_asStr _⟩, ?_, R.params, R.text, ?_⟩
    · intro h1 h2
      unfold MsgRef.channel
      rw [R.command, bind_ok]
      split
      · rename_i hc
        have := commandOf_asStr l.command
        rw [hc] at this
        exact absurd this.symm h1
      · rename_i hc
        have := commandOf_asStr l.command
        rw [hc] at this
        exact absurd this.symm h2
      · exact R.rawChannel
    · intro hsz
      have htl : l.tags = tagPairs s := by
        unfold line at hline
        simp only [] at hline
        split at hline
        · simp at hline
        · injection hline with hline
          rw [← hline]
          rfl
      have hp := parse_refines b hu ⟨hl, hc, by rw [← htl]; exact hsz⟩ ht
      rw [hline] at hp
      obtain ⟨m2, hm2, -, -, R2⟩ := hp
      rw [h] at hm2
      injection hm2 with hm2
      injection hm2 with hm2
      subst hm2
      exact R2.tags

/-- Non-vacuity of `C02_returned`: the sample line is parsed by every build. -/
example (b : Build) : ∃ m, MsgRef.parse b sampleLine = .ok (some m) := by
  have h := parse_refines b sample_utf8 sample_within (sample_terminated b)
  have hl : (line sampleLine).isSome := by decide +kernel
  cases hline : line sampleLine with
  | none => rw [hline] at hl; simp at hl
  | some l =>
    rw [hline] at h
    obtain ⟨m, hm, _⟩ := h
    exact ⟨m, hm⟩

/-- C12, for every line below 4 GiB that is parsed, whatever the sizes of its tags. -/
theorem C12_parsed (b : Build) (s : Bytes) (hu : Utf8 s) (hl : s.length < 4294967296) (m : MsgRef)
    (h : MsgRef.parse b s = .ok (some m)) :
    ∃ l c, line s = some l ∧ m.command = .ok c ∧ c.asStr = l.command ∧ c.display = l.command ∧
      (∀ name k, (name, k) ∈ commandNames → (c = k ↔ l.command = name)) ∧
      ((∀ row ∈ commandNames, row.1 ≠ l.command) ↔ c = .other l.command) ∧
      (∀ t, c = .other t → t = l.command) := by
  obtain ⟨l, hline, R⟩ := returned_some hu hl h
  exact ⟨l, _, hline, R.command, commandOf_asStr _, commandOf_asStr _, command_exact _⟩

/-- C13, for every line below 4 GiB that is parsed, whatever the sizes of its tags. -/
theorem C13_parsed (b : Build) (s : Bytes) (hu : Utf8 s) (hl : s.length < 4294967296) (m : MsgRef)
    (h : MsgRef.parse b s = .ok (some m)) :
    ∃ l, line s = some l ∧
      (l.command ≠ b!"353" → l.command ≠ b!"366" → m.channel = .ok l.channel) ∧
      (∀ c, l.channel = some c → ∃ n, c = HASH :: n ∧ SP ∉ n) ∧
      (∀ cs, l.command = b!"353" → l.params = some (enc cs) →
        m.channel = .ok ((words cs)[2]?.map enc)) ∧
      (∀ cs, l.command = b!"366" → l.params = some (enc cs) →
        m.channel = .ok ((words cs)[1]?.map enc)) ∧
      (l.command = b!"353" ∨ l.command = b!"366" → l.params = none → m.channel = .ok none) := by
  obtain ⟨l, hline, R⟩ := returned_some hu hl h
  exact ⟨l, hline, channel_exact hline R.command R.params R.rawChannel⟩

/-- C14, for every line below 4 GiB that is parsed, whatever the sizes of its tags. -/
theorem C14_parsed (b : Build) (s : Bytes) (hu : Utf8 s) (hl : s.length < 4294967296) (m : MsgRef)
    (h : MsgRef.parse b s = .ok (some m)) :
    ∃ l r, line s = some l ∧ m.text = .ok r ∧
      (r = none ↔ l.params = none) ∧
      (∀ p, l.params = some p → COLON ∉ p → r = some p) ∧
      (∀ a t, l.params = some (a ++ COLON :: t) → COLON ∉ a → r = some t) ∧
      (∀ a t, l.params = some (a ++ COLON :: t) → COLON ∉ t → COLON ∉ a → r = some t) := by
  obtain ⟨l, hline, R⟩ := returned_some hu hl h
  exact ⟨l, _, hline, R.text, text_exact _⟩

/-- Non-vacuity: a line with a value of 65536 bytes, more than `tag` can return, is parsed, and its command is PING. -/
example (b : Build) : ∃ m, MsgRef.parse b ([AT] ++ b!"id" ++ [EQS] ++ List.replicate 65536 0x61 ++ [SP] ++ b!"PING")
      = .ok (some m) ∧ ∃ l c, line ([AT] ++ b!"id" ++ [EQS] ++ List.replicate 65536 0x61 ++ [SP] ++ b!"PING") = some l ∧
        m.command = .ok c ∧ c.asStr = l.command := by
  obtain ⟨m, hm⟩ := C17_negation_reachable b
  obtain ⟨l, c, hl, hc, he, -⟩ := C12_parsed b _ (.of_ascii fun x hx => by
      simp only [List.mem_append, List.mem_replicate, List.mem_cons, List.not_mem_nil, or_false] at hx
      rcases hx with ((((rfl | rfl | rfl) | rfl) | ⟨-, rfl⟩) | rfl) | rfl | rfl | rfl | rfl <;> decide)
    (by simp only [List.length_append, List.length_replicate]; decide) m hm
  exact ⟨m, hm, l, c, hl, hc, he⟩

/-- C01, accessors, for every line below 4 GiB that is parsed: the prefix, the command, the channel, the
params and the text never panic; `tags` panics exactly when a key or a value, cut as in `C17_exact`, is not a
string. -/
theorem C01_accessors_exact (b : Build) (s : Bytes) (hu : Utf8 s) (hl : s.length < 4294967296) (m : MsgRef)
    (h : MsgRef.parse b s = .ok (some m)) :
    (∃ x, m.prefix? = .ok x) ∧ (∃ x, m.command = .ok x) ∧ (∃ x, m.channel = .ok x) ∧
    (∃ x, m.params = .ok x) ∧ (∃ x, m.text = .ok x) ∧
    ((∃ e, m.tags = .error e) ↔ ∃ kv ∈ shortTagsOf s, kv.1 = none ∨ kv.2 = none) := by
  have hr := returned_rest hu hl h
  split at hr
  · simp at hr
  · obtain ⟨m', hm, hsrc, hch, htags, R⟩ := hr
    injection hm with hm
    subst hm
    refine ⟨⟨_, R.prefix?⟩, ⟨_, R.command⟩, ?_, ⟨_, R.params⟩, ⟨_, R.text⟩, ?_⟩
    · unfold MsgRef.channel
      rw [R.command, bind_ok]
      split
      · rw [R.params]; exact ⟨_, rfl⟩
      · rw [R.params]; exact ⟨_, rfl⟩
      · exact ⟨_, R.rawChannel⟩
    · have ht : m.tags = match allStrings (shortTagsOf s) with
          | some l => .ok l
          | none => .error .slice := by
        unfold MsgRef.tags
        rw [hsrc, hch, htags]
        exact tags_of_short (short_of_line b.checks hu hl)
      rw [ht, ← allStrings_none]
      cases allStrings (shortTagsOf s) <;> simp

example := C01_accessors_exact ⟨.scalar, true⟩ samplePriv (utf8_of samplePriv_ok) (within_of samplePriv_ok).len _
  (given_eq _ samplePriv_msg)

/-- C17, exactly: in a line below 4 GiB that is parsed, each key is the key's text cut to its length modulo
65536, its value starts one byte later and is cut likewise, and `tags` panics exactly when one of these cuts is
inside a character. -/
theorem C17_exact (b : Build) (s : Bytes) (hu : Utf8 s) (hl : s.length < 4294967296) (m : MsgRef)
    (h : MsgRef.parse b s = .ok (some m)) :
    m.tags = match allStrings (shortTagsOf s) with
      | some l => .ok l
      | none => .error .slice := by
  have hr := returned_rest hu hl h
  split at hr
  · simp at hr
  · obtain ⟨m', hm, hsrc, hch, htags, -⟩ := hr
    injection hm with hm
    subst hm
    unfold MsgRef.tags
    rw [hsrc, hch, htags]
    exact tags_of_short (short_of_line b.checks hu hl)

example := C17_exact ⟨.scalar, true⟩ samplePriv (utf8_of samplePriv_ok) (within_of samplePriv_ok).len _
  (given_eq _ samplePriv_msg)

/-- C17, looking up one tag, exactly. -/
theorem C17_lookup_exact (b : Build) (s : Bytes) (hu : Utf8 s) (hl : s.length < 4294967296) (m : MsgRef)
    (h : MsgRef.parse b s = .ok (some m)) (t : Tag) :
    m.tag t = match lookupShort t.asStr (shortTagsOf s) with
      | some r => .ok r
      | none => .error .slice := by
  have hr := returned_rest hu hl h
  split at hr
  · simp at hr
  · obtain ⟨m', hm, hsrc, hch, htags, -⟩ := hr
    injection hm with hm
    subst hm
    unfold MsgRef.tag
    rw [hsrc, hch, htags]
    exact tag_of_short (short_of_line b.checks hu hl) t.asStr

/-- A key of 65537 bytes, of which one is kept: the value then starts inside the key. -/
example (rest : Bytes) :
    shortKey (List.replicate 65537 0x61 ++ EQS :: (b!"xyz" ++ rest)) 65537 = some (b!"a") ∧
    shortValue (List.replicate 65537 0x61 ++ EQS :: (b!"xyz" ++ rest)) 65537 3 = some (b!"aaa") := by
  have h : List.replicate 65537 (0x61 : UInt8) = b!"aaaaaa" ++ List.replicate 65531 0x61 := rfl
  rw [h]
  generalize List.replicate 65531 (0x61 : UInt8) = z
  exact ⟨rfl, rfl⟩

end Tmi.Props
