/-
Properties C01, C02, C08-C17: parsing one line.
-/
import Verif.Proofs.Samples
import Verif.Proofs.LineSpec
import Verif.Proofs.Rebuild
import Verif.Spec.TagName
import Verif.Props.Vector

namespace Tmi.Props
open Tmi.Model Tmi.Spec Tmi.Proofs

/-- A realistic line used in the non-vacuity examples. -/
def sampleLine : Bytes :=
  b!"@badges=moderator/1;id=abc;id=def :nick!user@host.tmi.twitch.tv PRIVMSG #channel :hello: world"

theorem sample_utf8 : Utf8 sampleLine := .of_ascii (by decide +kernel)
theorem sample_within : Within sampleLine :=
  ⟨by decide +kernel, by decide +kernel, by decide +kernel⟩
theorem sample_terminated (b : Build) : TagsTerminated b sampleLine := by
  intro _ r hr
  have : r = sampleLine.tail := by rw [hr]; rfl
  rw [this]; decide +kernel

/-! ## C01: parsing never panics -/

/-- C01, exactly when `parse` panics (lines below 4 GiB): when the tag section has more than 128
pairs, or, in a build without SIMD, when the line starts with `@` and has no space. -/
theorem C01_parse_panics_iff (b : Build) (s : Bytes) (hu : Utf8 s) (hl : s.length < 4294967296) :
    (∃ e, MsgRef.parse b s = .error e) ↔
      128 < (tagPairs s).length ∨ (b.tagParser = .scalar ∧ s.head? = some AT ∧ SP ∉ s) := by
  constructor
  · rintro ⟨e, he⟩
    by_cases hc : 128 < (tagPairs s).length
    · exact .inl hc
    · by_cases ht : TagsTerminated b s
      · obtain ⟨r, hr, _⟩ := parse_ok b hu hl (by omega) ht
        rw [hr] at he; simp at he
      · right
        unfold TagsTerminated at ht
        simp only [Classical.not_imp, Classical.not_forall] at ht
        obtain ⟨h1, r, rfl, h2⟩ := ht
        refine ⟨h1, rfl, ?_⟩
        intro hm
        rcases List.mem_cons.1 hm with h | h
        · exact absurd h (by decide)
        · exact h2 h
  · rintro (hc | ⟨h1, h2, h3⟩)
    · exact ⟨_, too_many_tags b hl hc⟩
    · obtain ⟨tp, checks⟩ := b
      simp only [] at h1
      subst h1
      cases s with
      | nil => simp at h2
      | cons c r =>
        simp at h2
        subst h2
        exact scalar_unterminated checks fun h => h3 (by simp [h])

example := C01_parse_panics_iff ⟨.scalar, true⟩ samplePriv (utf8_of samplePriv_ok) (within_of samplePriv_ok).len
example := C01_parse_panics_iff ⟨.scalar, true⟩ (b!"@a=b") (.of_ascii (by decide)) (by decide)

/-- C01, accessors: on a line within the tag limits, parsing does not panic and no accessor of the
result does.  Missing for the full claim: lines with more than 128 tags or tag keys or values of more
than 65535 bytes, and unterminated tag sections in a build without SIMD (see the negations). -/
theorem C01_never_panics_partial (b : Build) (s : Bytes) (hu : Utf8 s) (hw : Within s)
    (ht : b.tagParser = .scalar → s.head? = some AT → SP ∈ s) :
    ∃ r, MsgRef.parse b s = .ok r ∧ ∀ m, r = some m →
      (∃ x, m.tags = .ok x) ∧ (∀ t, ∃ x, m.tag t = .ok x) ∧ (∃ x, m.prefix? = .ok x) ∧
      (∃ x, m.command = .ok x) ∧ (∃ x, m.channel = .ok x) ∧ (∃ x, m.params = .ok x) ∧
      (∃ x, m.text = .ok x) := by
  have ht' : TagsTerminated b s := by
    intro h r hr
    have := ht h (by rw [hr]; rfl)
    rw [hr] at this
    rcases List.mem_cons.1 this with h | h
    · exact absurd h (by decide)
    · exact h
  have h := parse_refines b hu hw ht'
  cases hline : line s with
  | none =>
    rw [hline] at h
    exact ⟨none, h, by simp⟩
  | some l =>
    rw [hline] at h
    obtain ⟨m, hm, _, _, R⟩ := h
    refine ⟨some m, hm, ?_⟩
    intro m' hm'
    simp at hm'
    subst hm'
    refine ⟨⟨_, R.tags⟩, fun t => ⟨_, R.tag t⟩, ⟨_, R.prefix?⟩, ⟨_, R.command⟩, ?_, ⟨_, R.params⟩,
      ⟨_, R.text⟩⟩
    unfold MsgRef.channel
    rw [R.command, bind_ok]
    split
    · rw [R.params]; exact ⟨_, rfl⟩
    · rw [R.params]; exact ⟨_, rfl⟩
    · exact ⟨_, R.rawChannel⟩

example : Utf8 sampleLine ∧ Within sampleLine ∧ (sampleLine.head? = some AT → SP ∈ sampleLine) :=
  ⟨sample_utf8, sample_within, fun _ => by decide +kernel⟩

/-- C01 is false: 129 tags panic in every build. -/
theorem C01_negation_129_tags (b : Build) :
    MsgRef.parse b (AT :: (renderTags (List.replicate 129 (b!"a", b!"1"))) ++ b!" PING")
      = .error .full := by
  have h : (tagPairs (AT :: (renderTags (List.replicate 129 (b!"a", b!"1"))) ++ b!" PING")).length
      = 129 := by decide +kernel
  exact too_many_tags b (by decide +kernel) (by rw [h]; decide)

/-- C01 is false: `@a` panics without SIMD. -/
theorem C01_negation_scalar (checks : Bool) :
    MsgRef.parse ⟨.scalar, checks⟩ (b!"@a") = .error .slice := by
  cases checks <;> decide +kernel

/-! ## C02: the grammar -/

/-- C02: within the tag limits every build parses exactly the line grammar `Spec.line`. -/
theorem C02_grammar (b : Build) (s : Bytes) (hu : Utf8 s) (hw : Within s)
    (ht : b.tagParser = .scalar → s.head? = some AT → SP ∈ s) :
    (line s = none → MsgRef.parse b s = .ok none) ∧
    (∀ l, line s = some l → ∃ m, MsgRef.parse b s = .ok (some m) ∧
      m.raw = s ∧
      m.tags = .ok l.tags ∧
      m.prefix? = .ok (l.prefix?.map fun p => ⟨nickOf p, userOf p, hostOf p⟩) ∧
      (∃ c, m.command = .ok c ∧ c.asStr = l.command) ∧
      (l.command ≠ b!"353" → l.command ≠ b!"366" → m.channel = .ok l.channel) ∧
      m.params = .ok l.params ∧
      m.text = .ok (l.params.map textOf)) := by
  have ht' : TagsTerminated b s := by
    intro h r hr
    have := ht h (by rw [hr]; rfl)
    rw [hr] at this
    rcases List.mem_cons.1 this with h | h
    · exact absurd h (by decide)
    · exact h
  have h := parse_refines b hu hw ht'
  constructor
  · intro hline
    rw [hline] at h
    exact h
  · intro l hline
    rw [hline] at h
    obtain ⟨m, hm, hsrc, _, R⟩ := h
    refine ⟨m, hm, hsrc, R.tags, R.prefix?, ⟨_, R.command, commandOf_asStr _⟩, ?_, R.params, R.text⟩
    intro h1 h2
    unfold MsgRef.channel
    rw [R.command, bind_ok]
    split
    · rename_i hc
      have := commandOf_asStr l.command
      rw [hc] at this
      exact absurd this.symm h1
    · rename_i hc
      have := commandOf_asStr l.command
      rw [hc] at this
      exact absurd this.symm h2
    · exact R.rawChannel

/-- Non-vacuity of C02: what the grammar says about the sample line. -/
example : line sampleLine = some {
    tags := [(b!"badges", b!"moderator/1"), (b!"id", b!"abc"), (b!"id", b!"def")]
    prefix? := some (b!"nick!user@host.tmi.twitch.tv")
    command := b!"PRIVMSG"
    channel := some (b!"#channel")
    params := some (b!":hello: world") } := by decide +kernel

/-! ## C08: tags round-trip -/

/-- C08: rendering pairs and parsing the line gives the pairs back, whatever follows. -/
theorem C08_tags_roundtrip (b : Build) (ps : List (Bytes × Bytes)) (rest : Bytes)
    (hcount : ps.length ≤ 128)
    (hutf : ∀ p ∈ ps, Utf8 p.1 ∧ Utf8 p.2) (hrest : Utf8 rest)
    (hkey : ∀ p ∈ ps, EQS ∉ p.1 ∧ SP ∉ p.1 ∧ p.1.length < 65536)
    (hval : ∀ p ∈ ps, SEMI ∉ p.2 ∧ SP ∉ p.2 ∧ p.2.length < 65536)
    (hlen : ([AT] ++ renderTags ps ++ [SP] ++ rest).length < 4294967296) :
    ∃ r, MsgRef.parse b ([AT] ++ renderTags ps ++ [SP] ++ rest) = .ok r ∧
      (∀ m, r = some m → m.tags = .ok ps) ∧
      -- a rest that begins with a command is accepted
      (∀ c t, rest = c :: t → c ≠ SP → c ≠ COLON → r ≠ none) := by
  have hs : [AT] ++ renderTags ps ++ [SP] ++ rest = AT :: (renderTags ps ++ SP :: rest) := by simp
  rw [hs] at hlen ⊢
  have hnosp := renderTags_no_space ps fun p hp => ⟨(hkey p hp).2.1, (hval p hp).2.1⟩
  have hu : Utf8 (AT :: (renderTags ps ++ SP :: rest)) :=
    .cons (by decide) ((renderTags_utf8 ps hutf).append (.cons (by decide) hrest))
  have htk := takeTags_space rest hnosp
  have htp : tagPairs (AT :: (renderTags ps ++ SP :: rest)) = ps := by
    unfold tagPairs
    rw [htk]
    exact splitTags_render ps fun p hp => ⟨(hkey p hp).1, (hval p hp).1⟩
  have hw : Within (AT :: (renderTags ps ++ SP :: rest)) :=
    ⟨hlen, by rw [htp]; exact hcount, by
      rw [htp]; exact fun p hp => ⟨(hkey p hp).2.2, (hval p hp).2.2⟩⟩
  have ht : TagsTerminated b (AT :: (renderTags ps ++ SP :: rest)) := by
    intro _ r hr
    simp at hr
    rw [← hr]; simp
  have h := parse_refines b hu hw ht
  cases hline : line (AT :: (renderTags ps ++ SP :: rest)) with
  | none =>
    rw [hline] at h
    refine ⟨none, h, by simp, ?_⟩
    intro c t hc h1 h2
    exfalso
    unfold line at hline
    rw [htk] at hline
    simp only [] at hline
    have hp : takePrefix rest = (none, rest) := by
      rw [hc]; unfold takePrefix; simp only [if_neg h2]
    rw [hp] at hline
    simp only [] at hline
    split at hline
    · rename_i he
      rcases takeToken_cases rest with ⟨a, b', hr, ha, htt⟩ | ⟨hr, htt⟩
      · rw [htt] at he
        simp only [] at he
        subst he
        rw [hc] at hr
        simp at hr
        exact h1 hr.1
      · rw [htt] at he
        simp only [] at he
        rw [he] at hc
        simp at hc
    · simp at hline
  | some l =>
    rw [hline] at h
    obtain ⟨m, hm, _, _, R⟩ := h
    refine ⟨some m, hm, ?_, by simp⟩
    intro m' hm'
    simp at hm'
    subst hm'
    rw [R.tags]
    unfold line at hline
    rw [htk] at hline
    simp only [] at hline
    split at hline
    · simp at hline
    · simp at hline
      rw [← hline]
      simp only []
      rw [splitTags_render ps fun p hp => ⟨(hkey p hp).1, (hval p hp).1⟩]

/-- Non-vacuity of C08: an empty value, a `=` in a value, a duplicate key. -/
example : ∃ ps : List (Bytes × Bytes), ps = [(b!"a", []), (b!"b", b!"x=y"), (b!"a", b!"2")] ∧
    (∀ p ∈ ps, EQS ∉ p.1 ∧ SP ∉ p.1 ∧ p.1.length < 65536) ∧
    (∀ p ∈ ps, SEMI ∉ p.2 ∧ SP ∉ p.2 ∧ p.2.length < 65536) := by
  refine ⟨_, rfl, by decide, by decide⟩

/-! ## C09: `tag` returns the first pair -/

/-- C09: on any message whose tags can be listed, `tag` finds the first pair with that key. -/
theorem C09_tag_first (m : MsgRef) (l : List (Bytes × Bytes)) (hm : m.tags = .ok l) (t : Tag) :
    ∃ r, m.tag t = .ok r ∧
      (∀ v, r = some v ↔ ∃ pre post, l = pre ++ (t.asStr, v) :: post ∧ ∀ p ∈ pre, p.1 ≠ t.asStr) ∧
      (r = none ↔ ∀ p ∈ l, p.1 ≠ t.asStr) := by
  refine ⟨lookup t.asStr l, tag_of_tags hm t, fun v => lookup_eq_some, lookup_eq_none⟩

/-- Non-vacuity of C09: the sample line has two `id` tags; `tag` returns the first. -/
example : ∃ m, MsgRef.parse ⟨.simd .sse2 3, true⟩ sampleLine = .ok (some m) ∧
    m.tags = .ok [(b!"badges", b!"moderator/1"), (b!"id", b!"abc"), (b!"id", b!"def")] ∧
    m.tag .id = .ok (some (b!"abc")) := by
  have h := parse_refines ⟨.simd .sse2 3, true⟩ sample_utf8 sample_within (sample_terminated _)
  have hl : line sampleLine = some _ := rfl
  cases hline : line sampleLine with
  | none => exact absurd hline (by decide +kernel)
  | some l =>
    rw [hline] at h
    obtain ⟨m, hm, _, _, R⟩ := h
    have hlt : l.tags = [(b!"badges", b!"moderator/1"), (b!"id", b!"abc"), (b!"id", b!"def")] := by
      have : (line sampleLine).map (·.tags)
        = some [(b!"badges", b!"moderator/1"), (b!"id", b!"abc"), (b!"id", b!"def")] := by
        decide +kernel
      rw [hline] at this
      simpa using this
    refine ⟨m, hm, by rw [R.tags, hlt], ?_⟩
    rw [R.tag, hlt]
    decide

/-! ## C10: tag names -/

/-- C10, strings: `Tag::parse(s).as_str() == s` for every string but one. -/
theorem C10_parse_as_str_iff (s : Bytes) :
    (Tag.parse s).asStr = s ↔ s ≠ b!"pinned-chat-paid-canonical-amount" := by
  constructor
  · rintro h rfl
    exact absurd h (by decide +kernel)
  · intro hne
    unfold Tag.parse
    cases hf : tagTable.find? fun row => row.1 == s with
    | none => rfl
    | some row =>
      have h1 := List.find?_some hf
      simp at h1
      have hall : (tagTable.all fun row => row.1 == b!"pinned-chat-paid-canonical-amount"
          || row.2.asStr == row.1) = true := by decide +kernel
      rw [List.all_eq_true] at hall
      have := hall row (List.mem_of_find?_eq_some hf)
      simp only [Bool.or_eq_true, beq_iff_eq] at this
      simp only []
      rcases this with h | h
      · exact absurd (h1 ▸ h) hne
      · rw [h, h1]

/-- C10: `Display` prints the name that `as_str` returns, so what is printed is the string that was parsed, but for one. -/
theorem C10_display (s : Bytes) (t : Tag) :
    t.display = t.asStr ∧ ((Tag.parse s).display = s ↔ s ≠ b!"pinned-chat-paid-canonical-amount") :=
  ⟨rfl, C10_parse_as_str_iff s⟩

/-- C10, names: a tag is known by its variant's name in kebab case, for reading and for writing, but for one
variant that is not written by its name. -/
theorem C10_names (t : Tag) (ht : Known t) :
    Tag.parse (tagName t) = t ∧ (t.asStr = tagName t ↔ t ≠ .pinnedChatPaidCanonicalAmount) := by
  cases t with
  | unknown n => exact absurd rfl (ht n)
  | _ => decide +kernel

example := C10_names .displayName nofun

/-- C10, variants: `Tag::parse(t.as_str()) == t` for every variant but one (and every `Unknown`
whose name is not that of a variant). -/
theorem C10_as_str_parse_iff (t : Tag) :
    Tag.parse t.asStr = t ↔
      t ≠ .pinnedChatPaidCanonicalAmount ∧
      (∀ n, t = .unknown n → ∀ t', Known t' → tagName t' ≠ n) := by
  have conv : ∀ n, (∀ t', Known t' → tagName t' ≠ n) ↔ ∀ row ∈ tagTable, row.1 ≠ n := by
    intro n
    constructor
    · intro h row hrow
      have hall : (tagTable.all fun row => tagName row.2 == row.1 && match row.2 with
          | .unknown _ => false | _ => true) = true := by decide +kernel
      rw [List.all_eq_true] at hall
      have := hall row hrow
      simp only [Bool.and_eq_true, beq_iff_eq] at this
      rw [← this.1]
      refine h _ ?_
      intro n hn
      rw [hn] at this
      simp at this
    · intro h t' ht' he
      have hm : (tagTable.any fun row => row.1 == tagName t') = true := by
        cases t' with
        | unknown n => exact absurd rfl (ht' n)
        | _ => decide +kernel
      rw [List.any_eq_true] at hm
      obtain ⟨row, hrow, e⟩ := hm
      simp only [beq_iff_eq] at e
      exact h row hrow (e.trans he)
  cases t with
  | unknown n =>
    simp only [Tag.unknown.injEq, forall_eq', conv]
    simp only [Tag.asStr, Tag.parse]
    constructor
    · intro h
      refine ⟨by simp, ?_⟩
      intro row hrow he
      cases hf : tagTable.find? fun row => row.1 == n with
      | none =>
        have := List.find?_eq_none.1 hf row hrow
        simp [he] at this
      | some row' =>
        rw [hf] at h
        simp only [] at h
        have hall : (tagTable.all fun row => match row.2 with | .unknown _ => false | _ => true)
            = true := by decide +kernel
        rw [List.all_eq_true] at hall
        have := hall row' (List.mem_of_find?_eq_some hf)
        rw [h] at this
        simp at this
    · rintro ⟨_, h⟩
      have : tagTable.find? (fun row => row.1 == n) = none := by
        rw [List.find?_eq_none]
        intro row hrow
        simp [h row hrow]
      rw [this]
  | pinnedChatPaidCanonicalAmount =>
    constructor
    · intro h; exact absurd h (by decide +kernel)
    · intro h; exact absurd rfl h.1
  | _ =>
    constructor
    · intro _; exact ⟨by simp, by simp⟩
    · intro _; decide +kernel

/-- Non-vacuity of C10. -/
example : Tag.parse (b!"display-name") = .displayName ∧ (Tag.displayName).asStr = b!"display-name" ∧
    Tag.parse (b!"no-such-tag") = .unknown (b!"no-such-tag") := by decide +kernel

/-- C10 is false for the canonical amount: looking it up by its name finds another tag. -/
theorem C10_negation : (Tag.parse (b!"pinned-chat-paid-canonical-amount")).asStr
    = b!"pinned-chat-paid-amount" := by decide +kernel

/-! ## C11: prefix -/

/-- C11, parts: for every prefix text `p` without spaces the parts are determined by the last `!` and
the last `@`; formatting them gives `p` back iff no `!` follows the last `@`. -/
theorem C11_prefix (b : Build) (p rest : Bytes) (hp : SP ∉ p) (hup : Utf8 p) (hur : Utf8 rest)
    (hl : (COLON :: (p ++ SP :: rest)).length < 4294967296) (m : MsgRef)
    (hm : MsgRef.parse b (COLON :: (p ++ SP :: rest)) = .ok (some m)) :
    ∃ q : Prefix, m.prefix? = .ok (some q) ∧
      q = ⟨nickOf p, userOf p, hostOf p⟩ ∧
      (q.display = p ↔ BANG ∉ hostOf p) := by
  have hu : Utf8 (COLON :: (p ++ SP :: rest)) :=
    .cons (by decide) (hup.append (.cons (by decide) hur))
  have htk : takeTags (COLON :: (p ++ SP :: rest)) = (none, COLON :: (p ++ SP :: rest)) :=
    takeTags_no_at (by intro r h; simp at h; exact absurd h.1 (by decide))
  have htp : tagPairs (COLON :: (p ++ SP :: rest)) = [] := by unfold tagPairs; rw [htk]
  have hw : Within (COLON :: (p ++ SP :: rest)) :=
    ⟨hl, by rw [htp]; simp, by rw [htp]; simp⟩
  have ht : TagsTerminated b (COLON :: (p ++ SP :: rest)) := by
    intro _ r h; simp at h; exact absurd h.1 (by decide)
  have h := parse_refines b hu hw ht
  cases hline : line (COLON :: (p ++ SP :: rest)) with
  | none => rw [hline] at h; simp only [] at h; rw [h] at hm; simp at hm
  | some l =>
    rw [hline] at h
    obtain ⟨m', hm', _, _, R⟩ := h
    rw [hm] at hm'
    simp at hm'
    subst hm'
    have hlp : l.prefix? = some p := by
      unfold line at hline
      rw [htk] at hline
      simp only [] at hline
      have : takePrefix (COLON :: (p ++ SP :: rest)) = (some p, rest) := by
        unfold takePrefix; simp only [if_true, cut_append rest hp]
      rw [this] at hline
      simp only [] at hline
      split at hline
      · simp at hline
      · simp at hline; rw [← hline]
    refine ⟨_, by rw [R.prefix?, hlp]; rfl, rfl, display_iff p⟩

example := C11_prefix ⟨.scalar, true⟩ (b!"nick!user@host") (b!"PING") (by decide) (.of_ascii (by decide))
  (.of_ascii (by decide)) (by decide) _ (given_eq _ (by decide +kernel))

/-- C11, the excluded case: a `!` after the last `@` is not written back in its place. -/
theorem C11_bang_in_host (b : Build) (m : MsgRef)
    (hm : MsgRef.parse b (b!":a@b!c PING") = .ok (some m)) :
    ∃ q : Prefix, m.prefix? = .ok (some q) ∧ q.display ≠ b!"a@b!c" := by
  obtain ⟨q, h1, -, h3⟩ := C11_prefix b (b!"a@b!c") (b!"PING") (by decide) (.of_ascii (by decide))
    (.of_ascii (by decide)) (by decide) m hm
  exact ⟨q, h1, fun h => absurd (h3.1 h) (by decide)⟩

example := C11_bang_in_host ⟨.scalar, true⟩ _ (given_eq _ (by decide +kernel))

/-- C11, the documented shapes: `nick!user@host`, `nick@host` and `host`, for any parts without the
separators that would make the shape ambiguous. -/
theorem C11_shapes (n u h : Bytes) (hh : AT ∉ h ∧ BANG ∉ h) :
    -- nick!user@host
    (AT ∉ u → BANG ∉ u →
      nickOf (n ++ BANG :: (u ++ AT :: h)) = some n ∧ userOf (n ++ BANG :: (u ++ AT :: h)) = some u ∧
      hostOf (n ++ BANG :: (u ++ AT :: h)) = h) ∧
    -- nick@host
    (BANG ∉ n → nickOf (n ++ AT :: h) = some n ∧ userOf (n ++ AT :: h) = none ∧
      hostOf (n ++ AT :: h) = h) ∧
    -- host
    (nickOf h = none ∧ userOf h = none ∧ hostOf h = h) := by
  obtain ⟨ha, hb⟩ := hh
  refine ⟨?_, ?_, ?_⟩
  · intro hau hbu
    have e : n ++ BANG :: (u ++ AT :: h) = (n ++ BANG :: u) ++ AT :: h := by simp
    have c1 : cutLast AT (n ++ BANG :: (u ++ AT :: h)) = some (n ++ BANG :: u, h) := by
      rw [e]; exact cutLast_append _ ha
    have c2 : cutLast BANG (n ++ BANG :: (u ++ AT :: h)) = some (n, u ++ AT :: h) :=
      cutLast_append _ (by simp [hbu, hb]; decide)
    have c3 : cutLast BANG (n ++ BANG :: u) = some (n, u) := cutLast_append _ hbu
    refine ⟨?_, ?_, ?_⟩
    · unfold nickOf; rw [c2]
    · unfold userOf; rw [c1]; simp only [c3]; rfl
    · unfold hostOf; rw [c1]
  · intro hbn
    have c1 : cutLast AT (n ++ AT :: h) = some (n, h) := cutLast_append _ ha
    have c2 : cutLast BANG (n ++ AT :: h) = none := cutLast_none.2 (by simp [hbn, hb]; decide)
    have c3 : cutLast BANG n = none := cutLast_none.2 hbn
    refine ⟨?_, ?_, ?_⟩
    · unfold nickOf; rw [c2, c1]; rfl
    · unfold userOf; rw [c1]; simp only [c3]; rfl
    · unfold hostOf; rw [c1]
  · have c1 : cutLast AT h = none := cutLast_none.2 ha
    have c2 : cutLast BANG h = none := cutLast_none.2 hb
    refine ⟨?_, ?_, ?_⟩
    · unfold nickOf; rw [c2, c1]; rfl
    · unfold userOf; rw [c1]
    · unfold hostOf; rw [c1]

/-- Non-vacuity of C11, and the discrepancy: `a@b!c` is displayed as `a@b@b!c`. -/
example : nickOf (b!"n!u@h") = some (b!"n") ∧ BANG ∉ hostOf (b!"n!u@h") ∧
    (⟨nickOf (b!"a@b!c"), userOf (b!"a@b!c"), hostOf (b!"a@b!c")⟩ : Prefix).display = b!"a@b@b!c" := by
  decide

/-! ## C12: command -/

theorem command_exact (t : Bytes) :
    (∀ name k, (name, k) ∈ commandNames → (commandOf t = k ↔ t = name)) ∧
    ((∀ row ∈ commandNames, row.1 ≠ t) ↔ commandOf t = .other t) ∧
    (∀ t', commandOf t = .other t' → t' = t) := by
  refine ⟨?_, ?_, ?_⟩
  · intro name k hk
    have h1 : ∀ row ∈ commandNames, commandOf row.1 = row.2 ∧ row.2.asStr = row.1 := by
      decide +kernel
    have hk' := h1 _ hk
    simp only [] at hk'
    constructor
    · intro hc
      have := commandOf_asStr t
      rw [hc, hk'.2] at this
      exact this.symm
    · intro hc
      rw [hc, hk'.1]
  · constructor
    · intro hrows
      have hnone : (knownCommands.find? fun c => c.asStr == t) = none := by
        rw [List.find?_eq_none]
        intro c hc
        have hall : ∀ c ∈ knownCommands, ∃ row ∈ commandNames, row.1 = c.asStr := by
          decide +kernel
        obtain ⟨row, hr, he⟩ := hall c hc
        simp only [beq_iff_eq]
        rw [← he]
        exact hrows row hr
      unfold commandOf
      rw [hnone]
      rfl
    · intro hc row hrow he
      have h1 : ∀ row ∈ commandNames, commandOf row.1 = row.2 ∧ row.2 ≠ .other row.1 := by
        decide +kernel
      have := h1 row hrow
      rw [he, hc] at this
      exact this.2 this.1.symm
  · intro t' hc
    have := commandOf_asStr t
    rw [hc] at this
    exact this

/-- C12: the command is the known one spelled exactly like the token, and otherwise `Other(token)`;
its string is the token, and so is what `Display` prints. -/
theorem C12_command (b : Build) (s : Bytes) (hu : Utf8 s) (hw : Within s) (ht : TagsTerminated b s)
    (l : Line) (hline : line s = some l) :
    ∃ m c, MsgRef.parse b s = .ok (some m) ∧ m.command = .ok c ∧ c.asStr = l.command ∧ c.display = l.command ∧
      (∀ name k, (name, k) ∈ commandNames → (c = k ↔ l.command = name)) ∧
      ((∀ row ∈ commandNames, row.1 ≠ l.command) ↔ c = .other l.command) ∧
      (∀ t, c = .other t → t = l.command) := by
  have h := parse_refines b hu hw ht
  rw [hline] at h
  obtain ⟨m, hm, _, _, R⟩ := h
  exact ⟨m, commandOf l.command, hm, R.command, commandOf_asStr _, commandOf_asStr _, command_exact _⟩

example : commandOf (b!"PRIVMSG") = .privmsg ∧ commandOf (b!"privmsg") = .other (b!"privmsg") := by
  decide

/-! ## C13: channel -/

theorem channel_exact {s : Bytes} {l : Line} (hline : line s = some l) {m : MsgRef}
    (hc' : m.command = .ok (commandOf l.command)) (hp' : m.params = .ok l.params) (hr' : optSlice m.src m.parts.channel = .ok l.channel) :
    (l.command ≠ b!"353" → l.command ≠ b!"366" → m.channel = .ok l.channel) ∧
    (∀ c, l.channel = some c → ∃ n, c = HASH :: n ∧ SP ∉ n) ∧
    (∀ cs, l.command = b!"353" → l.params = some (enc cs) →
      m.channel = .ok ((words cs)[2]?.map enc)) ∧
    (∀ cs, l.command = b!"366" → l.params = some (enc cs) →
      m.channel = .ok ((words cs)[1]?.map enc)) ∧
    (l.command = b!"353" ∨ l.command = b!"366" → l.params = none → m.channel = .ok none) := by
  refine ⟨?_, fun c hc => line_channel hline hc, ?_, ?_, ?_⟩
  · intro h1 h2
    unfold MsgRef.channel
    rw [hc', bind_ok]
    split
    · rename_i hc
      have := commandOf_asStr l.command
      rw [hc] at this
      exact absurd this.symm h1
    · rename_i hc
      have := commandOf_asStr l.command
      rw [hc] at this
      exact absurd this.symm h2
    · exact hr'
  · intro cs hc hp
    have hcmd : commandOf (b!"353") = .rplNames := by decide
    unfold MsgRef.channel
    rw [hc', bind_ok, hc, hcmd]
    simp only []
    rw [hp', hp, bind_ok]
    simp [splitWhitespace_eq, pure, Except.pure]
  · intro cs hc hp
    have hcmd : commandOf (b!"366") = .rplEndOfNames := by decide
    unfold MsgRef.channel
    rw [hc', bind_ok, hc, hcmd]
    simp only []
    rw [hp', hp, bind_ok]
    simp [splitWhitespace_eq, pure, Except.pure]
  · intro hc hp
    have h1 : commandOf (b!"353") = .rplNames := by decide
    have h2 : commandOf (b!"366") = .rplEndOfNames := by decide
    unfold MsgRef.channel
    rcases hc with hc | hc
    · rw [hc', bind_ok, hc, h1]
      simp only []
      rw [hp', hp, bind_ok]
      rfl
    · rw [hc', bind_ok, hc, h2]
      simp only []
      rw [hp', hp, bind_ok]
      rfl

/-- C13: the channel is the `#` token after the command; for 353 the third word of the params, for
366 the second. -/
theorem C13_channel (b : Build) (s : Bytes) (hu : Utf8 s) (hw : Within s) (ht : TagsTerminated b s)
    (l : Line) (hline : line s = some l) :
    ∃ m, MsgRef.parse b s = .ok (some m) ∧
      (l.command ≠ b!"353" → l.command ≠ b!"366" → m.channel = .ok l.channel) ∧
      (∀ c, l.channel = some c → ∃ n, c = HASH :: n ∧ SP ∉ n) ∧
      (∀ cs, l.command = b!"353" → l.params = some (enc cs) →
        m.channel = .ok ((words cs)[2]?.map enc)) ∧
      (∀ cs, l.command = b!"366" → l.params = some (enc cs) →
        m.channel = .ok ((words cs)[1]?.map enc)) ∧
      (l.command = b!"353" ∨ l.command = b!"366" → l.params = none → m.channel = .ok none) := by
  have h := parse_refines b hu hw ht
  rw [hline] at h
  obtain ⟨m, hm, _, _, R⟩ := h
  exact ⟨m, hm, channel_exact hline R.command R.params R.rawChannel⟩

/-- Non-vacuity of C13: a 353 line. -/
example : (line (b!":tmi.twitch.tv 353 nick = #chan :nick")).map (fun l => (l.command, l.params))
      = some (b!"353", some (b!"nick = #chan :nick")) ∧
    (splitWhitespace (b!"nick = #chan :nick"))[2]? = some (b!"#chan") := by decide +kernel

/-! ## C14: text -/

theorem text_exact (ps : Option Bytes) :
    (ps.map textOf = none ↔ ps = none) ∧
    (∀ p, ps = some p → COLON ∉ p → ps.map textOf = some p) ∧
    (∀ a t, ps = some (a ++ COLON :: t) → COLON ∉ a → ps.map textOf = some t) ∧
    (∀ a t, ps = some (a ++ COLON :: t) → COLON ∉ t → COLON ∉ a → ps.map textOf = some t) := by
  refine ⟨by simp, ?_, ?_, ?_⟩
  · intro p hp hc
    subst hp
    simp [textOf, cut_none hc]
  · intro a t hp hc
    subst hp
    simp [textOf, cut_append t hc]
  · intro a t hp _ hc
    subst hp
    simp [textOf, cut_append t hc]

/-- C14: the text is what follows the first `:` of the params, or all of them. -/
theorem C14_text (b : Build) (s : Bytes) (hu : Utf8 s) (hw : Within s) (ht : TagsTerminated b s)
    (l : Line) (hline : line s = some l) :
    ∃ m r, MsgRef.parse b s = .ok (some m) ∧ m.text = .ok r ∧
      (r = none ↔ l.params = none) ∧
      (∀ p, l.params = some p → COLON ∉ p → r = some p) ∧
      (∀ a t, l.params = some (a ++ COLON :: t) → COLON ∉ a → r = some t) ∧
      -- the documented "after the last `:`", when there is only one
      (∀ a t, l.params = some (a ++ COLON :: t) → COLON ∉ t → COLON ∉ a → r = some t) := by
  have h := parse_refines b hu hw ht
  rw [hline] at h
  obtain ⟨m, hm, _, _, R⟩ := h
  exact ⟨m, _, hm, R.text, text_exact _⟩

example := C14_text ⟨.scalar, true⟩ samplePriv (utf8_of samplePriv_ok) (within_of samplePriv_ok)
  (terminated_of samplePriv_ok _) _ (line_eq _ samplePriv_line)

/-- The documentation of `text` ("the last `:`") does not describe the code: the sample line has two. -/
theorem C14_doc_negation : (line sampleLine).map (fun l => l.params.map textOf)
      = some (some (b!"hello: world")) ∧
    cutLast COLON (b!":hello: world") = some (b!":hello", b!" world") := by decide +kernel

/-! ## C15: owned and borrowed messages -/

/-- C15: both parse functions accept the same lines wherever the two copies of the string lie, and
conversions lose nothing; all accessors except `text` agree. -/
theorem C15_owned_parse (a : Arch) (p₁ p₂ : Nat) (checks : Bool) (s : Bytes) (m : MsgRef) :
    MsgRef.parse ⟨.simd a p₁, checks⟩ s = .ok (some m) ↔
      MsgOwned.parse ⟨.simd a p₂, checks⟩ s = .ok (some m.intoOwned) ∧ m.src = s := by
  rw [C03_backends_agree a a p₁ p₂]
  unfold MsgOwned.parse
  cases h : MsgRef.parse ⟨.simd a p₂, checks⟩ s with
  | error e => simp [bind, Except.bind]
  | ok r =>
    cases r with
    | none => simp [bind, Except.bind, pure, Except.pure]
    | some m' =>
      have hsrc : m'.src = s := parse_src h
      simp only [bind_ok, Except.ok.injEq, Option.some.injEq, pure, Except.pure]
      constructor
      · rintro rfl; exact ⟨by rw [MsgRef.intoOwned, hsrc], hsrc⟩
      · rintro ⟨h1, h2⟩
        unfold MsgRef.intoOwned at h1
        simp only [MsgOwned.mk.injEq] at h1
        cases m'; cases m
        simp_all

/-- C15, the scalar build: what the borrowed parser accepts, the owned one accepts with the same parts. -/
theorem C15_owned_scalar (checks : Bool) (s : Bytes) (m : MsgRef) :
    MsgRef.parse ⟨.scalar, checks⟩ s = .ok (some m) →
      MsgOwned.parse ⟨.scalar, checks⟩ s = .ok (some m.intoOwned) := by
  intro h
  unfold MsgOwned.parse
  rw [h, bind_ok]
  have := parse_src h
  simp [MsgRef.intoOwned, pure, Except.pure, this]

/-- C15, accessors: equal on every message value, `text` under the condition that there are no
params or they contain a `:`. -/
theorem C15_accessors_partial (m : MsgRef) :
    m.intoOwned.asRef = m ∧ m.intoOwned.raw = m.raw ∧ m.intoOwned.tags = m.tags ∧
    (∀ t, m.intoOwned.tag t = m.tag t) ∧ m.intoOwned.prefix? = m.prefix? ∧
    m.intoOwned.command = m.command ∧ m.intoOwned.channel = m.channel ∧
    m.intoOwned.params = m.params ∧
    (m.params = .ok none → m.intoOwned.text = m.text) ∧
    (∀ p, m.params = .ok (some p) → COLON ∈ p → m.intoOwned.text = m.text) ∧
    (∀ p, m.params = .ok (some p) → COLON ∉ p →
      m.intoOwned.text = .ok none ∧ m.text = .ok (some p)) := by
  refine ⟨rfl, rfl, rfl, fun _ => rfl, rfl, rfl, rfl, rfl, ?_, ?_, ?_⟩
  · intro h
    unfold MsgRef.params at h
    unfold MsgOwned.text MsgRef.text
    have : m.intoOwned.params = m.params := rfl
    rw [this]
    unfold MsgRef.params
    rw [h, bind_ok]
    cases hp : m.parts.params with
    | none => rfl
    | some sp =>
      rw [hp] at h
      simp only [optSlice] at h
      cases hg : sp.get m.src <;> rw [hg] at h <;> simp [bind, Except.bind, pure, Except.pure] at h
  · intro p h hc
    unfold MsgRef.params at h
    unfold MsgOwned.text MsgRef.text
    have : m.intoOwned.params = m.params := rfl
    rw [this]
    unfold MsgRef.params
    rw [h, bind_ok]
    cases hp : m.parts.params with
    | none => rw [hp] at h; simp [optSlice] at h
    | some sp =>
      rw [hp] at h
      simp only [optSlice] at h
      cases hg : sp.get m.src with
      | error e => rw [hg] at h; simp [bind, Except.bind] at h
      | ok q =>
        rw [hg] at h
        simp [bind, Except.bind, pure, Except.pure] at h
        subst h
        simp only [hg, bind_ok]
        obtain ⟨a, c, rfl, ha⟩ := mem_split hc
        rw [find_append c ha]
  · intro p h hc
    unfold MsgRef.params at h
    unfold MsgOwned.text MsgRef.text
    have : m.intoOwned.params = m.params := rfl
    rw [this]
    unfold MsgRef.params
    rw [h, bind_ok]
    cases hp : m.parts.params with
    | none => rw [hp] at h; simp [optSlice] at h
    | some sp =>
      rw [hp] at h
      simp only [optSlice] at h
      cases hg : sp.get m.src with
      | error e => rw [hg] at h; simp [bind, Except.bind] at h
      | ok q =>
        rw [hg] at h
        simp [bind, Except.bind, pure, Except.pure] at h
        subst h
        simp only [hg, bind_ok]
        rw [find_none hc]
        exact ⟨rfl, rfl⟩

/-- C15 is false for `text`: a line whose params have no `:`. -/
theorem C15_negation : ∃ m, MsgRef.parse ⟨.simd .sse2 0, true⟩ (b!"PING abc") = .ok (some m) ∧
    m.text = .ok (some (b!"abc")) ∧ m.intoOwned.text = .ok none := by
  refine ⟨⟨true, b!"PING abc", [], none, .ping, none, some ⟨5, 8⟩⟩, by decide +kernel,
    by decide +kernel, by decide +kernel⟩

/-! ## C16: nothing is lost -/

/-- C16: the line is the concatenation of its pieces, except that one trailing space before absent
params is lost.  `t` is the tag section whose pairs `tags` lists. -/
theorem C16_rebuild_partial (b : Build) (s : Bytes) (hu : Utf8 s) (hw : Within s)
    (ht : TagsTerminated b s) (m : MsgRef) (hm : MsgRef.parse b s = .ok (some m)) :
    ∃ (t pfx chan params : Option Bytes) (cmd : Bytes),
      m.tags = .ok (match t with | some t => splitTags t | none => []) ∧
      m.prefix? = .ok (pfx.map fun p => ⟨nickOf p, userOf p, hostOf p⟩) ∧
      (∃ c, m.command = .ok c ∧ c.asStr = cmd) ∧
      (cmd ≠ b!"353" → cmd ≠ b!"366" → m.channel = .ok chan) ∧
      m.params = .ok params ∧
      ∃ trail : Bytes, (trail = [] ∨ (trail = [SP] ∧ params = none)) ∧
      m.raw = (match t with | some t => [AT] ++ t ++ [SP] | none => [])
        ++ (match pfx with | some p => [COLON] ++ p ++ [SP] | none => [])
        ++ cmd
        ++ (match chan with | some c => [SP] ++ c | none => [])
        ++ (match params with | some p => [SP] ++ p | none => []) ++ trail := by
  have h := C02_grammar b s hu hw (by
    intro h1 h2
    cases s with
    | nil => simp at h2
    | cons c r =>
      simp at h2
      subst h2
      have := ht h1 r rfl
      simp [this])
  cases hline : line s with
  | none => rw [h.1 hline] at hm; simp at hm
  | some l =>
    obtain ⟨m', hm', h1, h2, h3, h4, h5, h6, h7⟩ := h.2 l hline
    rw [hm] at hm'
    simp at hm'
    subst hm'
    obtain ⟨t, -, htag, hr⟩ := line_rebuild hline
    rcases hr with hr | ⟨hp, hr⟩
    · refine ⟨t, l.prefix?, l.channel, l.params, l.command, by rw [h2, htag]; rfl, h3, h4, h5, h6, [],
        .inl rfl, ?_⟩
      rw [h1, List.append_nil]
      exact hr
    · refine ⟨t, l.prefix?, l.channel, l.params, l.command, by rw [h2, htag]; rfl, h3, h4, h5, h6, [SP],
        .inr ⟨rfl, hp⟩, ?_⟩
      rw [h1, hp, List.append_nil]
      exact hr

example := C16_rebuild_partial ⟨.scalar, true⟩ samplePriv (utf8_of samplePriv_ok) (within_of samplePriv_ok)
  (terminated_of samplePriv_ok _) _ (given_eq _ samplePriv_msg)

/-- C16, exactly when nothing is lost: the line written from the tags, the formatted prefix, the command,
the channel and the params that a message exposes is the line itself iff its tag section is a list of
`key=value`, its prefix has no `!` after the last `@`, and it does not end with a space behind which the
params are missing. -/
theorem C16_exact (b : Build) (s : Bytes) (hu : Utf8 s) (hw : Within s) (ht : TagsTerminated b s)
    (m : MsgRef) (hm : MsgRef.parse b s = .ok (some m)) :
    ∃ (tags : List (Bytes × Bytes)) (pfx : Option Prefix) (c : Command) (chan params : Option Bytes),
      m.raw = s ∧ m.tags = .ok tags ∧ m.prefix? = .ok pfx ∧ m.command = .ok c ∧
      (c.asStr ≠ b!"353" → c.asStr ≠ b!"366" → m.channel = .ok chan) ∧ m.params = .ok params ∧
      (s = rebuild tags (pfx.map Prefix.display) c.asStr chan params ↔
        TagsCanonical s ∧ PrefixCanonical s ∧ EndCanonical s) := by
  have h := C02_grammar b s hu hw (by
    intro h1 h2
    cases s with
    | nil => simp at h2
    | cons c r =>
      simp at h2
      subst h2
      have := ht h1 r rfl
      simp [this])
  cases hline : line s with
  | none => rw [h.1 hline] at hm; simp at hm
  | some l =>
    obtain ⟨m', hm', h1, h2, h3, ⟨c, h4, hc⟩, h5, h6, h7⟩ := h.2 l hline
    rw [hm] at hm'
    simp at hm'
    subst hm'
    refine ⟨l.tags, _, c, l.channel, l.params, h1, h2, h3, h4, by rw [hc]; exact h5, h6, ?_⟩
    rw [← rebuild_iff hline, hc, Option.map_map]
    rfl

/-- Non-vacuity of C16: a line that is rebuilt, and lines that fail each of the three conditions. -/
example : sampleLine = rebuild [(b!"badges", b!"moderator/1"), (b!"id", b!"abc"), (b!"id", b!"def")]
    (some (b!"nick!user@host.tmi.twitch.tv")) (b!"PRIVMSG") (some (b!"#channel"))
    (some (b!":hello: world")) := by decide +kernel
example : ¬ TagsCanonical (b!"@a=b;c PING") := by
  intro h
  obtain ⟨ps, h0, h1, h2⟩ := h (b!"a=b;c") (b!"PING") rfl (by decide)
  have h3 := splitTags_render ps h1
  rw [← h2] at h3
  have h4 : splitTags (b!"a=b;c") = [(b!"a", b!"b")] := by decide +kernel
  rw [h4] at h3
  subst h3
  exact absurd h2 (by decide)
example : ¬ PrefixCanonical (b!":a@b!c PING") := by
  intro h
  have hl : line (b!":a@b!c PING") = some ⟨[], some (b!"a@b!c"), b!"PING", none, none⟩ := by
    decide +kernel
  exact absurd (h _ _ hl rfl) (by decide +kernel)
example : ¬ EndCanonical (b!"PING ") := by
  intro h
  have hl : line (b!"PING ") = some ⟨[], none, b!"PING", none, none⟩ := by decide +kernel
  exact absurd (h _ hl rfl) (by decide +kernel)

/-- C16 as stated is false: `PING` and `PING ` expose the same pieces. -/
theorem C16_negation (b : Build) : ∃ m m' : MsgRef,
    MsgRef.parse b (b!"PING") = .ok (some m) ∧ MsgRef.parse b (b!"PING ") = .ok (some m') ∧
    m.tags = m'.tags ∧ m.prefix? = m'.prefix? ∧ m.command = m'.command ∧ m.channel = m'.channel ∧
    m.params = m'.params ∧ m.text = m'.text := by
  obtain ⟨tp, ck⟩ := b
  refine ⟨⟨ck, b!"PING", [], none, .ping, none, none⟩, ⟨ck, b!"PING ", [], none, .ping, none, none⟩,
    ?_, ?_, by rfl, by rfl, by rfl, by rfl, by rfl, by rfl⟩
  · cases tp <;> rfl
  · cases tp <;> rfl

/-! ## C17: keys and values of any length -/

/-- C17, what happens to one pair with a key of at most 65535 bytes and a value of any length: the
value is cut to its length modulo 65536, and reading it panics when that is inside a character. -/
theorem C17_truncation (b : Build) (k v rest : Bytes) (hk : Utf8 k) (hv : Utf8 v) (hr : Utf8 rest)
    (hk1 : EQS ∉ k) (hk2 : SP ∉ k) (hk3 : k.length < 65536) (hv1 : SEMI ∉ v) (hv2 : SP ∉ v)
    (hl : ([AT] ++ k ++ [EQS] ++ v ++ [SP] ++ rest).length < 4294967296) (m : MsgRef)
    (hm : MsgRef.parse b ([AT] ++ k ++ [EQS] ++ v ++ [SP] ++ rest) = .ok (some m)) :
    m.tags = if isCharBoundary v (v.length % 65536) then .ok [(k, v.take (v.length % 65536))]
      else .error .slice := by
  exact tags_truncated b k v rest hk hv hr hk1 hk2 hk3 hv1 hv2 hl m hm

example := C17_truncation ⟨.scalar, true⟩ (b!"id") (b!"x=y") (b!"PING") (.of_ascii (by decide))
  (.of_ascii (by decide)) (.of_ascii (by decide)) (by decide) (by decide) (by decide) (by decide) (by decide)
  (by decide) _ (given_eq _ (by decide +kernel))

/-- C17, the part that holds: within the limits keys and values are returned whole. -/
theorem C17_whole_partial (b : Build) (k v rest : Bytes) (hk : Utf8 k) (hv : Utf8 v) (hr : Utf8 rest)
    (hk1 : EQS ∉ k) (hk2 : SP ∉ k) (hk3 : k.length < 65536) (hv1 : SEMI ∉ v) (hv2 : SP ∉ v)
    (hv3 : v.length < 65536)
    (hl : ([AT] ++ k ++ [EQS] ++ v ++ [SP] ++ rest).length < 4294967296) (m : MsgRef)
    (hm : MsgRef.parse b ([AT] ++ k ++ [EQS] ++ v ++ [SP] ++ rest) = .ok (some m)) :
    m.tags = .ok [(k, v)] := by
  rw [C17_truncation b k v rest hk hv hr hk1 hk2 hk3 hv1 hv2 hl m hm, Nat.mod_eq_of_lt hv3,
    if_pos boundary_len, List.take_length]

example := C17_whole_partial ⟨.scalar, true⟩ (b!"id") (b!"x=y") (b!"PING") (.of_ascii (by decide))
  (.of_ascii (by decide)) (.of_ascii (by decide)) (by decide) (by decide) (by decide) (by decide) (by decide)
  (by decide) (by decide) _ (given_eq _ (by decide +kernel))

/-- C17 is false: a value of 65536 bytes is reported as empty. -/
theorem C17_negation_truncated (b : Build) (m : MsgRef)
    (hm : MsgRef.parse b ([AT] ++ b!"id" ++ [EQS] ++ List.replicate 65536 0x61 ++ [SP] ++ b!"PING")
      = .ok (some m)) :
    m.tags = .ok [(b!"id", [])] := by
  have hv : ∀ x ∈ List.replicate 65536 (0x61 : UInt8), x = 0x61 := fun x hx =>
    (List.mem_replicate.1 hx).2
  rw [C17_truncation b (b!"id") (List.replicate 65536 0x61) (b!"PING") (.of_ascii (by decide))
    (.of_ascii fun x hx => by rw [hv x hx]; decide) (.of_ascii (by decide)) (by decide) (by decide)
    (by decide) (fun h => absurd (hv _ h) (by decide)) (fun h => absurd (hv _ h) (by decide))
    (by simp only [List.length_append, List.length_replicate]; decide) m hm]
  rw [List.length_replicate, if_pos (by rfl)]
  rfl

/-- A value of 32768 times `é` and an `a`: 65537 bytes. -/
def longValue : Bytes := (List.replicate 32768 [(0xC3 : UInt8), 0xA9]).flatten ++ [0x61]

theorem longValue_mem : ∀ n, ∀ x ∈ (List.replicate n [(0xC3 : UInt8), 0xA9]).flatten ++ [0x61],
    x = 0xC3 ∨ x = 0xA9 ∨ x = 0x61 := by
  intro n x hx
  rcases List.mem_append.1 hx with hx | hx
  · obtain ⟨l, hl, hx⟩ := List.mem_flatten.1 hx
    rw [(List.mem_replicate.1 hl).2] at hx
    simp at hx
    rcases hx with h | h
    · exact .inl h
    · exact .inr (.inl h)
  · simp at hx; exact .inr (.inr hx)

theorem longValue_length : ∀ n, ((List.replicate n [(0xC3 : UInt8), 0xA9]).flatten).length = 2 * n
  | 0 => rfl
  | n + 1 => by
    rw [List.replicate_succ, List.flatten_cons, List.length_append, longValue_length n]
    simp; omega

theorem longValue_utf8 : ∀ n, Utf8 ((List.replicate n [(0xC3 : UInt8), 0xA9]).flatten ++ [0x61])
  | 0 => .of_ascii (by decide)
  | n + 1 => by
    rw [List.replicate_succ, List.flatten_cons, List.append_assoc]
    exact Utf8.append ⟨['é'], by decide⟩ (longValue_utf8 n)

theorem long_boundary : ¬ isCharBoundary longValue (65537 % 65536) = true := by
  have : longValue = 0xC3 :: 0xA9 :: ((List.replicate 32767 [(0xC3 : UInt8), 0xA9]).flatten ++ [0x61]) := by
    unfold longValue
    rw [show 32768 = 32767 + 1 from rfl, List.replicate_succ, List.flatten_cons]
    rfl
  rw [this]
  show ¬ isCharBoundary _ (0 + 1) = true
  unfold isCharBoundary
  simp only [Nat.zero_add, List.getElem?_cons_succ, List.getElem?_cons_zero]
  decide

/-- C17 and C01 are false: reading the tags of such a line panics. -/
theorem C17_negation_panics (b : Build) (m : MsgRef)
    (hm : MsgRef.parse b ([AT] ++ b!"id" ++ [EQS] ++ longValue ++ [SP] ++ b!"PING") = .ok (some m)) :
    m.tags = .error .slice := by
  have hv := longValue_mem 32768
  have hlen : longValue.length = 65537 := by
    unfold longValue
    rw [List.length_append, longValue_length]
    rfl
  rw [C17_truncation b (b!"id") longValue (b!"PING") (.of_ascii (by decide))
    (longValue_utf8 32768) (.of_ascii (by decide)) (by decide) (by decide)
    (by decide) (fun h => absurd (hv _ h) (by decide)) (fun h => absurd (hv _ h) (by decide))
    (by simp only [List.length_append, hlen]; decide) m hm]
  rw [hlen, if_neg]
  exact long_boundary

/-- And that line parses. -/
theorem C17_negation_panics_reachable (b : Build) :
    ∃ m, MsgRef.parse b ([AT] ++ b!"id" ++ [EQS] ++ longValue ++ [SP] ++ b!"PING") = .ok (some m) := by
  have hv := longValue_mem 32768
  have hlen : longValue.length = 65537 := by
    unfold longValue
    rw [List.length_append, longValue_length]
    rfl
  exact parse_single_tag b (b!"id") longValue (.of_ascii (by decide))
    (longValue_utf8 32768) (by decide) (by decide)
    (fun h => absurd (hv _ h) (by decide)) (fun h => absurd (hv _ h) (by decide))
    (by simp only [List.length_append, hlen]; decide)

/-- Such lines do parse. -/
theorem C17_negation_reachable (b : Build) :
    ∃ m, MsgRef.parse b ([AT] ++ b!"id" ++ [EQS] ++ List.replicate 65536 0x61 ++ [SP] ++ b!"PING")
      = .ok (some m) := by
  have hv : ∀ x ∈ List.replicate 65536 (0x61 : UInt8), x = 0x61 := fun x hx =>
    (List.mem_replicate.1 hx).2
  exact parse_single_tag b (b!"id") (List.replicate 65536 0x61) (.of_ascii (by decide))
    (.of_ascii fun x hx => by rw [hv x hx]; decide) (by decide) (by decide)
    (fun h => absurd (hv _ h) (by decide)) (fun h => absurd (hv _ h) (by decide))
    (by simp only [List.length_append, List.length_replicate]; decide)

end Tmi.Props
